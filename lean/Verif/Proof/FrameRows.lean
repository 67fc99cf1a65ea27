import Verif.Spec.FrameRows
import Verif.Proof.Attributes

/-! Reading a parameter frame, row by row. -/

set_option linter.unusedSectionVars false

namespace Soepy
open Spec
variable {K : Type} [Field K] [LinearOrder K] {frame : Frame K}

/-- The computation returns if nothing is missing, and otherwise raises `KeyError`. -/
def Reads {α : Type} (x : Except PyErr α) : Option String → Prop
  | none => ∃ a, x = .ok a
  | some k => x = .error (.keyError k)

theorem Reads.bind {α β : Type} {x : Except PyErr α} {f : α → Except PyErr β} {o o' : Option String}
    (hx : Reads x o) (hf : ∀ a, x = .ok a → o = none → Reads (f a) o') : Reads (x >>= f) (o.or o') := by
  cases o with
  | none =>
    obtain ⟨a, rfl⟩ := hx
    rw [Option.none_or, ok_bind]
    exact hf a rfl rfl
  | some k =>
    have hx : x = .error (.keyError k) := hx
    rw [hx]
    rfl

theorem Reads.last {α β : Type} {x : Except PyErr α} {f : α → Except PyErr β} {o : Option String}
    (hx : Reads x o) (hf : ∀ a, x = .ok a → Reads (f a) none) : Reads (x >>= f) o := by
  rw [← Option.or_none (o := o)]
  exact hx.bind fun a h _ => hf a h

theorem reads_pure {α : Type} (a : α) : Reads (pure a) none := ⟨a, rfl⟩

theorem reads_category (frame : Frame K) (c : String) :
    Reads (dget (paramsDict frame) c) (missingCategory frame c) := by
  unfold dget missingCategory
  rw [paramsDict_lookup]
  by_cases h : ∀ r ∈ frame, r.1 ≠ c
  · rw [if_pos h, if_pos (by simpa using h)]
    rfl
  · rw [if_neg h, if_neg (by simpa using h)]
    exact ⟨_, rfl⟩

theorem reads_name {c : String} {d : Dict K} (hd : dget (paramsDict frame) c = .ok d) (n : String) :
    Reads (dget d n) (missingName frame c n) := by
  have h1 := dget_ok hd
  rw [paramsDict_lookup] at h1
  split_ifs at h1
  obtain rfl := Option.some.inj h1
  unfold dget missingName
  rw [lookup_foldl_rows, List.lookup_nil, Option.or_none, List.filter_filter]
  by_cases h : ∀ r ∈ frame, ¬ (r.1 = c ∧ r.2.1 = n)
  · rw [if_pos h, List.filter_eq_nil_iff.2 (by
      intro r hr
      have := h r hr
      simp only [Bool.and_eq_true, decide_eq_true_eq]
      tauto)]
    rfl
  · rw [if_neg h]
    have hne : (frame.filter fun r => decide (r.2.1 = n) && decide (r.1 = c)) ≠ [] := by
      push Not at h
      obtain ⟨r, hr, h1, h2⟩ := h
      exact List.ne_nil_of_mem (List.mem_filter.2 ⟨hr, by simp [h1, h2]⟩)
    obtain ⟨x, hx⟩ : ∃ x, (frame.filter fun r => decide (r.2.1 = n) && decide (r.1 = c)).getLast? = some x :=
      ⟨_, List.getLast?_eq_some_getLast hne⟩
    rw [hx]
    exact ⟨_, rfl⟩

theorem missing_eq {c : String} (h : missingCategory frame c = none) (n : String) :
    missing frame c n = missingName frame c n := by
  unfold missing
  rw [h, Option.none_or]

theorem dget_mem {α : Type} {d : Dict α} {k : String} {v : α} (h : dget d k = .ok v) : k ∈ d.map Prod.fst := by
  have h := dget_ok h
  by_contra hk
  rw [List.lookup_eq_none_iff.2 (by
    intro p hp
    rw [bne_iff_ne]
    exact fun e => hk (e ▸ List.mem_map_of_mem hp))] at h
  cases h

theorem Reads.bind3 {α β : Type} {x : Except PyErr α} {f : α → Except PyErr β} {a b c o' : Option String}
    (hx : Reads x (a.or (b.or c))) (hf : ∀ y, Reads (f y) o') : Reads (x >>= f) (a.or (b.or (c.or o'))) := by
  have h := hx.bind (o' := o') (f := f) fun y _ _ => hf y
  rwa [Option.or_assoc, Option.or_assoc] at h

theorem reads_educArray {c p low mid high : String} {d : Dict K} (hd : dget (paramsDict frame) c = .ok d)
    (e1 : p ++ "_low" = low) (e2 : p ++ "_middle" = mid) (e3 : p ++ "_high" = high)
    (hn : [low, mid, high].Nodup) :
    Reads (educArray d p)
      ((missingName frame c low).or ((missingName frame c mid).or (missingName frame c high))) := by
  unfold educArray
  dsimp only
  rw [List.length_replicate, e1, e2, e3]
  have hlen : ∀ l : List String, l.Nodup → (∀ x ∈ l, x ∈ d.map Prod.fst) → l.length ≤ d.length := by
    intro l hl h
    have := (List.subperm_of_subset hl h).length_le
    rwa [List.length_map] at this
  refine (reads_name hd _).bind fun _ hl _ => ?_
  have m1 := dget_mem hl
  have l1 : 0 < d.length := hlen [low] (by simp) (by simpa using m1)
  rw [if_pos l1, ok_bind]
  refine (reads_name hd _).bind fun _ hm _ => ?_
  have m2 := dget_mem hm
  have l2 : 1 < d.length := hlen [low, mid]
    (hn.sublist (by simp)) (by
      intro x hx
      simp only [List.mem_cons, List.not_mem_nil, or_false] at hx
      rcases hx with rfl | rfl <;> assumption)
  rw [if_pos l2, ok_bind]
  refine (reads_name hd _).last fun _ hh => ?_
  have m3 := dget_mem hh
  have l3 : 2 < d.length := hlen [low, mid, high] hn (by
      intro x hx
      simp only [List.mem_cons, List.not_mem_nil, or_false] at hx
      rcases hx with rfl | rfl | rfl <;> assumption)
  rw [if_pos l3]
  exact reads_pure _

theorem reads_kidsArray {c key low mid high : String} {d : Dict K} (hd : dget (paramsDict frame) c = .ok d)
    (e1 : key ++ "_educ_low" = low) (e2 : key ++ "_educ_middle" = mid) (e3 : key ++ "_educ_high" = high) :
    Reads (kidsArray d key)
      ((missingName frame c low).or ((missingName frame c mid).or (missingName frame c high))) := by
  unfold kidsArray
  rw [e1, e2, e3]
  exact (reads_name hd _).bind fun _ _ _ => (reads_name hd _).bind fun _ _ _ => (reads_name hd _).last fun _ _ =>
    reads_pure _

theorem findSome?_cons_or {α β : Type} (f : α → Option β) (a : α) (l : List α) :
    (a :: l).findSome? f = (f a).or (l.findSome? f) := by
  rw [List.findSome?_cons]
  cases f a <;> rfl

theorem reads_groupParameters {d : Dict (Dict K)} {der : DerivedAttr K}
    (hd : ∀ c, c ≠ "hetrg_unobs" → dget d c = dget (paramsDict frame) c) (hh : ∃ het, dget d "hetrg_unobs" = .ok het)
    (hc : ∀ n ∈ childRows, missingName frame "disutil_work" n = none) :
    Reads (groupParameters d der) (requiredRows.findSome? fun r => missing frame r.1 r.2) := by
  unfold groupParameters
  simp only [hd _ (show "const_wage_eq" ≠ "hetrg_unobs" by decide), hd _ (show "exp_return" ≠ "hetrg_unobs" by decide),
    hd _ (show "exp_increase_p" ≠ "hetrg_unobs" by decide), hd _ (show "exp_increase_p_mom" ≠ "hetrg_unobs" by decide),
    hd _ (show "disutil_work" ≠ "hetrg_unobs" by decide), hd _ (show "discount" ≠ "hetrg_unobs" by decide),
    hd _ (show "risk" ≠ "hetrg_unobs" by decide)]
  unfold requiredRows
  simp only [findSome?_cons_or, List.findSome?_nil, Option.or_none, missing, Option.or_assoc]
  have child : ∀ n ∈ childRows, ∀ {c}, dget (paramsDict frame) "disutil_work" = .ok c → ∃ v, dget c n = .ok v := by
    intro n hn c h
    have h := reads_name h n
    rwa [hc n hn] at h
  refine (reads_category frame "const_wage_eq").bind fun c0 e0 m0 => ?_
  simp only [m0, Option.none_or]
  refine (reads_educArray e0 rfl rfl rfl (by decide)).bind3 fun _ => ?_
  refine (reads_category frame "exp_return").bind fun c1 e1 m1 => ?_
  simp only [m1, Option.none_or]
  refine (reads_educArray e1 rfl rfl rfl (by decide)).bind3 fun _ => ?_
  refine (reads_category frame "exp_increase_p").bind fun c2 e2 m2 => ?_
  simp only [m2, Option.none_or]
  refine (reads_educArray e2 rfl rfl rfl (by decide)).bind3 fun _ => ?_
  refine (reads_category frame "exp_increase_p_mom").bind fun c3 e3 _ => ?_
  refine (reads_name e3 _).bind fun _ _ _ => ?_
  refine (reads_category frame "disutil_work").bind fun c4 e4 m4 => ?_
  simp only [m4, Option.none_or]
  obtain ⟨_, r⟩ := child "child_0_2_f" (by decide) e4
  rw [r, ok_bind]
  obtain ⟨_, r⟩ := child "child_0_2_p" (by decide) e4
  rw [r, ok_bind]
  obtain ⟨_, r⟩ := child "child_3_5_f" (by decide) e4
  rw [r, ok_bind]
  obtain ⟨_, r⟩ := child "child_3_5_p" (by decide) e4
  rw [r, ok_bind]
  obtain ⟨_, r⟩ := child "child_6_10_f" (by decide) e4
  rw [r, ok_bind]
  obtain ⟨_, r⟩ := child "child_6_10_p" (by decide) e4
  rw [r, ok_bind]
  refine (reads_kidsArray e4 rfl rfl rfl).bind3 fun _ => ?_
  refine (reads_kidsArray e4 rfl rfl rfl).bind3 fun _ => ?_
  refine (reads_kidsArray e4 rfl rfl rfl).bind3 fun _ => ?_
  refine (reads_kidsArray e4 rfl rfl rfl).bind3 fun _ => ?_
  refine (reads_category frame "discount").bind fun c5 e5 _ => ?_
  refine (reads_name e5 _).bind fun _ _ _ => ?_
  refine (reads_category frame "risk").bind fun c6 e6 _ => ?_
  refine (reads_name e6 _).last fun _ _ => ?_
  obtain ⟨het, hh⟩ := hh
  rw [hh, ok_bind]
  exact reads_pure _

theorem reads_readModelParams (hc : ∀ n ∈ childRows, missingName frame "disutil_work" n = none) :
    Reads (readModelParams frame) (firstMissing frame) := by
  unfold readModelParams firstMissing missing
  have hx : Reads (expandModelParamsDict (paramsDict frame)) (((missingCategory frame "sd_wage_shock").or
      (missingName frame "sd_wage_shock" "sigma")).or
        (if ∀ r ∈ frame, r.1 ≠ "shares" then none else missingCategory frame "hetrg_unobs")) := by
    unfold expandModelParamsDict
    rw [Option.or_assoc]
    refine (reads_category frame _).bind fun sd h1 _ => ?_
    refine (reads_name h1 _).bind fun x _ _ => ?_
    have hs := reads_category frame "shares"
    unfold dget missingCategory at hs
    by_cases h : ∀ r ∈ frame, r.1 ≠ "shares"
    · rw [if_pos h] at hs ⊢
      have hs : (paramsDict frame).lookup "shares" = none := by
        cases hl : (paramsDict frame).lookup "shares" with
        | none => rfl
        | some d => rw [hl] at hs; cases hs
      rw [hs]
      dsimp only
      have hg : dget (dset (paramsDict frame) "hetrg_unobs" []) "hetrg_unobs" = .ok [] := by
        unfold dget
        rw [lookup_dset, if_pos rfl]
      rw [hg, ok_bind]
      exact reads_pure _
    · rw [if_neg h] at hs ⊢
      obtain ⟨d, hs⟩ := hs
      have hs : (paramsDict frame).lookup "shares" = some d := by
        cases hl : (paramsDict frame).lookup "shares" with
        | none => rw [hl] at hs; cases hs
        | some d' => rw [hl] at hs; rw [Except.ok.inj hs]
      rw [hs]
      dsimp only
      exact (reads_category frame _).last fun _ _ => reads_pure _
  rw [← Option.or_assoc]
  refine hx.bind fun a ha _ => ?_
  obtain ⟨d, der⟩ := a
  refine reads_groupParameters (fun c hne => expandModelParamsDict_dget ha hne) ?_ hc
  unfold expandModelParamsDict at ha
  obtain ⟨_, -, ha⟩ := bind_ok.1 ha
  obtain ⟨_, -, ha⟩ := bind_ok.1 ha
  obtain ⟨_, -, ha⟩ := bind_ok.1 ha
  rw [pure_ok] at ha
  obtain ⟨rfl, -⟩ := Prod.mk.inj ha
  unfold dget
  rw [lookup_dset, if_pos rfl]
  exact ⟨_, rfl⟩

end Soepy
