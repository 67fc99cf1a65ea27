import Verif.Proof.Types
import Verif.Props.SimExample

/-!
# Type-specific parameters (C49)
-/

set_option linter.unusedSectionVars false

namespace Soepy.Props
open Soepy
variable {K : Type} [Field K] [LinearOrder K]

/-- Names by type: `(true, k)` is `theta_pk`. -/
def codeName (c : Bool × Nat) : String := (if c.1 then "theta_p" else "theta_f") ++ toString c.2

/-- The order in which a frame lists them. -/
def frameCodes (n : Nat) : List (Bool × Nat) :=
  ((List.range n).flatMap fun k => [(true, k + 1), (false, k + 1)])

/-- The lexicographic order, up to nine types. -/
def sortedCodes (n : Nat) : List (Bool × Nat) :=
  ((List.range (n + 1)).map fun k => (false, k)) ++ (List.range (n + 1)).map fun k => (true, k)

theorem codes_facts : ∀ n : Fin 10,
    (frameCodes n ++ [(true, 0), (false, 0)]).Perm (sortedCodes n) ∧
    ((frameCodes n ++ [(true, 0), (false, 0)]).map codeName).Nodup ∧
    ((sortedCodes n).map codeName).Pairwise (· < ·) ∧
    ((sortedCodes n).filter fun c => pyIn "theta_p" (codeName c)) = (List.range (n + 1)).map (fun k => (true, k)) ∧
    ((sortedCodes n).filter fun c => pyIn "theta_f" (codeName c)) = (List.range (n + 1)).map (fun k => (false, k)) := by
  decide +kernel

theorem theta_of_typeRows {n : Nat} (hn : n ≤ 9) (tp tf : Nat → K) (hp : tp 0 = 0) (hf : tf 0 = 0) {het : Dict K}
    (h : het.Perm (Spec.typeRows n tp tf)) :
    (het.map Prod.fst).Nodup ∧
    thetaArray (dset (dset het "theta_p0" 0) "theta_f0" 0) "theta_p" = (List.range (n + 1)).map tp ∧
    thetaArray (dset (dset het "theta_p0" 0) "theta_f0" 0) "theta_f" = (List.range (n + 1)).map tf := by
  obtain ⟨c1, c2, c3, c4, c5⟩ := codes_facts ⟨n, by omega⟩
  dsimp only at c1 c2 c3 c4 c5
  let val : Bool × Nat → K := fun c => if c.1 then tp c.2 else tf c.2
  let g : Bool × Nat → String × K := fun c => (codeName c, val c)
  have e1 : Spec.typeRows n tp tf = (frameCodes n).map g := by
    unfold Spec.typeRows frameCodes
    rw [List.map_flatMap]
    rfl
  have hfst : ∀ l : List (Bool × Nat), (l.map g).map Prod.fst = l.map codeName := by
    intro l; rw [List.map_map]; rfl
  have c2' := c2
  rw [List.map_append] at c2
  have hn1 : ((Spec.typeRows n tp tf).map Prod.fst).Nodup := by
    rw [e1, hfst]; exact (List.nodup_append.1 c2).1
  have hnd : (het.map Prod.fst).Nodup := (h.map Prod.fst).nodup_iff.2 hn1
  have e2 : dset (dset (Spec.typeRows n tp tf) "theta_p0" 0) "theta_f0" 0
      = (frameCodes n ++ [(true, 0), (false, 0)]).map g := by
    have n1 : "theta_p0" ∉ (Spec.typeRows n tp tf).map Prod.fst := by
      rw [e1, hfst]
      intro hc
      exact (List.nodup_append.1 c2).2.2 _ hc (codeName (true, 0)) (by simp) (by decide +kernel)
    have n2 : "theta_f0" ∉ (Spec.typeRows n tp tf ++ [("theta_p0", (0 : K))]).map Prod.fst := by
      rw [List.map_append, e1, hfst, List.mem_append]
      rintro (hc | hc)
      · exact (List.nodup_append.1 c2).2.2 _ hc (codeName (false, 0)) (by simp) (by decide +kernel)
      · simp at hc
    rw [dset_new n1, dset_new n2, List.map_append, e1, List.append_assoc]
    congr 1
    have k1 : codeName (true, 0) = "theta_p0" := by decide +kernel
    have k2 : codeName (false, 0) = "theta_f0" := by decide +kernel
    simp [g, val, hp, hf, k1, k2]
  have hsort : ((sortedCodes n).map g).Pairwise fun x y => x.1 < y.1 := by
    rw [List.pairwise_map]
    rw [List.pairwise_map] at c3
    exact c3
  have hperm := c1.map g
  refine ⟨hnd, ?_, ?_⟩
  · rw [theta_perm h hnd, e2, thetaArray_eq hperm hsort, List.filter_map, List.map_map]
    have : ((sortedCodes n).filter ((fun kv => pyIn "theta_p" kv.1) ∘ g))
      = (List.range (n + 1)).map fun k => (true, k) := c4
    rw [this, List.map_map]
    rfl
  · rw [theta_perm h hnd, e2, thetaArray_eq hperm hsort, List.filter_map, List.map_map]
    have : ((sortedCodes n).filter ((fun kv => pyIn "theta_f" kv.1) ∘ g))
      = (List.range (n + 1)).map fun k => (false, k) := c5
    rw [this, List.map_map]
    rfl

/-- **C49**, the part that holds: up to nine non-baseline types.  The values named `theta_pk` and `theta_fk` reach
type `k`, the baseline type has zeros, whatever the order of the rows.  For ten and more it is
false, see `C49_fails`. -/
theorem C49_types_partial {frame : Frame K} {par : ModelParams K} (h : readModelParams frame = .ok par)
    {n : Nat} (hn : n ≤ 9) {tp tf : Nat → K}
    (hrows : (Spec.rowsOf frame "hetrg_unobs").Perm (Spec.typeRows n tp tf))
    (hs : ∃ r ∈ frame, r.1 = "shares") :
    par.theta_p.length = n + 1 ∧ par.theta_f.length = n + 1 ∧
    par.theta_p[0]? = some 0 ∧ par.theta_f[0]? = some 0 ∧
    ∀ (k : Nat), 1 ≤ k → k ≤ n → par.theta_p[k]? = some (tp k) ∧ par.theta_f[k]? = some (tf k) := by
  have hrows' : (Spec.rowsOf frame "hetrg_unobs").Perm
      (Spec.typeRows n (fun k => if k = 0 then 0 else tp k) (fun k => if k = 0 then 0 else tf k)) := by
    have : Spec.typeRows n (fun k => if k = 0 then 0 else tp k) (fun k => if k = 0 then 0 else tf k)
        = Spec.typeRows n tp tf := by
      unfold Spec.typeRows
      simp
    rw [this]
    exact hrows
  obtain ⟨h1, h2, h3⟩ := theta_of_typeRows hn (fun k => if k = 0 then 0 else tp k)
    (fun k => if k = 0 then 0 else tf k) rfl rfl hrows'
  obtain ⟨h4, h5⟩ := readModelParams_theta h h1 hs
  rw [h4, h5, h2, h3]
  refine ⟨by simp, by simp, by simp, by simp, ?_⟩
  intro k hk hk'
  have : k < n + 1 := by omega
  simp [this, show k ≠ 0 by omega]

/-- **C49**  Without rows of category `shares` there is one type, with zeros, whatever else the frame contains. -/
theorem C49_single_type {frame : Frame K} {par : ModelParams K} (h : readModelParams frame = .ok par)
    (hs : ∀ r ∈ frame, r.1 ≠ "shares") : par.theta_p = [0] ∧ par.theta_f = [0] :=
  readModelParams_theta_single h hs

/-- **C49**  For any number of types: the order of rows is irrelevant. -/
theorem C49_row_order {frame frame' : Frame K} {par par' : ModelParams K}
    (h : readModelParams frame = .ok par) (h' : readModelParams frame' = .ok par')
    (hp : frame.Perm frame') (hn : ((Spec.rowsOf frame "hetrg_unobs").map Prod.fst).Nodup) :
    par.theta_p = par'.theta_p ∧ par.theta_f = par'.theta_f := by
  by_cases hs : ∃ r ∈ frame, r.1 = "shares"
  · have hs' : ∃ r ∈ frame', r.1 = "shares" := by
      obtain ⟨r, hr, hr1⟩ := hs
      exact ⟨r, hp.mem_iff.1 hr, hr1⟩
    have hc : (Spec.rowsOf frame "hetrg_unobs").Perm (Spec.rowsOf frame' "hetrg_unobs") :=
      (hp.filter _).map _
    have hn' : ((Spec.rowsOf frame' "hetrg_unobs").map Prod.fst).Nodup :=
      (hc.map Prod.fst).nodup_iff.1 hn
    obtain ⟨h1, h2⟩ := readModelParams_theta h hn hs
    obtain ⟨h3, h4⟩ := readModelParams_theta h' hn' hs'
    rw [h1, h2, h3, h4]
    exact ⟨theta_perm hc hn _, theta_perm hc hn _⟩
  · have hs1 : ∀ r ∈ frame, r.1 ≠ "shares" := fun r hr e => hs ⟨r, hr, e⟩
    have hs2 : ∀ r ∈ frame', r.1 ≠ "shares" := fun r hr => hs1 r (hp.mem_iff.2 hr)
    rw [(readModelParams_theta_single h hs1).1, (readModelParams_theta_single h hs1).2,
      (readModelParams_theta_single h' hs2).1, (readModelParams_theta_single h' hs2).2]
    exact ⟨rfl, rfl⟩

/-- **C49**  For any number of types: what the arrays contain is the values whose name contains the prefix, in
lexicographic order of the names. -/
theorem C49_lexicographic_order {frame : Frame K} {par : ModelParams K} (h : readModelParams frame = .ok par)
    (hs : ∃ r ∈ frame, r.1 = "shares") (hn : ((Spec.rowsOf frame "hetrg_unobs").map Prod.fst).Nodup)
    (hp0 : "theta_p0" ∉ (Spec.rowsOf frame "hetrg_unobs").map Prod.fst)
    (hf0 : "theta_f0" ∉ (Spec.rowsOf frame "hetrg_unobs").map Prod.fst) :
    ∃ items : List (String × K),
      items.Perm (Spec.rowsOf frame "hetrg_unobs" ++ [("theta_p0", 0), ("theta_f0", 0)]) ∧
      items.Pairwise (fun x y => x.1 < y.1) ∧
      par.theta_p = (items.filter fun x => pyIn "theta_p" x.1).map Prod.snd ∧
      par.theta_f = (items.filter fun x => pyIn "theta_f" x.1).map Prod.snd := by
  have hn' : ((Spec.rowsOf frame "hetrg_unobs").map Prod.fst).Nodup := hn
  obtain ⟨h1, h2⟩ := readModelParams_theta h hn' hs
  obtain ⟨h3, h4⟩ := sortedItems_strict (nodup_theta hn')
  refine ⟨_, h3.trans ?_, h4, h1, h2⟩
  have hp0' : "theta_p0" ∉ (Spec.rowsOf frame "hetrg_unobs").map Prod.fst := hp0
  rw [dset_new hp0', dset_new]
  · rw [List.append_assoc]
    exact List.Perm.refl _
  · rw [List.map_append, List.mem_append]
    rintro (hc | hc)
    · exact hf0 hc
    · simp at hc

/-- A frame with `n` non-baseline types; type `k` has `theta_pk = k` and `theta_fk = -k`. -/
def manyTypes (n : Nat) : Frame ℚ :=
  (exFrame.filter fun r => r.1 ≠ "hetrg_unobs" ∧ r.1 ≠ "shares")
    ++ ((List.range n).map fun k => ("shares", "share_" ++ toString (k + 1), 1/20))
    ++ (Spec.typeRows n (fun k => (k : ℚ)) (fun k => -(k : ℚ))).map fun r => ("hetrg_unobs", r.1, r.2)

/-- **C49** is false for ten non-baseline types: type 2 gets the value of type 10. -/
theorem C49_fails : ∃ par : ModelParams ℚ, readModelParams (manyTypes 10) = .ok par ∧
    Spec.rowsOf (manyTypes 10) "hetrg_unobs" = Spec.typeRows 10 (fun k => (k : ℚ)) (fun k => -(k : ℚ)) ∧
    par.theta_p[2]? = some 10 ∧ par.theta_f[2]? = some (-10 : ℚ) := by
  have hr : (readModelParams (manyTypes 10)).toBool = true := by decide +kernel
  cases hp : readModelParams (manyTypes 10) with
  | error e => rw [hp] at hr; cases hr
  | ok par =>
    have hrows : Spec.rowsOf (manyTypes 10) "hetrg_unobs"
        = Spec.typeRows 10 (fun k => (k : ℚ)) (fun k => -(k : ℚ)) := by decide +kernel
    refine ⟨par, rfl, hrows, ?_⟩
    have hn : ((Spec.rowsOf (manyTypes 10) "hetrg_unobs").map Prod.fst).Nodup := by decide +kernel
    have hs : ∃ r ∈ manyTypes 10, r.1 = "shares" := by decide +kernel
    obtain ⟨h1, h2⟩ := readModelParams_theta hp hn hs
    let order : List Nat := [0, 1, 10, 2, 3, 4, 5, 6, 7, 8, 9]
    have hperm : (dset (dset (Spec.rowsOf (manyTypes 10) "hetrg_unobs") "theta_p0" 0) "theta_f0" 0).Perm
        ((order.map fun k => ("theta_f" ++ toString k, -(k : ℚ)))
          ++ order.map fun k => ("theta_p" ++ toString k, (k : ℚ))) := by decide +kernel
    have hsort : ((order.map fun k => ("theta_f" ++ toString k, -(k : ℚ)))
          ++ order.map fun k => ("theta_p" ++ toString k, (k : ℚ))).Pairwise fun x y => x.1 < y.1 := by
      decide +kernel
    rw [h1, h2, thetaArray_eq hperm hsort, thetaArray_eq hperm hsort]
    decide +kernel

theorem mem_toString_isDigit {k : Nat} {c : Char} (h : c ∈ (toString k).toList) : c.isDigit = true := by
  rw [Nat.toString_eq_ofList_toDigits, String.toList_ofList] at h
  exact Nat.isDigit_of_mem_toDigits (by omega) (by omega) h

theorem codeName_list (b : Bool) (k : Nat) :
    (codeName (b, k)).toList = (if b then "theta_p" else "theta_f").toList ++ (toString k).toList := by
  unfold codeName
  rw [String.toList_append]

/-- A name contains the prefix of its own kind and not the other. -/
theorem pyIn_codeName (b b' : Bool) (k : Nat) :
    pyIn (if b then "theta_p" else "theta_f") (codeName (b', k)) = decide (b' = b) := by
  unfold pyIn
  rw [decide_eq_decide, codeName_list]
  constructor
  · intro h
    by_contra hne
    have hmem : ∀ c ∈ (if b then "theta_p" else "theta_f").toList,
        c ∈ (if b' then "theta_p" else "theta_f").toList ∨ c.isDigit = true := by
      intro c hc
      rcases List.mem_append.1 (h.subset hc) with h1 | h1
      · exact Or.inl h1
      · exact Or.inr (mem_toString_isDigit h1)
    cases b <;> cases b' <;> first | exact hne rfl | (revert hmem; decide +kernel)
  · rintro rfl
    exact (List.prefix_append _ _).isInfix

theorem codeName_inj {x y : Bool × Nat} (h : codeName x = codeName y) : x = y := by
  obtain ⟨b, k⟩ := x
  obtain ⟨b', k'⟩ := y
  have hb : b = b' := by
    have h1 := pyIn_codeName b b k
    rw [h, pyIn_codeName] at h1
    exact (by simpa using h1 : b' = b).symm
  subst hb
  have h1 := congrArg String.toList h
  rw [codeName_list, codeName_list, List.append_cancel_left_eq] at h1
  have h2 : toString k = toString k' := String.toList_inj.1 h1
  have h3 : k = k' := by
    rw [Nat.toString_eq_ofList_toDigits, Nat.toString_eq_ofList_toDigits] at h2
    have h3 := congrArg String.toList h2
    rw [String.toList_ofList, String.toList_ofList] at h3
    rw [← Nat.ofDigitChars_ten_toDigits (n := k), h3, Nat.ofDigitChars_ten_toDigits]
  rw [h3]

theorem frameCodes_nodup (n : Nat) : (frameCodes n ++ [(true, 0), (false, 0)]).Nodup := by
  rw [List.nodup_append]
  refine ⟨?_, by decide, ?_⟩
  · unfold frameCodes
    rw [List.nodup_flatMap]
    refine ⟨fun k _ => by simp, ?_⟩
    refine List.nodup_range.imp ?_
    intro x y hxy
    simp [Function.onFun, Ne.symm hxy]
  · intro x hx y hy e
    subst e
    unfold frameCodes at hx
    obtain ⟨k, -, hk⟩ := List.mem_flatMap.1 hx
    simp at hk hy
    rcases hk with rfl | rfl <;> simp at hy

/-- **C49**, exactly when it holds: if the types differ in a preference for one of the two kinds of work, every type
gets its own value if and only if there are at most nine non-baseline types. -/
theorem C49_exact {frame : Frame K} {par : ModelParams K} (h : readModelParams frame = .ok par)
    {n : Nat} {tp tf : Nat → K} (hrows : (Spec.rowsOf frame "hetrg_unobs").Perm (Spec.typeRows n tp tf))
    (hs : ∃ r ∈ frame, r.1 = "shares") (hp0 : tp 0 = 0) (hf0 : tf 0 = 0) :
    ((∀ k j, k ≤ n → j ≤ n → tp k = tp j → k = j) → ((∀ k, k ≤ n → par.theta_p[k]? = some (tp k)) ↔ n ≤ 9)) ∧
    ((∀ k j, k ≤ n → j ≤ n → tf k = tf j → k = j) → ((∀ k, k ≤ n → par.theta_f[k]? = some (tf k)) ↔ n ≤ 9)) := by
  let val : Bool × Nat → K := fun c => if c.1 then tp c.2 else tf c.2
  let g : Bool × Nat → String × K := fun c => (codeName c, val c)
  have e1 : Spec.typeRows n tp tf = (frameCodes n).map g := by
    unfold Spec.typeRows frameCodes
    rw [List.map_flatMap]
    rfl
  have k1 : codeName (true, 0) = "theta_p0" := by decide +kernel
  have k2 : codeName (false, 0) = "theta_f0" := by decide +kernel
  have e2 : Spec.typeRows n tp tf ++ [("theta_p0", 0), ("theta_f0", 0)]
      = (frameCodes n ++ [(true, 0), (false, 0)]).map g := by
    rw [e1, List.map_append]
    congr 1
    simp [g, val, hp0, hf0, k1, k2]
  have hnd : ((frameCodes n ++ [(true, 0), (false, 0)]).map codeName).Nodup :=
    (frameCodes_nodup n).map fun x y => codeName_inj
  have hfst : ∀ l : List (Bool × Nat), (l.map g).map Prod.fst = l.map codeName := by
    intro l; rw [List.map_map]; rfl
  have hnd' := hnd
  rw [List.map_append, List.nodup_append] at hnd'
  have hperm := hrows.map Prod.fst
  rw [e1, hfst] at hperm
  obtain ⟨items, hi, hsort, hp, hf⟩ := C49_lexicographic_order h hs (hperm.nodup_iff.2 hnd'.1)
    (fun hc => hnd'.2.2 _ (hperm.mem_iff.1 hc) (codeName (true, 0)) (by simp) k1.symm)
    (fun hc => hnd'.2.2 _ (hperm.mem_iff.1 hc) (codeName (false, 0)) (by simp) k2.symm)
  have hmem : ∀ x ∈ items, ∃ c : Bool × Nat, c.2 ≤ n ∧ x = g c := by
    intro x hx
    have hx' := ((hrows.append_right [("theta_p0", (0 : K)), ("theta_f0", 0)]).mem_iff).1 (hi.mem_iff.1 hx)
    rw [e2] at hx'
    obtain ⟨c, hc, rfl⟩ := List.mem_map.1 hx'
    refine ⟨c, ?_, rfl⟩
    rcases List.mem_append.1 hc with hc | hc
    · unfold frameCodes at hc
      obtain ⟨k, hk, hk'⟩ := List.mem_flatMap.1 hc
      have := List.mem_range.1 hk
      simp at hk'
      rcases hk' with rfl | rfl <;> exact this
    · simp at hc
      rcases hc with rfl | rfl <;> exact Nat.zero_le _
  have key : ∀ (b : Bool) (th : List K),
      th = (items.filter fun x => pyIn (if b then "theta_p" else "theta_f") x.1).map Prod.snd →
      (∀ k j, k ≤ n → j ≤ n → val (b, k) = val (b, j) → k = j) →
      (∀ k, k ≤ n → th[k]? = some (val (b, k))) → n ≤ 9 := by
    intro b th hth hinj hall
    by_contra hn
    have hat : ∀ k, k ≤ n →
        (items.filter fun x => pyIn (if b then "theta_p" else "theta_f") x.1)[k]? = some (g (b, k)) := by
      intro k hk
      have h1 := hall k hk
      rw [hth, List.getElem?_map] at h1
      obtain ⟨x, hx, hx'⟩ := Option.map_eq_some_iff.1 h1
      rw [hx]
      have hin := List.mem_of_getElem? hx
      rw [List.mem_filter] at hin
      obtain ⟨⟨b', k'⟩, hk', rfl⟩ := hmem x hin.1
      have hb : b' = b := by
        have h2 : pyIn (if b then "theta_p" else "theta_f") (codeName (b', k')) = true := hin.2
        rw [pyIn_codeName] at h2
        exact of_decide_eq_true h2
      subst hb
      rw [hinj k' k hk' hk hx']
    have hlt := List.pairwise_iff_getElem.1 (hsort.filter fun x => pyIn (if b then "theta_p" else "theta_f") x.1)
    obtain ⟨l2, h2⟩ := List.getElem?_eq_some_iff.1 (hat 2 (by omega))
    obtain ⟨l10, h10⟩ := List.getElem?_eq_some_iff.1 (hat 10 (by omega))
    have := hlt 2 10 l2 l10 (by omega)
    rw [h2, h10] at this
    have h3 : codeName (b, 2) < codeName (b, 10) := this
    revert h3
    cases b <;> decide +kernel
  have conv := fun hn : n ≤ 9 => C49_types_partial h hn hrows hs
  constructor
  · intro hinj
    refine ⟨key true _ hp hinj, fun hn k hk => ?_⟩
    obtain ⟨-, -, c1, c2, c3⟩ := conv hn
    rcases Nat.eq_zero_or_pos k with rfl | hk0
    · rw [c1, hp0]
    · exact (c3 k hk0 hk).1
  · intro hinj
    refine ⟨key false _ hf hinj, fun hn k hk => ?_⟩
    obtain ⟨-, -, c1, c2, c3⟩ := conv hn
    rcases Nat.eq_zero_or_pos k with rfl | hk0
    · rw [c2, hf0]
    · exact (c3 k hk0 hk).2

/-- The hypotheses of `C49_exact` hold on both sides of the border. -/
example (n : Fin 12) : (∃ par, readModelParams (manyTypes n) = .ok par) ∧
    (Spec.rowsOf (manyTypes n) "hetrg_unobs").Perm (Spec.typeRows n (fun k => (k : ℚ)) fun k => -(k : ℚ)) ∧
    ((0 < (n : Nat)) → ∃ r ∈ manyTypes n, r.1 = "shares") ∧ ((0 : Nat) : ℚ) = 0 ∧
    ∀ k j : Nat, k ≤ n → j ≤ n → (k : ℚ) = j → k = j := by
  have hr : ∀ n : Fin 12, (readModelParams (manyTypes n)).toBool = true ∧
      Spec.rowsOf (manyTypes n) "hetrg_unobs" = Spec.typeRows n (fun k => (k : ℚ)) (fun k => -(k : ℚ)) ∧
      ((0 < (n : Nat)) → ∃ r ∈ manyTypes n, r.1 = "shares") := by decide +kernel
  obtain ⟨h1, h2, h3⟩ := hr n
  refine ⟨?_, by rw [h2], h3, Nat.cast_zero, fun k j _ _ e => by exact_mod_cast e⟩
  cases hp : readModelParams (manyTypes n) with
  | error e => rw [hp] at h1; cases h1
  | ok par => exact ⟨par, rfl⟩

/-- Three types in a scrambled order. -/
def scrambled : Frame ℚ :=
  (exFrame.filter fun r => r.1 ≠ "hetrg_unobs" ∧ r.1 ≠ "shares")
    ++ [("hetrg_unobs", "theta_f2", 20), ("shares", "share_1", 2/5), ("hetrg_unobs", "theta_p2", 2),
      ("hetrg_unobs", "theta_p1", 1), ("shares", "share_2", 1/5), ("hetrg_unobs", "theta_f1", 10)]

/-- It meets the hypotheses of C49. -/
example : (∃ par, readModelParams scrambled = .ok par) ∧
    (Spec.rowsOf scrambled "hetrg_unobs").Perm
      (Spec.typeRows 2 (fun k => (k : ℚ)) (fun k => 10 * (k : ℚ))) ∧
    (∃ r ∈ scrambled, r.1 = "shares") := by
  refine ⟨?_, by decide +kernel, by decide +kernel⟩
  have hr : (readModelParams scrambled).toBool = true := by decide +kernel
  cases hp : readModelParams scrambled with
  | error e => rw [hp] at hr; cases hr
  | ok par => exact ⟨par, rfl⟩

end Soepy.Props
