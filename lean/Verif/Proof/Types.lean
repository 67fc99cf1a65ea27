import Verif.Spec.Attributes
import Verif.Proof.Params
import Verif.Proof.Dict
import Mathlib.Data.List.Perm.Basic

/-! Type specific parameters in a parameter frame. -/

set_option linter.unusedSectionVars false

namespace Soepy
variable {K : Type} [Field K] [LinearOrder K]

theorem paramsDict_lookup_aux (rows : List (String × String × K)) (d : Dict (Dict K)) (c : String) :
    (rows.foldl (fun d r =>
      let inner := match d.lookup r.1 with | some i => i | none => []
      dset d r.1 (dset inner r.2.1 r.2.2)) d).lookup c
    = if (rows.filter fun r => decide (r.1 = c)) = [] then d.lookup c
      else some ((rows.filter fun r => decide (r.1 = c)).foldl (fun i r => dset i r.2.1 r.2.2)
        ((d.lookup c).getD [])) := by
  induction rows generalizing d with
  | nil => simp
  | cons r rs ih =>
    rw [List.foldl_cons, ih]
    by_cases hr : r.1 = c
    · subst hr
      simp only [lookup_dset, if_true, decide_true, List.filter_cons_of_pos, List.foldl_cons,
        reduceCtorEq, if_false, Option.getD_some]
      have : (match d.lookup r.1 with | some i => i | none => []) = (d.lookup r.1).getD [] := by
        cases d.lookup r.1 <;> rfl
      rw [this]
      split_ifs with h
      · rw [h]; rfl
      · rfl
    · have hr' : ¬ c = r.1 := fun h => hr h.symm
      simp only [lookup_dset, if_neg hr', hr, decide_false, Bool.false_eq_true, not_false_eq_true,
        List.filter_cons_of_neg]

theorem paramsDict_lookup (rows : List (String × String × K)) (c : String) :
    (paramsDict rows).lookup c = if (rows.filter fun r => decide (r.1 = c)) = [] then none
      else some ((rows.filter fun r => decide (r.1 = c)).foldl (fun i r => dset i r.2.1 r.2.2) []) :=
  paramsDict_lookup_aux rows [] c

theorem dset_new {α : Type} {d : Dict α} {k : String} (h : k ∉ d.map Prod.fst) (v : α) :
    dset d k v = d ++ [(k, v)] := by
  induction d with
  | nil => rfl
  | cons y ys ih =>
    simp only [List.map_cons, List.mem_cons, not_or] at h
    unfold dset
    rw [if_neg fun e => h.1 e.symm, ih h.2]
    rfl

theorem foldl_dset_new {rs : List (String × String × K)} {acc : Dict K}
    (h : (acc.map Prod.fst ++ rs.map fun r => r.2.1).Nodup) :
    rs.foldl (fun i r => dset i r.2.1 r.2.2) acc = acc ++ rs.map fun r => r.2 := by
  induction rs generalizing acc with
  | nil => simp
  | cons r rs ih =>
    have hnew : r.2.1 ∉ acc.map Prod.fst := by
      intro hc
      have := (List.nodup_append.1 h).2.2 _ hc r.2.1 (by simp)
      exact this rfl
    rw [List.foldl_cons, dset_new hnew, ih]
    · simp
    · simpa using h

theorem paramsDict_category {rows : List (String × String × K)} {c : String}
    (h : ((Spec.rowsOf rows c).map Prod.fst).Nodup) :
    (paramsDict rows).lookup c
      = if Spec.rowsOf rows c = [] then none else some (Spec.rowsOf rows c) := by
  unfold Spec.rowsOf at *
  rw [paramsDict_lookup]
  simp only [List.map_eq_nil_iff]
  split_ifs with h1
  · rfl
  · rw [foldl_dset_new]
    · rfl
    · rw [List.map_map] at h
      exact h

/-- What ends up in the type specific arrays. -/
theorem readModelParams_theta {frame : List (String × String × K)} {par : ModelParams K}
    (h : readModelParams frame = .ok par) (hn : ((Spec.rowsOf frame "hetrg_unobs").map Prod.fst).Nodup)
    (hs : ∃ r ∈ frame, r.1 = "shares") :
    par.theta_p = thetaArray (dset (dset (Spec.rowsOf frame "hetrg_unobs") "theta_p0" 0) "theta_f0" 0) "theta_p" ∧
    par.theta_f = thetaArray (dset (dset (Spec.rowsOf frame "hetrg_unobs") "theta_p0" 0) "theta_f0" 0) "theta_f" := by
  unfold readModelParams at h
  obtain ⟨⟨d, der⟩, h1, h2⟩ := bind_ok.1 h
  obtain ⟨het, h3, h4, h5, -⟩ := groupParameters_theta h2
  unfold expandModelParamsDict at h1
  obtain ⟨sd, -, h1⟩ := bind_ok.1 h1
  obtain ⟨s, -, h1⟩ := bind_ok.1 h1
  have hsh : ∃ sh, (paramsDict frame).lookup "shares" = some sh := by
    rw [paramsDict_lookup]
    obtain ⟨r, hr, hr1⟩ := hs
    rw [if_neg]
    · exact ⟨_, rfl⟩
    · intro hc
      have : r ∈ frame.filter fun r => decide (r.1 = "shares") := by simp [hr, hr1]
      rw [hc] at this
      simp at this
  obtain ⟨sh, hl⟩ := hsh
  rw [hl] at h1
  dsimp only at h1
  obtain ⟨het0, h6, h1⟩ := bind_ok.1 h1
  simp only [pure_ok, Prod.mk.injEq] at h1
  obtain ⟨rfl, -⟩ := h1
  rw [lookup_dset, if_pos rfl] at h3
  obtain rfl := Option.some.inj h3
  have h7 := dget_ok h6
  rw [paramsDict_category hn] at h7
  split_ifs at h7
  obtain rfl := Option.some.inj h7
  exact ⟨h4, h5⟩

theorem readModelParams_theta_single {frame : List (String × String × K)} {par : ModelParams K}
    (h : readModelParams frame = .ok par) (hs : ∀ r ∈ frame, r.1 ≠ "shares") :
    par.theta_p = [0] ∧ par.theta_f = [0] := by
  unfold readModelParams at h
  obtain ⟨⟨d, der⟩, h1, h2⟩ := bind_ok.1 h
  obtain ⟨het, h3, h4, h5, -⟩ := groupParameters_theta h2
  unfold expandModelParamsDict at h1
  obtain ⟨sd, -, h1⟩ := bind_ok.1 h1
  obtain ⟨s, -, h1⟩ := bind_ok.1 h1
  have hl : (paramsDict frame).lookup "shares" = none := by
    rw [paramsDict_lookup, if_pos]
    rw [List.filter_eq_nil_iff]
    intro r hr
    simpa using hs r hr
  rw [hl] at h1
  dsimp only at h1
  obtain ⟨het0, h6, h1⟩ := bind_ok.1 h1
  simp only [pure_ok, Prod.mk.injEq] at h1
  obtain ⟨rfl, -⟩ := h1
  rw [lookup_dset, if_pos rfl] at h3
  obtain rfl := Option.some.inj h3
  have h7 := dget_ok h6
  rw [lookup_dset, if_pos rfl] at h7
  obtain rfl := Option.some.inj h7
  have e : dset (dset ([] : Dict K) "theta_p0" 0) "theta_f0" 0 = [("theta_p0", 0), ("theta_f0", 0)] := by
    simp [dset]
  have hp : [("theta_p0", (0 : K)), ("theta_f0", 0)].Perm [("theta_f0", 0), ("theta_p0", 0)] :=
    List.Perm.swap _ _ _
  have hsort : [("theta_f0", (0 : K)), ("theta_p0", 0)].Pairwise fun x y => x.1 < y.1 := by
    rw [List.pairwise_pair]
    show "theta_f0" < "theta_p0"
    decide +kernel
  rw [h4, h5, e, thetaArray_eq hp hsort, thetaArray_eq hp hsort]
  have e1 : pyIn "theta_p" "theta_f0" = false := by decide +kernel
  have e2 : pyIn "theta_p" "theta_p0" = true := by decide +kernel
  have e3 : pyIn "theta_f" "theta_f0" = true := by decide +kernel
  have e4 : pyIn "theta_f" "theta_p0" = false := by decide +kernel
  simp [e1, e2, e3, e4]

theorem pairwise_mergeSort_keys (het : Dict K) : (sortedItems het).Pairwise fun x y => x.1 ≤ y.1 := by
  unfold sortedItems
  have := List.pairwise_mergeSort (le := fun x y : String × K => decide (x.1 ≤ y.1))
    (fun a b c h1 h2 => by simp only [decide_eq_true_eq] at *; exact String.le_trans h1 h2)
    (fun a b => by
      simp only [Bool.or_eq_true, decide_eq_true_eq]; exact String.le_total _ _) het
  exact this.imp fun h => of_decide_eq_true h

/-- With distinct keys, sorting gives a strictly increasing list. -/
theorem sortedItems_strict {het : Dict K} (hn : (het.map Prod.fst).Nodup) :
    (sortedItems het).Perm het ∧ (sortedItems het).Pairwise fun x y => x.1 < y.1 := by
  have hp : (sortedItems het).Perm het := List.mergeSort_perm _ _
  refine ⟨hp, ?_⟩
  have hn' : ((sortedItems het).map Prod.fst).Nodup := (hp.map Prod.fst).nodup_iff.2 hn
  rw [List.Nodup, List.pairwise_map] at hn'
  refine ((pairwise_mergeSort_keys het).and hn').imp ?_
  rintro a b ⟨h1, h2⟩
  exact String.not_le.1 fun h => h2 (String.le_antisymm h1 h)

theorem nodup_theta {het : Dict K} (hn : (het.map Prod.fst).Nodup) :
    ((dset (dset het "theta_p0" 0) "theta_f0" 0).map Prod.fst).Nodup :=
  nodup_dset (nodup_dset hn _ _) _ _

theorem dset_perm {d d' : Dict K} (h : d.Perm d') (hn : (d.map Prod.fst).Nodup) (k : String) (v : K) :
    (dset d k v).Perm (dset d' k v) := by
  have hn' : (d'.map Prod.fst).Nodup := (h.map Prod.fst).nodup_iff.1 hn
  have hl : ∀ {e e' : Dict K}, (e.map Prod.fst).Nodup → (e'.map Prod.fst).Nodup →
      (∀ x, x ∈ e ↔ x ∈ e') → e.Perm e' := by
    intro e e' h1 h2 h3
    exact (List.perm_ext_iff_of_nodup (List.Nodup.of_map _ h1) (List.Nodup.of_map _ h2)).2 h3
  apply hl (nodup_dset hn _ _) (nodup_dset hn' _ _)
  have hmem : ∀ {e : Dict K}, (e.map Prod.fst).Nodup → ∀ x, x ∈ dset e k v ↔
      (x = (k, v) ∨ (x ∈ e ∧ x.1 ≠ k)) := by
    intro e he x
    induction e with
    | nil => simp [dset]
    | cons y ys ih =>
      simp only [List.map_cons, List.nodup_cons] at he
      unfold dset
      split_ifs with hk
      · simp only [List.mem_cons]
        constructor
        · rintro (h | h)
          · exact Or.inl h
          · refine Or.inr ⟨Or.inr h, ?_⟩
            intro hx
            apply he.1
            rw [hk, ← hx]
            exact List.mem_map_of_mem h
        · rintro (h | ⟨h | h, h'⟩)
          · exact Or.inl h
          · rw [h] at h'; exact absurd hk h'
          · exact Or.inr h
      · simp only [List.mem_cons, ih he.2]
        constructor
        · rintro (h | h | ⟨h, h'⟩)
          · exact Or.inr ⟨Or.inl h, by rw [h]; exact hk⟩
          · exact Or.inl h
          · exact Or.inr ⟨Or.inr h, h'⟩
        · rintro (h | ⟨h | h, h'⟩)
          · exact Or.inr (Or.inl h)
          · exact Or.inl h
          · exact Or.inr (Or.inr ⟨h, h'⟩)
  intro x
  rw [hmem hn, hmem hn', h.mem_iff]

theorem theta_perm {het het' : Dict K} (h : het.Perm het') (hn : (het.map Prod.fst).Nodup) (pref : String) :
    thetaArray (dset (dset het "theta_p0" 0) "theta_f0" 0) pref
      = thetaArray (dset (dset het' "theta_p0" 0) "theta_f0" 0) pref := by
  have hp := dset_perm (dset_perm h hn "theta_p0" 0) (nodup_dset hn _ _) "theta_f0" 0
  have hn' : (het'.map Prod.fst).Nodup := (h.map Prod.fst).nodup_iff.1 hn
  obtain ⟨p1, s1⟩ := sortedItems_strict (nodup_theta hn')
  unfold thetaArray
  rw [sortedItems_eq (hp.trans p1.symm) s1]

end Soepy
