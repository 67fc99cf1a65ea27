import Verif.Proof.Except
import Verif.Model.Processing

/-! Reading a parameter frame: where the type specific parameters come from. -/

set_option linter.unusedSectionVars false

namespace Soepy
variable {K : Type} [Field K] [LinearOrder K]

/-- The type specific parameters are the sorted entries of category `hetrg_unobs`. -/
theorem groupParameters_theta {d : Dict (Dict K)} {der : DerivedAttr K} {par : ModelParams K}
    (h : groupParameters d der = .ok par) :
    ∃ het, d.lookup "hetrg_unobs" = some het ∧ par.theta_p = thetaArray het "theta_p" ∧
      par.theta_f = thetaArray het "theta_f" ∧ par.type_shares = der.type_shares ∧
      par.shock_sd = der.shock_sd := by
  unfold groupParameters at h
  iterate 23 obtain ⟨_, -, h⟩ := bind_ok.1 h
  obtain ⟨het, h1, h⟩ := bind_ok.1 h
  rw [pure_ok] at h
  subst h
  refine ⟨het, ?_, rfl, rfl, rfl, rfl⟩
  unfold dget at h1
  split at h1
  · rename_i v hv
    rw [hv, Except.ok.inj h1]
  · cases h1

theorem thetaArray_length (het : Dict K) (pref : String) :
    (thetaArray het pref).length = (het.filter fun kv => pyIn pref kv.1).length := by
  unfold thetaArray sortedItems
  rw [List.length_map]
  exact ((List.mergeSort_perm _ _).filter _).length_eq

/-- Sorting a dictionary gives the sorted list with the same entries. -/
theorem sortedItems_eq {het sorted : Dict K} (hp : het.Perm sorted)
    (hs : sorted.Pairwise fun x y => x.1 < y.1) : sortedItems het = sorted := by
  unfold sortedItems
  have h1 : (het.mergeSort fun x y => decide (x.1 ≤ y.1)).Perm sorted := (List.mergeSort_perm _ _).trans hp
  have h2 : (het.mergeSort fun x y => decide (x.1 ≤ y.1)).Pairwise fun x y => x.1 ≤ y.1 := by
    have := List.pairwise_mergeSort (le := fun x y : String × K => decide (x.1 ≤ y.1))
      (fun a b c h1 h2 => by simp only [decide_eq_true_eq] at *; exact String.le_trans h1 h2)
      (fun a b => by
        simp only [Bool.or_eq_true, decide_eq_true_eq]; exact String.le_total _ _) het
    exact this.imp fun h => of_decide_eq_true h
  have hnd : (sorted.map Prod.fst).Nodup := by
    rw [List.Nodup, List.pairwise_map]
    refine hs.imp ?_
    intro a b h e
    rw [e] at h
    exact String.lt_irrefl _ h
  refine List.Perm.eq_of_pairwise (le := fun x y : String × K => x.1 ≤ y.1) ?_ h2
    (hs.imp fun h => (String.le_total _ _).resolve_right fun h' => String.not_le.2 h h') h1
  intro a b ha hb hab hba
  have ha' := h1.subset ha
  exact List.inj_on_of_nodup_map hnd ha' hb (String.le_antisymm hab hba)

theorem thetaArray_eq {het sorted : Dict K} (hp : het.Perm sorted)
    (hs : sorted.Pairwise fun x y => x.1 < y.1) (pref : String) :
    thetaArray het pref = (sorted.filter fun kv => pyIn pref kv.1).map Prod.snd := by
  unfold thetaArray
  rw [sortedItems_eq hp hs]

end Soepy
