import Verif.Model.Processing
import Verif.Proof.Except
import Mathlib.Data.List.Nodup

/-! # Dictionaries as association lists -/

set_option linter.unusedSectionVars false

namespace Soepy
variable {α K : Type}

theorem lookup_cons_ite (k k' : String) (v : α) (d : Dict α) :
    List.lookup k ((k', v) :: d) = if k = k' then some v else List.lookup k d := by
  rw [List.lookup_cons]
  by_cases h : k = k'
  · subst h; simp
  · rw [if_neg h]
    have : (k == k') = false := by simpa using h
    rw [this]

theorem lookup_dset (d : Dict α) (k k' : String) (v : α) :
    (dset d k v).lookup k' = if k' = k then some v else d.lookup k' := by
  induction d with
  | nil =>
    simp only [dset, lookup_cons_ite]
  | cons x xs ih =>
    obtain ⟨kx, vx⟩ := x
    simp only [dset]
    split
    · rename_i h
      subst h
      simp only [lookup_cons_ite]
      split <;> rfl
    · rename_i h
      simp only [lookup_cons_ite, ih]
      split
      · rename_i h1
        subst h1
        rw [if_neg h]
      · rfl

theorem keys_dset (d : Dict α) (k : String) (v : α) (x : String) :
    x ∈ (dset d k v).map Prod.fst ↔ x = k ∨ x ∈ d.map Prod.fst := by
  induction d with
  | nil => simp [dset]
  | cons y ys ih =>
    obtain ⟨ky, vy⟩ := y
    simp only [dset]
    split
    · rename_i h; subst h; simp
    · simp only [List.map_cons, List.mem_cons, ih]; tauto

theorem nodup_dset {d : Dict α} (h : (d.map Prod.fst).Nodup) (k : String) (v : α) :
    ((dset d k v).map Prod.fst).Nodup := by
  induction d with
  | nil => simp [dset]
  | cons y ys ih =>
    obtain ⟨ky, vy⟩ := y
    simp only [List.map_cons, List.nodup_cons] at h
    simp only [dset]
    split
    · rename_i h1; subst h1
      simpa using h
    · rename_i h1
      simp only [List.map_cons, List.nodup_cons]
      refine ⟨?_, ih h.2⟩
      rw [keys_dset]
      rintro (h2 | h2)
      · exact h1 h2
      · exact h.1 h2

theorem lookup_none_iff (d : Dict α) (k : String) : d.lookup k = none ↔ k ∉ d.map Prod.fst := by
  induction d with
  | nil => simp
  | cons y ys ih =>
    obtain ⟨ky, vy⟩ := y
    rw [lookup_cons_ite]
    simp only [List.map_cons, List.mem_cons, not_or]
    split
    · rename_i h; simp [h]
    · rename_i h; simp [ih, h]

/-- Copying a dictionary into another one, key by key. -/
theorem lookup_foldl_dset {d : Dict α} (h : (d.map Prod.fst).Nodup) (acc : Dict α) (k : String) :
    (d.foldl (fun acc kv => dset acc kv.1 kv.2) acc).lookup k = (d.lookup k).or (acc.lookup k) := by
  induction d generalizing acc with
  | nil => simp
  | cons y ys ih =>
    obtain ⟨ky, vy⟩ := y
    simp only [List.map_cons, List.nodup_cons] at h
    simp only [List.foldl_cons]
    rw [ih h.2, lookup_dset, lookup_cons_ite]
    by_cases hk : k = ky
    · subst hk
      rw [(lookup_none_iff ys k).2 h.1]
      simp
    · rw [if_neg hk, if_neg hk]

theorem dget_eq {d : Dict α} {k : String} {v : α} (h : d.lookup k = some v) : dget d k = .ok v := by
  unfold dget; rw [h]

theorem dget_ok {d : Dict α} {k : String} {v : α} (h : dget d k = .ok v) : d.lookup k = some v := by
  unfold dget at h
  cases hl : d.lookup k with
  | none => rw [hl] at h; simp at h
  | some w => rw [hl] at h; simpa using h

theorem hasKey_eq (d : Dict (Val K)) (k : String) : hasKey d k = (d.lookup k).isSome := rfl

end Soepy
