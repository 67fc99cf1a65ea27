import Verif.Model.Experience
import Verif.Spec.Experience
import Mathlib.Tactic.Linarith
import Mathlib.Tactic.Ring
import Mathlib.Tactic.FieldSimp
import Mathlib.Tactic.Positivity
import Mathlib.Tactic.NormNum

set_option linter.unusedSectionVars false

namespace Soepy
variable {K : Type} [Field K] [LinearOrder K] [IsStrictOrderedRing K]

theorem clip_mem (x lo hi : K) (h : lo ≤ hi) : lo ≤ clip x lo hi ∧ clip x lo hi ≤ hi := by
  unfold clip
  exact ⟨le_min (le_max_right _ _) h, min_le_right _ _⟩

theorem clip_of_mem {x lo hi : K} (h1 : lo ≤ x) (h2 : x ≤ hi) : clip x lo hi = x := by
  unfold clip
  rw [max_eq_left h1, min_eq_left h2]

theorem clip_mono {x y : K} (lo hi : K) (h : x ≤ y) : clip x lo hi ≤ clip y lo hi :=
  min_le_min_right _ (max_le_max_right _ h)

theorem maxExpYears_eq_mostYears (t : Nat) (m pt : K) :
    maxExpYears t m pt = Spec.mostYears m pt t := by
  induction t with
  | zero => simp [maxExpYears, Spec.mostYears]
  | succ t ih =>
    rw [Spec.mostYears, ← ih]
    unfold maxExpYears
    have h0 : (0 : K) ≤ t := Nat.cast_nonneg t
    have h1 : (0 : K) ≤ (t : K) + 1 := by positivity
    push_cast
    rcases le_total pt 1 with h | h
    · rw [max_eq_left (by nlinarith), max_eq_left (by nlinarith), max_eq_left h]; ring
    · rw [max_eq_right (by nlinarith), max_eq_right (by nlinarith), max_eq_right h]; ring

theorem maxExpYears_nonneg {t : Nat} {m pt : K} (hm : 0 ≤ m) : 0 ≤ maxExpYears t m pt := by
  unfold maxExpYears
  have h0 : (0 : K) ≤ t := Nat.cast_nonneg t
  have := le_max_left (t : K) (t * pt)
  linarith

theorem maxExpYears_succ_pos {t : Nat} {m pt : K} (hm : 0 ≤ m) : 0 < maxExpYears (t + 1) m pt := by
  unfold maxExpYears
  have h0 : (0 : K) ≤ t := Nat.cast_nonneg t
  have := le_max_left ((t + 1 : Nat) : K) ((t + 1 : Nat) * pt)
  push_cast at *
  linarith

theorem maxExpYears_succ (t : Nat) (m pt : K) :
    maxExpYears (t + 1) m pt = maxExpYears t m pt + max 1 pt := by
  rw [maxExpYears_eq_mostYears, maxExpYears_eq_mostYears, Spec.mostYears]

theorem nextExpYears_eq (y : K) (c : Nat) (pt : K) : nextExpYears y c pt = y + Spec.gain pt c := by
  unfold nextExpYears ind Spec.gain
  match c with
  | 0 => simp
  | 1 => simp
  | 2 => simp
  | n + 3 => simp

theorem gain_le_max (pt : K) (c : Nat) : Spec.gain pt c ≤ max 1 pt := by
  unfold Spec.gain
  split
  · exact le_max_right _ _
  · exact le_max_left _ _
  · exact le_trans zero_le_one (le_max_left _ _)

theorem gain_nonneg {pt : K} (h : 0 ≤ pt) (c : Nat) : 0 ≤ Spec.gain pt c := by
  unfold Spec.gain
  split
  · exact h
  · exact zero_le_one
  · exact le_rfl

/-- Without the clip: the closed form of the next stock. -/
theorem nextStock_eq_div {x : K} {t : Nat} {m pt : K} {c : Nat} (hx0 : 0 ≤ x) (hx1 : x ≤ 1)
    (hm : 0 ≤ m) (hpt : 0 ≤ pt) :
    nextStock x t m pt c =
      (x * maxExpYears t m pt + Spec.gain pt c) / maxExpYears (t + 1) m pt := by
  have hpos := maxExpYears_succ_pos (t := t) (pt := pt) hm
  have hnn := maxExpYears_nonneg (t := t) (pt := pt) hm
  unfold nextStock expYearsToStock stockToExpYears
  simp only [nextExpYears_eq, gt_iff_lt, hpos, if_true]
  apply clip_of_mem
  · exact div_nonneg (add_nonneg (mul_nonneg hx0 hnn) (gain_nonneg hpt c)) hpos.le
  · rw [div_le_one hpos, maxExpYears_succ]
    exact add_le_add (mul_le_of_le_one_left hnn hx1) (gain_le_max pt c)

theorem nextStock_mem (x : K) (t : Nat) (m pt : K) (c : Nat) :
    0 ≤ nextStock x t m pt c ∧ nextStock x t m pt c ≤ 1 :=
  clip_mem _ 0 1 zero_le_one

end Soepy
