import Verif.Model.NonEmployment
import Verif.Spec.Benefits
import Mathlib.Tactic.Linarith
import Mathlib.Tactic.Ring
import Mathlib.Tactic.NormNum

set_option linter.unusedSectionVars false

namespace Soepy
variable {K : Type} [Field K] [LinearOrder K] [IsStrictOrderedRing K]

theorem calculateAlg2_eq (spec : ModelSpec K) (s : State) :
    calculateAlg2 (decide (s.age = -1)) (decide (s.partner = 1))
      (spec.regelsatz_single + spec.housing_single)
      (spec.regelsatz_single + spec.regelsatz_child + spec.addition_child_single
        + spec.housing_single + spec.housing_addtion) = Spec.floor spec s := by
  unfold calculateAlg2 Spec.floor Spec.assistance ind
  by_cases h1 : s.age = -1 <;> by_cases h2 : s.partner = 1 <;> simp [h1, h2]
  ring

theorem hoursWorked_eq (s : State) :
    (HOURS 2 * ind (decide (s.lagged = 2)) + HOURS 1 * ind (decide (s.lagged = 1)) : K)
      = Spec.lastHours s.lagged := by
  unfold Spec.lastHours HOURS ind
  by_cases h2 : s.lagged = 2
  · simp [h2]
  · by_cases h1 : s.lagged = 1
    · simp [h1]
    · simp [h1, h2]

theorem worked_or (s : State) :
    (decide (s.lagged = 2) || decide (s.lagged = 1)) = decide (Spec.worked s) := by
  unfold Spec.worked
  by_cases h2 : s.lagged = 2 <;> by_cases h1 : s.lagged = 1 <;> simp [h1, h2]

variable [Transc K]

theorem calculateAlg1_eq (spec : ModelSpec K) (s : State) (lw cb : K) :
    calculateAlg1 HOURS (decide (s.lagged = 2)) (decide (s.lagged = 1)) (decide (s.age = -1))
      (0.65 * Transc.exp lw) spec.alg1_replacement_no_child spec.alg1_replacement_child cb
      = Spec.alg1 spec s (Transc.exp lw) cb := by
  unfold calculateAlg1 Spec.alg1
  simp only [hoursWorked_eq, worked_or]
  by_cases hw : Spec.worked s <;> by_cases ha : s.age = -1 <;> simp [ind, hw, ha]

theorem calculateElterngeld_eq (spec : ModelSpec K) (s : State) (lw cb : K) :
    calculateElterngeld HOURS (decide (s.lagged = 2)) (decide (s.lagged = 1))
      (0.65 * Transc.exp lw) spec.elterngeld_replacement spec.elterngeld_min spec.elterngeld_max cb
      = Spec.elterngeld spec s (Transc.exp lw) cb := by
  unfold calculateElterngeld Spec.elterngeld
  simp only [hoursWorked_eq, worked_or]
  by_cases hw : Spec.worked s <;> simp [ind, hw]

theorem calcErziehungsgeld_eq (male female : K) (married baby : Bool) (single couple erz : K) :
    calcErziehungsgeld male female married baby single couple erz
      = if baby = true ∧ male + female ≤ (if married = true then couple else single)
        then erz else 0 := by
  unfold calcErziehungsgeld ind
  cases married <;> cases baby <;> simp

/-- Benefits in the elterngeld regime. -/
theorem benefits_elterngeld (spec : ModelSpec K) (s : State) (lw cb mw : K) :
    calculateNonEmploymentBenefits spec HOURS s lw cb mw true =
      max (if s.age = 0 then Spec.elterngeld spec s (Transc.exp lw) cb
        else Spec.alg1 spec s (Transc.exp lw) cb) (Spec.floor spec s) := by
  unfold calculateNonEmploymentBenefits
  simp only [calculateAlg2_eq, calculateAlg1_eq, calculateElterngeld_eq, if_true]
  by_cases h : s.age = 0 <;> simp [ind, h]

/-- Benefits in the erziehungsgeld regime. -/
theorem benefits_erziehungsgeld (spec : ModelSpec K) (s : State) (lw cb mw : K) :
    calculateNonEmploymentBenefits spec HOURS s lw cb mw false =
      let b := max (Spec.alg1 spec s (Transc.exp lw) cb) (Spec.floor spec s)
      b + if (s.age = 0 ∨ s.age = 1) ∧ mw + b ≤ Spec.erzThreshold spec (s.partner = 1)
        then spec.erziehungsgeld else 0 := by
  unfold calculateNonEmploymentBenefits
  simp only [calculateAlg2_eq, calculateAlg1_eq, calcErziehungsgeld_eq, Bool.false_eq_true, if_false,
    Bool.or_eq_true, decide_eq_true_eq, Spec.erzThreshold]
  by_cases hp : s.partner = 1 <;> simp [hp]

end Soepy
