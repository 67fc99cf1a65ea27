import Verif.Model.RealInst
import Verif.Model.RoundedFlow
import Verif.Spec.Bellman
import Mathlib.Analysis.SpecialFunctions.Pow.Real

/-! # Accuracy of a machine's functions and tables -/

namespace Soepy.Spec

/-- The exponential function, the logarithm and the power function have a relative error of at most `τ`. -/
structure Accurate (lib : Library ℝ) (τ : ℝ) : Prop where
  nonneg : 0 ≤ τ
  exp : ∀ x, |lib.exp x - Real.exp x| ≤ τ * Real.exp x
  log : ∀ x, 0 < x → |lib.log x - Real.log x| ≤ τ * |Real.log x|
  pow : ∀ x y, 0 < x → |lib.pow x y - x ^ y| ≤ τ * x ^ y

/-- The entries of two tax schedules differ by at most `ε`. -/
def ScheduleWithin (ε : ℝ) (tp' tp : TaxParams ℝ) : Prop :=
  ∀ i, |tp'.thresholds i - tp.thresholds i| ≤ ε ∧ |tp'.base i - tp.base i| ≤ ε ∧
    |tp'.linear i - tp.linear i| ≤ ε ∧ |tp'.quad i - tp.quad i| ≤ ε

/-- A tax schedule without jumps: the thresholds increase, no tax is due at the first one, and the formula of each
bracket ends where that of the next one begins. -/
structure Seamless (tp : TaxParams ℝ) : Prop where
  order : tp.thresholds 0 < tp.thresholds 1 ∧ tp.thresholds 1 < tp.thresholds 2 ∧ tp.thresholds 2 < tp.thresholds 3
  start : tp.base 0 = 0
  seam : ∀ i j : Fin 4, (j : ℕ) = i + 1 → tp.base j = tp.base i + tp.linear i * (tp.thresholds j - tp.thresholds i)
    + tp.quad i * (tp.thresholds j - tp.thresholds i) ^ 2

/-- No income is exactly at the limit of the flat benefit for parents of small children (in the regime that has it):
neither that of a woman out of work nor that of a part-time worker with the given wage shock. -/
def OffLimits (e : Economy ℝ) (s : State) (x shock : ℝ) : Prop :=
  e.elterngeldRegime = false → (s.age = 0 ∨ s.age = 1) →
    partnerWage e.spec s + max (alg1 e.spec s (Real.exp (logWage e s x)) (kindergeld e.spec s)) (floor e.spec s)
        ≠ erzThreshold e.spec (s.partner = 1) ∧
      partnerWage e.spec s + 18 * Real.exp (logWage e s x + shock) ≠ erzThreshold e.spec (0 < partnerWage e.spec s)

end Soepy.Spec
