import Mathlib.MeasureTheory.Integral.Bochner.Basic
import Mathlib.MeasureTheory.Measure.Lebesgue.Basic
import Mathlib.Analysis.SpecialFunctions.Exp
import Mathlib.Algebra.Polynomial.Eval.Defs

/-! What SciPy documents about `roots_hermite`. -/

namespace Soepy.Spec
open Polynomial

/-- The Gauss-Hermite rule with `n` nodes: nodes and nonnegative weights such that polynomials of degree less than
`2 n` are integrated exactly with respect to the weight function `exp (-x²)`. -/
structure GaussHermite (n : ℕ) (rule : List ℝ × List ℝ) : Prop where
  nodes : rule.1.length = n
  weights : rule.2.length = n
  nonneg : ∀ w ∈ rule.2, 0 ≤ w
  exact : ∀ p : ℝ[X], p.degree < (2 * n : ℕ) →
    (List.zipWith (fun x w => w * p.eval x) rule.1 rule.2).sum = ∫ x, p.eval x * Real.exp (-x ^ 2)

end Soepy.Spec
