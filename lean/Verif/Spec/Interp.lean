import Mathlib.Algebra.Order.Field.Basic

/-! Specification vocabulary for interpolation. -/

namespace Soepy.Spec
variable {K : Type} [Field K]

/-- The line through `(a, va)` and `(b, vb)` evaluated at `x`. -/
def line (a b va vb x : K) : K := va + (x - a) / (b - a) * (vb - va)

/-- The grid `0, 1/(n-1), 2/(n-1), ..., 1`. -/
def uniformGrid (n : Nat) : List K := (List.range n).map fun (i : Nat) => (i : K) / ((n : K) - 1)

end Soepy.Spec
