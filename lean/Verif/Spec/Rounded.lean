import Mathlib.Algebra.Order.Field.Basic
import Mathlib.Algebra.Order.Group.Unbundled.Abs

/-! Vocabulary for rounded arithmetic. -/

namespace Soepy.Spec
variable {K : Type} [Field K] [LinearOrder K]

/-- `x` has at most `p` binary digits (the digits may stand anywhere). -/
def IsNumber (p : ℕ) (x : K) : Prop := ∃ m e : ℤ, |m| ≤ 2 ^ p ∧ x = (m : K) * 2 ^ e

/-- `v` lies between `a` and `b`, in either order. -/
def Between (a b v : K) : Prop := min a b ≤ v ∧ v ≤ max a b

end Soepy.Spec
