import Mathlib.Algebra.Order.Field.Basic
import Mathlib.Tactic.NormNum

/-! Specification of the income tax of 2007 (weekly amounts, 51.6 weeks a year) and of household net
income, written without reference to the model. -/

namespace Soepy.Spec
variable {K : Type} [Field K] [LinearOrder K]

/-- Yearly amount in weekly terms. -/
def weekly (yearly : K) : K := yearly / 51.6

/-- Marginal tax rate of the 2007 schedule: 0 below the allowance, rising linearly from 15 to 23.97
percent, then from 23.97 to 42 percent, then 42 percent, then 45 percent. -/
def marginal2007 (x : K) : K :=
  if x < weekly 7664 then 0
  else if x < weekly 12739 then
    0.15 + (0.2397 - 0.15) * ((x - weekly 7664) / (weekly 12739 - weekly 7664))
  else if x < weekly 52151 then
    0.2397 + (0.42 - 0.2397) * ((x - weekly 12739) / (weekly 52151 - weekly 12739))
  else if x < weekly 250000 then 0.42
  else 0.45

/-- `m` is a marginal rate function of `T`: on every interval the average slope of `T` lies between
the marginal rates at the ends.  This determines `T` up to a constant, and makes it convex. -/
def HasMarginal (T m : K → K) : Prop :=
  ∀ u v, u ≤ v → m u * (v - u) ≤ T v - T u ∧ T v - T u ≤ m v * (v - u)

end Soepy.Spec
