import Mathlib.Algebra.Order.Field.Basic

/-! Specification vocabulary for experience accumulation, independent of the model. -/

namespace Soepy.Spec
variable {K : Type} [Field K] [LinearOrder K]

/-- Years of experience gained by one period of choice `c` (0 out of work, 1 part-time, 2 full-time). -/
def gain (pt : K) : Nat → K
  | 1 => pt
  | 2 => 1
  | _ => 0

/-- A person who worked as much as possible in each of `t` periods after starting with `m` years. -/
def mostYears (m pt : K) : Nat → K
  | 0 => m
  | t + 1 => mostYears m pt t + max 1 pt

end Soepy.Spec
