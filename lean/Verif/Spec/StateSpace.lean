import Verif.Model.Types

/-! Specification of the discrete state space and its transitions, independent of the loops, arrays
and index arithmetic of the model. -/

namespace Soepy.Spec

/-- The combinations the state space must list. -/
structure InRange {K : Type} (spec : ModelSpec K) (s : State) : Prop where
  period : s.period < spec.num_periods
  educ : s.educ < spec.num_educ_levels
  lagged : s.lagged < 3
  type : s.type < spec.num_types
  ageLo : -1 ≤ s.age
  ageHi : s.age ≤ spec.child_age_max
  partner : s.partner < 2

/-- Age slot on the fifth axis of the indexer: the age itself, "no child" in the last slot. -/
def slot {K : Type} (spec : ModelSpec K) (age : Int) : Int :=
  if age = -1 then spec.child_age_max + 1 else age

/-- Age of the youngest child one year later if no child is born. -/
def older (childAgeMax age : Int) : Int :=
  if age = -1 then -1 else if age = childAgeMax then -1 else age + 1

/-- The state of the next period: choice `c`, birth or not, partner or not. -/
def successor (childAgeMax : Int) (s : State) (c : Nat) (birth : Bool) (partner : Nat) : State :=
  { period := s.period + 1, educ := s.educ, lagged := c, type := s.type,
    age := if birth then 0 else older childAgeMax s.age, partner := partner }

/-- Group of the age of the youngest child: none, 0-2, 3-5, 6-10, 11 and older. -/
def ageGroup (age : Int) : Nat :=
  if age = -1 then 0 else if age ≤ 2 then 1 else if age ≤ 5 then 2 else if age ≤ 10 then 3 else 4

end Soepy.Spec
