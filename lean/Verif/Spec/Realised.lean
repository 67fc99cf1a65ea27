import Verif.Spec.Lifetime
import Mathlib.Data.Finset.Dedup

/-! # Utility realised in a panel.  Nothing here refers to the program. -/

namespace Soepy.Spec
variable {K : Type} [Field K] [LinearOrder K]

/-- The flow utility of the choice made in a row. -/
def utilityOf (r : OutRow K) : K :=
  match r.detail with
  | some d => d.flow (Fin.ofNat 3 r.choice.toNat)
  | none => 0

/-- The best of the three values recorded in a row. -/
def bestValue (r : OutRow K) : K :=
  match r.detail with
  | some d => max (d.value 0) (max (d.value 1) (d.value 2))
  | none => 0

/-- The agents that appear in a panel. -/
def agents (rows : List (OutRow K)) : Finset Int := (rows.map OutRow.id).toFinset

/-- The utility that agent `i` realises over all periods, discounted to period 0. -/
def lifetimeUtility (delta : K) (rows : List (OutRow K)) (i : Int) : K :=
  ((rows.filter fun r => decide (r.id = i)).map fun r => delta ^ r.period.toNat * utilityOf r).sum

/-- The first rows of all agents. -/
def entries (spec : ModelSpec K) (rows : List (OutRow K)) : List (OutRow K) :=
  rows.filter fun r => decide (spec.educ_years[r.educ.toNat]? = some r.period.toNat)

end Soepy.Spec
