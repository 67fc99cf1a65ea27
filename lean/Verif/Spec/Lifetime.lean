import Verif.Spec.Reference

/-! What it takes for the future to hold no risk.  Nothing here refers to the program. -/

namespace Soepy.Spec
variable {S K : Type} [Field K] [LinearOrder K] [FloorRing K] [Transc K]

/-- The files and the parameters leave nothing to chance: no wage shocks, no births, and partners come and go with
certainty or not at all.  The weights that average over shocks add up to one. -/
structure NoRisk (env : Env S K) (par : ModelParams K) (spec : ModelSpec K) : Prop where
  sd : par.shock_sd = 0
  lengths : (nodes env spec).1.length = (nodes env spec).2.length
  weights : (nodes env spec).2.sum = 1
  births : ∀ t e, birthTable env.disk spec t e = 0
  arrival : ∀ t e, arrivalTable env.disk spec t e = 0 ∨ arrivalTable env.disk spec t e = 1
  separation : ∀ t e, separationTable env.disk spec t e = 0 ∨ separationTable env.disk spec t e = 1

/-- Simulated income is above the floors in all three choices. -/
def AboveFloors (env : Env S K) (par : ModelParams K) (spec : ModelSpec K) (r : OutRow K) : Prop :=
  1 / 2 ^ 52 < simResources spec par (stateOf r) r.stock (shock env par spec r) 0 ∧
  1e-14 < simResources spec par (stateOf r) r.stock (shock env par spec r) 1 ∧
  1e-14 < simResources spec par (stateOf r) r.stock (shock env par spec r) 2

/-- `path 0, …, path n` are consecutive rows of one agent that end in the last of `T` periods. -/
structure Life (rows : List (OutRow K)) (T : Nat) (path : Nat → OutRow K) (n : Nat) : Prop where
  mem : ∀ k ≤ n, path k ∈ rows
  next : ∀ k < n, Next (path k) (path (k + 1))
  last : (path n).period + 1 = (T : Int)

end Soepy.Spec
