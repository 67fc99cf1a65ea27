import Verif.Model.Api
import Verif.Spec.Vocabulary

/-! # What it means that a data frame is the output of `simulate` -/

namespace Soepy.Spec
variable {S K : Type} [Field K] [LinearOrder K] [FloorRing K] [Transc K]

/-- `simulate(frame, spec, biased_exp=biased, data_sparse=sparse)` returns the rows `rows`, where
`par` and `spec` are the processed parameters and the processed specification of the call.  The
generator `env.rng` obeys NumPy's documentation and the specification dictionary is at address `a` of
a memory without dangling references. -/
structure Output (env : Env S K) (frame : Frame K) (a : Nat) (biased sparse : Bool) (w : World S K)
    (par : ModelParams K) (spec : ModelSpec K) (rows : List (OutRow K)) : Prop where
  laws : RngLaws env.rng
  closed : Closed w.store
  addr : a < w.store.length
  params : readModelParams frame = .ok par
  spec_ok : ∃ st', readModelSpec w.store a (specNumTypes frame) = .ok (st', spec)
  run : ∃ w', simulate env frame a biased sparse w = .ok (rows, w')

/-- The education levels drawn at the beginning of a simulation (also of agents whose schooling lasts
beyond the horizon, who do not appear in the data). -/
def drawnEducation (env : Env S K) (spec : ModelSpec K) : List Nat :=
  (env.rng.choice (env.rng.seed spec.seed_sim) spec.num_agents_sim
    ((env.disk spec.files.educ_shares).map Prod.snd)).1

/-- The standard normal draws behind the wage shocks: periods in rows, agents in columns. -/
def normalDraws (env : Env S K) (spec : ModelSpec K) : List (List K) :=
  (env.rng.normal (env.rng.seed spec.seed_sim) spec.num_periods spec.num_agents_sim).1

end Soepy.Spec
