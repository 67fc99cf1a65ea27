import Verif.Model.Simulate
import Verif.Model.Processing

/-! # soepy/simulate/simulate_python.py: the public entry points -/

namespace Soepy
variable {S K : Type} [Field K] [LinearOrder K] [FloorRing K] [Transc K]

/-- What lies outside the package: the random number generator, `scipy.special.roots_hermite`, and the
contents of the files named by a specification. -/
structure Env (S K : Type) where
  rng : Rng S K
  hermite : Nat → List K × List K
  disk : String → List (Nat × K)

/-- The mutable state of the process that the package touches: NumPy's generator and memory. -/
structure World (S K : Type) where
  rng : S
  store : Store K

/-- A parameter frame. -/
abbrev Frame (K : Type) := List (String × String × K)

/-- Everything `get_simulate_func` computes before it returns its inner function
(soepy/simulate/simulate_python.py:42-77). -/
structure Cached (K : Type) where
  probs : InitProbs K
  probChild : List (List K)
  probPartner : List (List (Fin 2 → Fin 2 → K))
  space : StateSpaceObjects K
  solve : ModelParams K → Except PyErr (Solution K)

/-- soepy/simulate/simulate_python.py:45-77, given the specification. -/
def buildCached (env : Env S K) (spec : ModelSpec K) (biased : Bool) (g : S) :
    Except PyErr (Cached K × S) := do
  let files := readFiles env.disk spec.files
  let probEduc := genProbEducLevelVector files
  let probChildAge ← genProbChildInitAgeVector files spec
  let probPartnerPresent := genProbPartnerPresentVector files
  let probExpPt ← genProbInitExpComponentVector files.pt_exp_shares spec
  let probExpFt ← genProbInitExpComponentVector files.ft_exp_shares spec
  let probChild ← genProbChildVector files spec
  let probPartner ← genProbPartner files spec
  let space ← createStateSpaceObjects spec
  let (solve, g') ← getSolveFunction env.rng env.hermite spec space.states space.covariates
    space.childStateIndexes probChild probPartner biased g
  pure ({ probs := { educ := probEduc, childAge := probChildAge, partnerPresent := probPartnerPresent,
                     expPt := probExpPt, expFt := probExpFt }
          probChild := probChild, probPartner := probPartner, space := space, solve := solve }, g')

/-- soepy/simulate/simulate_python.py:90-110, given parameters and specification of the inner call.
`set_index` only changes which columns form the index and is not modelled. -/
def runCached (env : Env S K) (c : Cached K) (par : ModelParams K) (spec : ModelSpec K)
    (sparse : Bool) (g : S) : Except PyErr (List (OutRow K) × S) := do
  let sol ← c.solve par
  pythSimulate env.rng par spec
    { states := c.space.states, indexer := c.space.indexer, covariates := c.space.covariates,
      emaxs := sol.emaxs, nonConsumptionUtilities := sol.nonConsumptionUtilities,
      childAgeUpdateRule := c.space.childAgeUpdateRule, probChild := c.probChild,
      probPartner := c.probPartner }
    c.probs false sparse g

/-- soepy/simulate/simulate_python.py:34-77 `get_simulate_func`: the cached objects of the returned
function. -/
def getSimulateFunc (env : Env S K) (frame : Frame K) (specAddr : Nat) (biased : Bool)
    (w : World S K) : Except PyErr (Cached K × World S K) := do
  let _par ← readModelParams frame
  let (st, spec) ← readModelSpec w.store specAddr (specNumTypes frame)
  let (c, g) ← buildCached env spec biased w.rng
  pure (c, { rng := g, store := st })

/-- soepy/simulate/simulate_python.py:79-112: a call of the function returned by `get_simulate_func`. -/
def callSimulateFunc (env : Env S K) (c : Cached K) (sparse : Bool) (frame : Frame K)
    (specAddr : Nat) (w : World S K) : Except PyErr (List (OutRow K) × World S K) := do
  let par ← readModelParams frame
  let (st, spec) ← readModelSpec w.store specAddr (specNumTypes frame)
  let (rows, g) ← runCached env c par spec sparse w.rng
  pure (rows, { rng := g, store := st })

/-- soepy/simulate/simulate_python.py:16-31 `simulate`. -/
def simulate (env : Env S K) (frame : Frame K) (specAddr : Nat) (biased sparse : Bool)
    (w : World S K) : Except PyErr (List (OutRow K) × World S K) := do
  let (c, w') ← getSimulateFunc env frame specAddr biased w
  callSimulateFunc env c sparse frame specAddr w'

/-- soepy/simulate/simulate_python.py:117-164 `partiable_simulate`: reads the inputs, solves with the given
solver and simulates with the given objects.  `prob_exp_years` is accepted and not used. -/
def partiableSimulate (env : Env S K) (solve : ModelParams K → Except PyErr (Solution K))
    (states : List State) (indexer : Indexer) (covariates : List (Covariate K))
    (childAgeUpdateRule : List Int) (probEduc : List K) (probChildAge : List (List K))
    (probPartnerPresent : List K) (_probExpYears : List (List K)) (probExpPt probExpFt : List (List K))
    (probChild : List (List K)) (probPartner : List (List (Fin 2 → Fin 2 → K))) (sparse : Bool)
    (frame : Frame K) (specAddr : Nat) (w : World S K) :
    Except PyErr (List (OutRow K) × World S K) := do
  let par ← readModelParams frame
  let (st, spec) ← readModelSpec w.store specAddr (specNumTypes frame)
  let sol ← solve par
  let (rows, g) ← pythSimulate env.rng par spec
    { states := states, indexer := indexer, covariates := covariates, emaxs := sol.emaxs,
      nonConsumptionUtilities := sol.nonConsumptionUtilities, childAgeUpdateRule := childAgeUpdateRule,
      probChild := probChild, probPartner := probPartner }
    { educ := probEduc, childAge := probChildAge, partnerPresent := probPartnerPresent,
      expPt := probExpPt, expFt := probExpFt } false sparse w.rng
  pure (rows, { rng := g, store := st })

end Soepy
