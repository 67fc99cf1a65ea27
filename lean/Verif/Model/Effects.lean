import Verif.Model.Api

/-!
# The entry points as programs that leave a process behind, also when they raise

The definitions in `Model/Api.lean` describe what a call returns.  Here the same calls are programs on the
process: they read files, write to memory, and leave the process in some state whether they return or raise.
The arguments are what the code accepts: a file name or an object.
-/

namespace Soepy
variable {S K : Type} [Field K] [LinearOrder K] [FloorRing K] [Transc K]

/-- The files the code reads: pickled parameter frames, specifications (the objects that `yaml.load` creates
from the file, with the address of the outermost one), and pickled tables of probabilities.  `none`: there is
no such file.  Simplified: a file that exists has the expected kind of content. -/
structure Disk (K : Type) where
  frames : String → Option (Frame K)
  specs : String → Option (Store K × Nat)
  shares : String → Option (List (Nat × K))

/-- The process: NumPy's generator, memory, and the file system. -/
structure Process (S K : Type) where
  rng : S
  store : Store K
  disk : Disk K

/-- A Python program: it returns or raises, and the process is in a new state in both cases. -/
def Py (S K α : Type) : Type := Process S K → Except PyErr α × Process S K

/-- One statement after the other; an exception skips the rest. -/
instance : Monad (Py S K) where
  pure a := fun p => (.ok a, p)
  bind x f := fun p => match x p with
    | (.ok a, p') => f a p'
    | (.error e, p') => (.error e, p')

/-- A computation without effects, which may raise. -/
def Py.calc {α : Type} (x : Except PyErr α) : Py S K α := fun p => (x, p)

/-- A computation that reads memory. -/
def Py.look {α : Type} (f : Store K → Except PyErr α) : Py S K α := fun p => (f p.store, p)

/-- A computation whose last action is its only assignment to memory: if it raises, nothing is written. -/
def Py.write (f : Store K → Except PyErr (Store K)) : Py S K Unit := fun p =>
  match f p.store with
  | .ok st => (.ok (), { p with store := st })
  | .error e => (.error e, p)

/-- A computation that uses NumPy's generator.  If it raises, the generator is left in the state `lost`,
about which nothing is assumed. -/
def Py.draw {α : Type} (lost : S) (f : S → Except PyErr (α × S)) : Py S K α := fun p =>
  match f p.rng with
  | .ok (a, g) => (.ok a, { p with rng := g })
  | .error e => (.error e, { p with rng := lost })

/-- `pd.read_pickle(name)` of a table of probabilities (soepy/exogenous_processes/*.py). -/
def readShares (name : String) : Py S K (List (Nat × K)) := fun p =>
  match p.disk.shares name with
  | some rows => (.ok rows, p)
  | none => (.error (.fileNotFound name), p)

/-- The first argument of the entry points: a file name, a data frame, or anything else. -/
inductive FrameArg (K : Type) where
  | path (name : String)
  | frame (f : Frame K)
  | other

/-- The second argument: a file name, or an object in memory. -/
inductive SpecArg where
  | path (name : String)
  | obj (a : Nat)

/-- soepy/pre_processing/model_processing.py:20-25: the data frame. -/
def loadFrame : FrameArg K → Py S K (Frame K)
  | .path name => fun p => match p.disk.frames name with
    | some f => (.ok f, p)
    | none => (.error (.fileNotFound name), p)
  | .frame f => pure f
  | .other => .calc (.error .notImplemented)

/-- soepy/pre_processing/model_processing.py:16-42 `read_model_params_init`: the frame and the named tuple. -/
def readModelParamsInit (arg : FrameArg K) : Py S K (Frame K × ModelParams K) := do
  let frame ← loadFrame arg
  let par ← .calc (readModelParams frame)
  pure (frame, par)

/-- soepy/pre_processing/model_processing.py:165-169: the object that is processed, which is new in both
cases: `yaml.load` creates its objects at the end of memory, `copy.deepcopy` the copies. -/
def loadSpec : SpecArg → Py S K Nat
  | .path name => fun p => match p.disk.specs name with
    | some (objs, root) =>
      (.ok (root + p.store.length), { p with store := p.store ++ objs.map (Obj.shift p.store.length) })
    | none => (.error (.fileNotFound name), p)
  | .obj a => fun p =>
    let (st, root) := deepcopy p.store a
    (.ok root, { p with store := st })

/-- soepy/pre_processing/model_processing.py:197-200: `DERIVED_ATTR` is allocated and entered. -/
def addDerived (root numEduc numTypes : Nat) (st : Store K) : Except PyErr (Store K) := do
  let top ← getDict st root
  pure ((st.set root (.dict (dset top "DERIVED_ATTR" (.ref st.length)))) ++
    [.dict [("num_educ_levels", .int numEduc), ("num_types", .int numTypes)]])

/-- soepy/pre_processing/model_processing.py:183-208 `expand_model_spec_dict`, assignment by assignment (with
soepy/pre_processing/tax_and_transfers_params.py:8-20, 60-109). -/
def expandSpec (root numTypes : Nat) : Py S K Unit := do
  let (_, educ) ← .look (groupOf · root "EDUC")
  let years ← .calc (dget educ "educ_years")
  let numEduc ← .look (listLen · years)
  let (_, sim) ← .look (groupOf · root "SIMULATION")
  .write (defaultElasticity · root sim)
  .write (addDerived root numEduc numTypes)
  .write (processTaxSystem · root)
  .write (createChildCareCosts · root)
  .write (processSsc · root)
  .write (divideIn · root "elterngeld_min" M_FACTOR)
  .write (divideIn · root "elterngeld_max" M_FACTOR)
  .write (divideIn · root "erziehungsgeld_income_threshold_single" Y_FACTOR)
  .write (divideIn · root "erziehungsgeld_income_threshold_married" Y_FACTOR)
  .write (divideIn · root "erziehungsgeld" M_FACTOR)

/-- soepy/pre_processing/model_processing.py:158-180 `read_model_spec_init`.  As in `readModelSpec`, the
attributes of the named tuple are read here and not where they are used. -/
def readModelSpecInit (arg : SpecArg) (numTypes : Nat) : Py S K (ModelSpec K) := do
  let root ← loadSpec arg
  expandSpec root numTypes
  let flat ← .look (flattenModelSpecDict · root)
  let top ← .look (getDict · root)
  let gridVal ← .calc (dget top "exp_grid")
  let grid ← .look (listNums · gridVal)
  .look (specOfFlat · flat grid)

/-- soepy/simulate/simulate_python.py:45-77.  Every function is given the table it has read; `gen_prob_partner` looks
for the periods in its first table before it reads the second (soepy/exogenous_processes/partner.py:13-29). -/
def buildObjects (rng : Rng S K) (hermite : Nat → List K × List K) (spec : ModelSpec K) (biased : Bool)
    (lost : S) : Py S K (Cached K) := do
  let educ ← readShares spec.files.educ_shares
  let childAge ← readShares spec.files.child_age_shares
  let probChildAge ← .calc (genProbChildInitAgeVector (readFiles (fun _ => childAge) spec.files) spec)
  let partner ← readShares spec.files.partner_shares
  let pt ← readShares spec.files.pt_exp_shares
  let probExpPt ← .calc (genProbInitExpComponentVector pt spec)
  let ft ← readShares spec.files.ft_exp_shares
  let probExpFt ← .calc (genProbInitExpComponentVector ft spec)
  let child ← readShares spec.files.child_info
  let probChild ← .calc (genProbChildVector (readFiles (fun _ => child) spec.files) spec)
  let separation ← readShares spec.files.partner_separation
  let _ ← .calc (partnerRows separation spec.num_periods)
  let arrival ← readShares spec.files.partner_arrival
  let probPartner ← .calc (genProbPartner
    { readFiles (fun _ => separation) spec.files with partner_arrival := arrival } spec)
  let space ← .calc (createStateSpaceObjects spec)
  let solve ← .draw lost (getSolveFunction rng hermite spec space.states space.covariates
    space.childStateIndexes probChild probPartner biased)
  pure { probs := { educ := genProbEducLevelVector (readFiles (fun _ => educ) spec.files)
                    childAge := probChildAge
                    partnerPresent := genProbPartnerPresentVector (readFiles (fun _ => partner) spec.files)
                    expPt := probExpPt, expFt := probExpFt }
         probChild := probChild, probPartner := probPartner, space := space, solve := solve }

/-- soepy/simulate/simulate_python.py:34-77 `get_simulate_func`. -/
def getSimulateFuncP (rng : Rng S K) (hermite : Nat → List K × List K) (fa : FrameArg K) (sa : SpecArg)
    (biased : Bool) (lost : S) : Py S K (Cached K) := do
  let (frame, _) ← readModelParamsInit fa
  let spec ← readModelSpecInit sa (specNumTypes frame)
  buildObjects rng hermite spec biased lost

/-- soepy/simulate/simulate_python.py:79-112: a call of the returned function. -/
def callSimulateFuncP (rng : Rng S K) (c : Cached K) (sparse : Bool) (fa : FrameArg K) (sa : SpecArg)
    (lost : S) : Py S K (List (OutRow K)) := do
  let (frame, par) ← readModelParamsInit fa
  let spec ← readModelSpecInit sa (specNumTypes frame)
  let sol ← .calc (c.solve par)
  .draw lost (pythSimulate rng par spec
    { states := c.space.states, indexer := c.space.indexer, covariates := c.space.covariates,
      emaxs := sol.emaxs, nonConsumptionUtilities := sol.nonConsumptionUtilities,
      childAgeUpdateRule := c.space.childAgeUpdateRule, probChild := c.probChild,
      probPartner := c.probPartner }
    c.probs false sparse)

/-- soepy/simulate/simulate_python.py:16-31 `simulate`. -/
def simulateP (rng : Rng S K) (hermite : Nat → List K × List K) (fa : FrameArg K) (sa : SpecArg)
    (biased sparse : Bool) (lost lost' : S) : Py S K (List (OutRow K)) := do
  let c ← getSimulateFuncP rng hermite fa sa biased lost
  callSimulateFuncP rng c sparse fa sa lost'

end Soepy
