import Verif.Model.Types

/-!
# soepy/solve/create_state_space.py, soepy/solve/covariates.py and
soepy/exogenous_processes/children.py:9-18
-/

namespace Soepy

/-- The 6-dimensional array `indexer` (soepy/solve/create_state_space.py:69-77).  `val` takes
positions on the axes (period, educ, lagged, type, age slot, partner). -/
structure Indexer where
  nPeriods : Nat
  nEduc : Nat
  nTypes : Nat
  nKids : Nat
  val : Nat → Nat → Nat → Nat → Nat → Nat → Int

/-- NumPy access `indexer[p, e, l, ty, a, pa]`: every index is checked against its axis. -/
def Indexer.get (ix : Indexer) (p e l ty a pa : Int) : Except PyErr Int := do
  let p' ← npIndex ix.nPeriods p
  let e' ← npIndex ix.nEduc e
  let l' ← npIndex NUM_CHOICES l
  let ty' ← npIndex ix.nTypes ty
  let a' ← npIndex ix.nKids a
  let pa' ← npIndex 2 pa
  pure (ix.val p' e' l' ty' a' pa')

/-- Item assignment `indexer[p, e, l, ty, a, pa] = v` (all positions in range). -/
def Indexer.set (ix : Indexer) (p e l ty a pa : Nat) (v : Int) : Indexer :=
  { ix with
    val := fun p' e' l' ty' a' pa' =>
      if p' = p ∧ e' = e ∧ l' = l ∧ ty' = ty ∧ a' = a ∧ pa' = pa then v
      else ix.val p' e' l' ty' a' pa' }

/-- soepy/solve/create_state_space.py:201-208 `_kid_age_to_index`. -/
def kidAgeToIndex (age : Int) (nKids : Nat) : Int := if age = -1 then (nKids : Int) - 1 else age

/-- soepy/solve/create_state_space.py:66 `np.arange(-1, child_age_max + 1)`. -/
def kidsAges (childAgeMax : Int) : List Int :=
  (List.range (childAgeMax + 2).toNat).map fun (i : Nat) => (i : Int) - 1

/-- The local variables that the loops of `create_discrete_state_space` change. -/
structure SSAcc where
  states : List State
  indexer : Indexer
  i : Nat

/-- soepy/solve/create_state_space.py:87-111: body of the innermost loop.  The block of three rows is
appended at once; `indexer[..., lagged, ...] = ids` writes the three ids. -/
def ssBody (nKids : Nat) (p e ty pa : Nat) (acc : SSAcc) (age : Int) : SSAcc :=
  let ageIdx := kidAgeToIndex age nKids
  let lagged := List.range NUM_CHOICES
  { states := acc.states ++ lagged.map fun l =>
      { period := p, educ := e, lagged := l, type := ty, age := age, partner := pa }
    indexer := lagged.foldl
      (fun ix l => ix.set p e l ty ageIdx.toNat pa ((acc.i : Int) + l)) acc.indexer
    i := acc.i + NUM_CHOICES }

/-- soepy/solve/create_state_space.py:52-119 `create_discrete_state_space`. -/
def createDiscreteStateSpace {K : Type} (spec : ModelSpec K) : List State × Indexer :=
  let kids := kidsAges spec.child_age_max
  let nKids := kids.length
  let init : SSAcc :=
    { states := []
      indexer := { nPeriods := spec.num_periods, nEduc := spec.num_educ_levels,
                   nTypes := spec.num_types, nKids := nKids, val := fun _ _ _ _ _ _ => MISSING_INT }
      i := 0 }
  let r := (List.range spec.num_periods).foldl (fun acc p =>
    (List.range spec.num_educ_levels).foldl (fun acc e =>
      (List.range spec.num_types).foldl (fun acc ty =>
        (List.range 2).foldl (fun acc pa =>
          kids.foldl (ssBody nKids p e ty pa) acc) acc) acc) acc) init
  (r.states, r.indexer)

/-- soepy/exogenous_processes/children.py:9-18 `define_child_age_update_rule`: three masked
assignments on an array filled with -1. -/
def childAgeUpdateRule (childAgeMax : Int) (states : List State) : List Int :=
  states.map fun s =>
    let r0 : Int := -1
    let r1 := if s.age ≠ -1 then s.age + 1 else r0
    if r1 > childAgeMax then -1 else r1

/-- One row of `child_state_indexes`: choice, child arrives, partner next period. -/
abbrev ChildIdx := Fin 3 → Fin 2 → Fin 2 → Int

/-- soepy/solve/create_state_space.py:140-196 for one row of `states`. -/
def childIndexesOf (indexer : Indexer) (numPeriods : Nat) (rule : List Int) (s : State) :
    Except PyErr ChildIdx :=
  let ageIdx : Int := if s.age = -1 then (indexer.nKids : Int) - 1 else s.age
  if (s.period : Int) < (numPeriods : Int) - 1 then do
    let k ← indexer.get s.period s.educ s.lagged s.type ageIdx s.partner
    let r ← npGet rule k
    seqFin3 fun c => seqFin2 fun b => seqFin2 fun q =>
      indexer.get ((s.period : Int) + 1) s.educ (c : Nat) s.type (if b = 1 then 0 else r) (q : Nat)
  else .ok fun _ _ _ => MISSING_INT

/-- soepy/solve/create_state_space.py:122-198 `create_child_indexes`. -/
def createChildIndexes (states : List State) (indexer : Indexer) (numPeriods : Nat)
    (rule : List Int) : Except PyErr (List ChildIdx) :=
  mapE (childIndexesOf indexer numPeriods rule) states

section cov
variable {K : Type} [Field K] [LinearOrder K]

/-- The label of the first right-closed bin `(edges[i], edges[i+1]]` that holds `age`; `none` is
NaN.  Part of `pd.cut`, called at soepy/solve/covariates.py:22-26. -/
def cutLabel (age : Int) : List Int → List Nat → Option Nat
  | lo :: hi :: rest, l :: ls =>
    if lo < age ∧ age ≤ hi then some l else cutLabel age (hi :: rest) ls
  | _, _ => none

/-- `pd.cut(x, bins=edges, labels=labels)` for one entry of `x`, called at
soepy/solve/covariates.py:22-26: edges that do not increase strictly and a wrong number of labels are
rejected with a `ValueError`. -/
def pdCut (age : Int) (edges : List Int) (labels : List Nat) : Except PyErr (Option Nat) :=
  if ¬ edges.IsChain (· < ·) then .error (.valueError "bins must increase monotonically.")
  else if labels.length + 1 ≠ edges.length then
    .error (.valueError "Bin labels must be one fewer than the number of bin edges")
  else .ok (cutLabel age edges labels)

/-- soepy/solve/covariates.py:20-26: the child bins. -/
def childBin (childAgeMax age : Int) : Except PyErr (Option Nat) :=
  let lastEdge := max childAgeMax 11
  pdCut age [-2, -1, 2, 5, 10, lastEdge] [0, 1, 2, 3, 4]

/-- soepy/solve/covariates.py:45-52 `create_equivalence_scale`; `none` is NaN. -/
def createEquivalenceScale (noChild married : Bool) : Except PyErr K :=
  let e0 : Option K := if noChild && !married then some 1 else none
  let e1 := if noChild && married then some 1.5 else e0
  let e2 := if !noChild && married then some 1.8 else e1
  let e3 := if !noChild && !married then some 1.3 else e2
  match e3 with
  | some x => .ok x
  | none => .error .assertionError

/-- soepy/solve/covariates.py:11-42 `construct_covariates` for one row of `states`. -/
def constructCovariate [Transc K] (spec : ModelSpec K) (s : State) : Except PyErr (Covariate K) :=
  let married := decide (s.partner = 1)
  let noChild := decide (s.age = -1)
  let logWage := spec.partner_cf_const + spec.partner_cf_age * (s.period : K)
    + spec.partner_cf_age_sq * (s.period : K) ^ 2 + spec.partner_cf_educ * (s.educ : K)
  let maleWage : K := if married then Transc.exp logWage * HOURS 2 else 0
  match createEquivalenceScale (K := K) noChild married with
  | .error e => .error e
  | .ok equiv =>
    let childBenefits : K := if noChild then 0 else spec.child_benefits
    match childBin spec.child_age_max s.age with
    | .error e => .error e
    | .ok none => .error .nanMarker
    | .ok (some bin) => .ok { bin := bin, maleWage := maleWage, equivScale := equiv,
                              childBenefits := childBenefits }

/-- soepy/solve/covariates.py:11-42 `construct_covariates`. -/
def constructCovariates [Transc K] (spec : ModelSpec K) (states : List State) :
    Except PyErr (List (Covariate K)) :=
  mapE (constructCovariate spec) states

/-- The five arrays returned by `create_state_space_objects`. -/
structure StateSpaceObjects (K : Type) where
  states : List State
  indexer : Indexer
  covariates : List (Covariate K)
  childAgeUpdateRule : List Int
  childStateIndexes : List ChildIdx

/-- soepy/solve/create_state_space.py:16-49 `create_state_space_objects`. -/
def createStateSpaceObjects [Transc K] (spec : ModelSpec K) : Except PyErr (StateSpaceObjects K) :=
  let (states, indexer) := createDiscreteStateSpace spec
  match constructCovariates spec states with
  | .error e => .error e
  | .ok covs =>
    let rule := childAgeUpdateRule spec.child_age_max states
    match createChildIndexes states indexer spec.num_periods rule with
    | .error e => .error e
    | .ok child => .ok { states := states, indexer := indexer, covariates := covs,
                         childAgeUpdateRule := rule, childStateIndexes := child }
end cov

end Soepy
