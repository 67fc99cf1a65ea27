import Verif.Model.Types

/-!
# soepy/exogenous_processes: probability tables read from files

A pickled data frame is given as its list of rows: the index level that the code looks at
(`educ_level` or `period`) with the value of the single column.
-/

namespace Soepy
variable {K : Type} [Field K] [LinearOrder K]

/-- The data frames read from disk (soepy/exogenous_processes/*.py, `pd.read_pickle`). -/
structure InputFiles (K : Type) where
  educ_shares : List K
  child_age_shares : List (Nat × K)
  partner_shares : List K
  pt_exp_shares : List (Nat × K)
  ft_exp_shares : List (Nat × K)
  child_info : List (Nat × K)
  partner_separation : List (Nat × K)
  partner_arrival : List (Nat × K)

/-- `pd.read_pickle` of the eight files named in the specification; `disk` gives the rows of a file (for
the frames that are used without looking at their index the first component is irrelevant). -/
def readFiles (disk : String → List (Nat × K)) (names : FileNames) : InputFiles K :=
  { educ_shares := (disk names.educ_shares).map Prod.snd
    child_age_shares := disk names.child_age_shares
    partner_shares := (disk names.partner_shares).map Prod.snd
    pt_exp_shares := disk names.pt_exp_shares
    ft_exp_shares := disk names.ft_exp_shares
    child_info := disk names.child_info
    partner_separation := disk names.partner_separation
    partner_arrival := disk names.partner_arrival }

/-- soepy/exogenous_processes/education.py:6-14 `gen_prob_educ_level_vector`. -/
def genProbEducLevelVector (f : InputFiles K) : List K := f.educ_shares

/-- soepy/exogenous_processes/children.py:50-53 and soepy/exogenous_processes/experience.py:31-34:
`lst = rows of educ_level; lst[0] = 1 - sum(lst[1:])` (`IndexError` on an empty list). -/
def sharesOfEduc (rows : List (Nat × K)) (educ : Nat) : Except PyErr (List K) :=
  match (rows.filter fun r => r.1 == educ).map Prod.snd with
  | [] => .error .indexError
  | _ :: rest => .ok ((1 - rest.sum) :: rest)

/-- soepy/exogenous_processes/children.py:43-56 `gen_prob_child_init_age_vector`. -/
def genProbChildInitAgeVector (f : InputFiles K) (spec : ModelSpec K) : Except PyErr (List (List K)) :=
  mapE (sharesOfEduc f.child_age_shares) (List.range spec.num_educ_levels)

/-- soepy/exogenous_processes/experience.py:22-37 `gen_prob_init_exp_component_vector`. -/
def genProbInitExpComponentVector (rows : List (Nat × K)) (spec : ModelSpec K) :
    Except PyErr (List (List K)) :=
  mapE (sharesOfEduc rows) (List.range spec.num_educ_levels)

/-- `np.convolve(a, b)` (full mode). -/
def convolve (a b : List K) : List K :=
  (List.range (a.length + b.length - 1)).map fun n =>
    ((List.range (n + 1)).map fun i => a.getD i 0 * b.getD (n - i) 0).sum

/-- soepy/exogenous_processes/experience.py:53-60: body of the loop. -/
def expYearsOf (initExpMax : Nat) (pFt pPt : List K) : List K :=
  let p := (convolve pFt pPt).take (2 * initExpMax + 1)
  p.map (· / p.sum)

/-- soepy/exogenous_processes/experience.py:40-62 `gen_prob_init_exp_years_vector`. -/
def genProbInitExpYearsVector (f : InputFiles K) (spec : ModelSpec K) :
    Except PyErr (List (List K)) :=
  match genProbInitExpComponentVector f.ft_exp_shares spec with
  | .error e => .error e
  | .ok ft => match genProbInitExpComponentVector f.pt_exp_shares spec with
    | .error e => .error e
    | .ok pt => .ok (List.zipWith (expYearsOf spec.init_exp_max) ft pt)

/-- Python slice end: `a[0:stop]` has `sliceEnd (len a) stop` elements. -/
def sliceEnd (n : Nat) (stop : Int) : Nat :=
  if stop < 0 then (max 0 (stop + n)).toNat else min stop.toNat n

/-- soepy/exogenous_processes/children.py:21-40 `gen_prob_child_vector`.  The three education columns
are hard coded. -/
def genProbChildVector (f : InputFiles K) (spec : ModelSpec K) : Except PyErr (List (List K)) :=
  let values := (f.child_info.filter fun r => decide (r.1 < spec.num_periods)).map Prod.snd
  if values.length ≠ spec.num_periods * 3 then .error (.valueError "cannot reshape array")
  else
    let probChildValues := reshape spec.num_periods 3 values
    let stop := sliceEnd spec.num_periods
      (min (spec.last_child_bearing_period + 1) spec.num_periods)
    .ok ((List.range spec.num_periods).map fun i =>
      if i < stop then (probChildValues.getD i []).map (0 + ·) else List.replicate 3 0)

/-- `frame.loc[(range(num_periods), slice(None)), :].values` (soepy/exogenous_processes/partner.py:17-19, 27-29).
Simplified: the rows are assumed to be stored in period order, as `.loc` would return them; a missing period label is a
`KeyError`. -/
def partnerRows (rows : List (Nat × K)) (numPeriods : Nat) : Except PyErr (List K) :=
  if (List.range numPeriods).any (fun t => !(rows.any fun r => r.1 == t)) then .error (.keyError "period")
  else .ok ((rows.filter fun r => decide (r.1 < numPeriods)).map Prod.snd)

/-- `values.reshape(num_periods, num_educ_levels)` (soepy/exogenous_processes/partner.py:32-34, 36-38). -/
def partnerReshape (values : List K) (numPeriods numEduc : Nat) : Except PyErr (List (List K)) :=
  if values.length ≠ numPeriods * numEduc then .error (.valueError "cannot reshape array")
  else .ok (reshape numPeriods numEduc values)

/-- soepy/exogenous_processes/partner.py:7-41 `gen_prob_partner`: entry `[t][e] old new`. -/
def genProbPartner (f : InputFiles K) (spec : ModelSpec K) :
    Except PyErr (List (List (Fin 2 → Fin 2 → K))) := do
  let sepValues ← partnerRows f.partner_separation spec.num_periods
  let arrValues ← partnerRows f.partner_arrival spec.num_periods
  let arr ← partnerReshape arrValues spec.num_periods spec.num_educ_levels
  let sep ← partnerReshape sepValues spec.num_periods spec.num_educ_levels
  .ok (List.zipWith (List.zipWith fun a s => ![![1 - a, a], ![s, 1 - s]]) arr sep)

/-- soepy/exogenous_processes/partner.py:44-50 `gen_prob_partner_present_vector`. -/
def genProbPartnerPresentVector (f : InputFiles K) : List K := f.partner_shares

end Soepy
