import Verif.Model.RandomInit

/-!
# soepy/test/resources/aux_funcs.py: realised utility of a simulated panel, and removing files
-/

namespace Soepy
variable {S K : Type} [Field K] [LinearOrder K]

/-- soepy/test/resources/aux_funcs.py:5-9 `create_chosen_flow_util`: a column overwritten where part-time and where
full-time is chosen.  Simplified: whether there are columns of utilities is seen from the rows, so that a frame without
rows never raises. -/
def createChosenFlowUtil (data : List (OutRow K)) : Except PyErr (List K) :=
  mapE (fun r : OutRow K => match r.detail with
    | none => .error (.keyError "Flow_Utility_N")
    | some d =>
      let out := d.flow 0
      let out := if r.choice = 1 then d.flow 1 else out
      let out := if r.choice = 2 then d.flow 2 else out
      .ok out) data

/-- `values.groupby(keys).sum()` (soepy/test/resources/aux_funcs.py:15): one sum for each key, sorted by the keys. -/
def groupSum (keys : List Int) (values : List K) : List K :=
  (keys.dedup.mergeSort (fun i j => decide (i ≤ j))).map fun i =>
    (((keys.zip values).filter fun kv => decide (kv.1 = i)).map Prod.snd).sum

/-- `values.mean()` (soepy/test/resources/aux_funcs.py:15); the mean of nothing is NaN. -/
def pdMean (values : List K) : Except PyErr K :=
  if values.isEmpty then .error .nanMarker else .ok (values.sum / values.length)

/-- soepy/test/resources/aux_funcs.py:12-17 `create_disc_sum_av_utility`.  The frame has the columns `Identifier` and
`Period` (the frame of `pyth_simulate`, or the frame of `simulate` after `reset_index`). -/
def createDiscSumAvUtility (data : List (OutRow K)) (delta : K) : Except PyErr K := do
  let flow ← createChosenFlowUtil data
  let disc := List.zipWith (fun u (r : OutRow K) => u * delta ^ r.period.toNat) flow data
  pdMean (groupSum (data.map OutRow.id) disc)

/-- `name.startswith(prefix)` (soepy/test/resources/aux_funcs.py:29, 35). -/
def startsWith (name pre : String) : Bool := decide (pre.toList <+: name.toList)

/-- `name in glob.glob("*.soepy.*")` (soepy/test/resources/aux_funcs.py:22) for a name that exists: files of the current
directory whose name contains `.soepy.`; a leading star does not match hidden files. -/
def globSoepy (name : String) : Bool := pyIn ".soepy." name && !startsWith name "." && !pyIn "/" name

/-- `os.remove(name)` for all names of a kind (soepy/test/resources/aux_funcs.py:25, 32, 38). -/
def Disk.remove (d : Disk K) (gone : String → Bool) : Disk K :=
  { frames := fun n => if gone n then none else d.frames n
    specs := fun n => if gone n then none else d.specs n
    shares := fun n => if gone n then none else d.shares n }

/-- soepy/test/resources/aux_funcs.py:20-38 `cleanup`.  Simplified: every name found can be removed (no directories). -/
def cleanup (options : Option String) : Py S K Unit := fun p =>
  let gone := match options with
    | none => globSoepy
    | some o =>
      if o = "regression" then fun f => globSoepy f && !startsWith f "regression"
      else if o = "init_file" then fun f => globSoepy f && !startsWith f "test.soepy"
      else fun _ => false
  (.ok (), { p with disk := p.disk.remove gone })

end Soepy
