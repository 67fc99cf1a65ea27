import Verif.Proof.Effects
import Verif.Props.SimExample

/-!
# Calls that raise, files and objects as arguments (C77, C78, C79)
-/

set_option linter.unusedSectionVars false

namespace Soepy.Props
open Soepy
open Soepy.Spec (Exists Readable Sound Act Acts Present dataOf)
variable {S K : Type} [Field K] [LinearOrder K] [IsStrictOrderedRing K] [FloorRing K] [Transc K]
  {rng : Rng S K} {hermite : Nat → List K × List K} {fa : FrameArg K} {sa : SpecArg} {biased sparse : Bool}
  {lost lost' : S} {p p' : Process S K}

/-! ## The example process -/

/-- The files of the example. -/
def exDisk (names : List String) : Disk ℚ :=
  { frames := fun n => if n = "params.pkl" then some exFrame else none
    specs := fun n => if n = "spec.yml" then some (simStore 4, 0) else none
    shares := fun n => if n ∈ names then some (exFiles.disk n) else none }

def exNames : List String := ["educ", "ages", "partner", "pt", "ft", "child", "sep", "arr"]

/-- A process with the example's specification at address 0, and its files. -/
def exProcess (names : List String) (g : Nat) : Process Nat ℚ :=
  { rng := g, store := simStore 4, disk := exDisk names }

theorem exProcess_sound (names : List String) (g : Nat) : Sound (exProcess names g) := by
  refine ⟨simStore_closed 4, ?_⟩
  intro name objs root h
  simp only [exProcess, exDisk] at h
  split at h
  · obtain ⟨rfl, rfl⟩ := Prod.mk.inj (Option.some.inj h)
    exact ⟨simStore_closed 4, by simp [simStore, exStore]⟩
  · cases h

theorem exProcess_obj (names : List String) (g : Nat) : Exists (exProcess names g) (.obj 0) := by
  show 0 < (simStore 4).length
  simp [simStore, exStore]

/-! ## C77 -/

/-- **C77**  `simulate`, whether it returns or raises, leaves every object that was in memory and every file as
it was. -/
theorem C77_simulate_keeps (hp : Sound p) (ha : Exists p sa) :
    p.store <+: (simulateP rng hermite fa sa biased sparse lost lost' p).2.store ∧
    (simulateP rng hermite fa sa biased sparse lost lost' p).2.disk = p.disk := by
  have h := simulateP_inv hp rng hermite fa ha biased sparse lost lost' p (Grown.refl hp)
  exact ⟨h.kept, h.disk⟩

/-- **C77**  So does `get_simulate_func`. -/
theorem C77_get_keeps (hp : Sound p) (ha : Exists p sa) :
    p.store <+: (getSimulateFuncP rng hermite fa sa biased lost p).2.store ∧
    (getSimulateFuncP rng hermite fa sa biased lost p).2.disk = p.disk := by
  have h := getSimulateFuncP_inv hp rng hermite fa ha biased lost p (Grown.refl hp)
  exact ⟨h.kept, h.disk⟩

/-- **C77**  So does the function that it returns. -/
theorem C77_call_keeps (hp : Sound p) (ha : Exists p sa) (c : Cached K) :
    p.store <+: (callSimulateFuncP rng c sparse fa sa lost p).2.store ∧
    (callSimulateFuncP rng c sparse fa sa lost p).2.disk = p.disk := by
  have h := callSimulateFuncP_inv hp rng c sparse fa ha lost p (Grown.refl hp)
  exact ⟨h.kept, h.disk⟩

/-- **C77**  After any session, in which calls may have raised, the user may have reseeded NumPy and changed
any other object, and files may have come and gone as long as they are back, `simulate` returns the same data
or raises the same exception as at the beginning. -/
theorem C77_after_any_session (hp : Sound p) (ha : Exists p sa) {fs fs' : List (Cached K)}
    (h : Acts rng hermite p.store.length (p, fs) (p', fs')) (hd : p'.disk = p.disk) (l l' : S) :
    (simulateP rng hermite fa sa biased sparse l l' p').1
      = (simulateP rng hermite fa sa biased sparse lost lost' p).1 := by
  obtain ⟨h1, h2⟩ := Acts.kept h hp List.prefix_rfl
  have ha' : sa.In p.store := by cases sa <;> exact ha
  exact (simulateP_cong hp.closed rng hermite fa ha' biased sparse l l' lost lost' p' p
    ⟨h1, List.prefix_rfl, h2, hp, by rw [hd], by rw [hd], fun _ => by rw [hd]⟩).1

/-- What the example's objects read as. -/
theorem exSpecData [Transc ℚ] (names : List String) (g : Nat) :
    specData (exProcess names g).disk (exProcess names g).store (specNumTypes exFrame) (.obj 0)
      = .ok simSpec := by
  show specData (exProcess names g).disk (simStore 4) (specNumTypes exFrame) (.obj 0) = _
  rw [specData_obj (simStore_closed 4) (by simp [simStore, exStore]), exFacts.types]
  obtain ⟨st', h⟩ := specOf_reads (st := simStore 4) (by decide +kernel)
  show (readModelSpec (simStore 4) 0 2).map Prod.snd = _
  rw [h]
  rfl

theorem exFrameData (d : Disk ℚ) : frameData d (.frame exFrame) = .ok (exFrame, exParams) := by
  show (readModelParams exFrame).map _ = _
  rw [exFacts.reads]
  rfl

/-- The tables of the example. -/
theorem exProcess_tables (g : Nat) :
    (fun n => ((exProcess exNames g).disk.shares n).getD []) = exFiles.disk := by
  funext n
  simp only [exProcess, exDisk]
  by_cases hn : n ∈ exNames
  · rw [if_pos hn]; rfl
  · rw [if_neg hn]
    simp only [exNames, List.mem_cons, List.not_mem_nil, or_false, not_or] at hn
    simp only [FileData.disk, hn, if_false]
    rfl

/-- The example with all its files. -/
theorem exProcess_present (g : Nat) : Present (exProcess exNames g).disk simSpec.files := by
  intro name hn
  rw [specOf_facts.files] at hn
  simp only [List.mem_cons, List.not_mem_nil, or_false] at hn
  simp only [exProcess, exDisk]
  rw [if_pos (by simp only [exNames, List.mem_cons, List.not_mem_nil, or_false]; tauto)]
  rfl

/-- A session in which a call raises because the parameter file is missing and another because a table is
missing. -/
example [Transc ℚ] (hermite : Nat → List ℚ × List ℚ) (g l l' : Nat) :
    Sound (exProcess [] g) ∧ Exists (exProcess [] g) (.obj 0) ∧
      (simulateP (altRng ℚ) hermite (.path "none.pkl") (.obj 0) false false l l' (exProcess [] g)).1
        = .error (.fileNotFound "none.pkl") ∧
      (simulateP (altRng ℚ) hermite (.frame exFrame) (.obj 0) false false l l' (exProcess [] g)).1
        = .error (.fileNotFound "educ") ∧
      ∃ p', Acts (altRng ℚ) hermite (exProcess [] g).store.length (exProcess [] g, []) (p', []) ∧
        p'.disk = (exProcess [] g).disk ∧
        p' = (simulateP (altRng ℚ) hermite (.frame exFrame) (.obj 0) false false l l'
          (simulateP (altRng ℚ) hermite (.path "none.pkl") (.obj 0) false false l l' (exProcess [] g)).2).2 := by
  have hs := exProcess_sound [] g
  have ha := exProcess_obj [] g
  have h1 := simulateP_inv hs (altRng ℚ) hermite (.path "none.pkl") ha false false l l' _ (Grown.refl hs)
  refine ⟨hs, ha, ?_, ?_, _, .more (.more (.none _) (.simulate _ ha false false l l'))
    (.simulate _ (Exists.grown ha h1.kept) false false l l'), ?_, rfl⟩
  · rw [simulateP_fst _ _ _ _ _ _ _ hs ha (fun _ => [])]
    rfl
  · rw [simulateP_fst _ _ _ _ _ _ _ hs ha (fun _ => []), exFrameData, ok_bind, exSpecData, ok_bind]
    unfold buildObjects
    rw [Py.bind_eq, specOf_facts.files]
    rfl
  · exact (C77_simulate_keeps (h1.sound hs) (Exists.grown ha h1.kept)).2.trans h1.disk

/-! ## C78 -/

/-- **C78**  With objects as arguments and all tables in place, `simulate` returns or raises what the
description without files and without effects says. -/
theorem C78_agrees {frame : Frame K} {a : Nat} (hp : Sound p) (ha : a < p.store.length)
    (hf : ∀ st' spec, readModelSpec p.store a (specNumTypes frame) = .ok (st', spec) →
      Present p.disk spec.files) :
    (simulateP rng hermite (.frame frame) (.obj a) biased sparse lost lost' p).1
      = dataOf (simulate ⟨rng, hermite, fun n => (p.disk.shares n).getD []⟩ frame a biased sparse
          ⟨p.rng, p.store⟩) := by
  rw [simulateP_fst rng hermite _ biased sparse lost lost' hp (sa := .obj a) ha (fun n => (p.disk.shares n).getD []),
    simulate_data (w := ⟨p.rng, p.store⟩) _ frame biased sparse hp.closed ha]
  rw [frameData_frame]
  cases readModelParams frame with
  | error e => rfl
  | ok par =>
    show (specData p.disk p.store (specNumTypes frame) (.obj a) >>= _) = (_ >>= _)
    rw [specData_obj hp.closed ha]
    cases hr : readModelSpec p.store a (specNumTypes frame) with
    | error e => rfl
    | ok x =>
      obtain ⟨st', spec⟩ := x
      show ((buildObjects rng hermite spec biased lost p).1 >>= _) = (_ >>= _)
      rw [buildObjects_fst _ _ _ _ _ _ (hf st' spec hr)]
      rfl

/-- **C78**  The same for `get_simulate_func`. -/
theorem C78_get_agrees {frame : Frame K} {a : Nat} (hp : Sound p) (ha : a < p.store.length)
    (hf : ∀ st' spec, readModelSpec p.store a (specNumTypes frame) = .ok (st', spec) →
      Present p.disk spec.files) :
    (getSimulateFuncP rng hermite (.frame frame) (.obj a) biased lost p).1
      = dataOf (getSimulateFunc ⟨rng, hermite, fun n => (p.disk.shares n).getD []⟩ frame a biased
          ⟨p.rng, p.store⟩) := by
  rw [getSimulateFuncP_fst rng hermite _ biased lost hp (sa := .obj a) ha]
  rw [frameData_frame]
  unfold getSimulateFunc
  cases readModelParams frame with
  | error e => rfl
  | ok par =>
    show (specData p.disk p.store (specNumTypes frame) (.obj a) >>= _) = _
    rw [specData_obj hp.closed ha]
    rw [ok_bind]
    cases hr : readModelSpec p.store a (specNumTypes frame) with
    | error e => rfl
    | ok x =>
      obtain ⟨st', spec⟩ := x
      show (buildObjects rng hermite spec biased lost p).1 = dataOf (_ >>= _)
      rw [buildObjects_fst _ _ _ _ _ _ (hf st' spec hr)]
      rw [ok_bind]
      dsimp only
      cases buildCached ⟨rng, hermite, fun n => (p.disk.shares n).getD []⟩ spec biased p.rng <;> rfl

/-- **C78**  The same for the function that it returns, whatever the tables. -/
theorem C78_call_agrees {frame : Frame K} {a : Nat} (hp : Sound p) (ha : a < p.store.length) (c : Cached K)
    (disk : String → List (Nat × K)) :
    (callSimulateFuncP rng c sparse (.frame frame) (.obj a) lost p).1
      = dataOf (callSimulateFunc ⟨rng, hermite, disk⟩ c sparse frame a ⟨p.rng, p.store⟩) := by
  rw [callSimulateFuncP_fst rng hermite c sparse _ lost hp (sa := .obj a) ha disk, callSimulateFunc_data]
  rw [frameData_frame]
  cases readModelParams frame with
  | error e => rfl
  | ok par =>
    show (specData p.disk p.store (specNumTypes frame) (.obj a) >>= _) = (_ >>= _)
    rw [specData_obj hp.closed ha]
    rfl

/-- **C78**  The name of a parameter file is as good as the frame in it. -/
theorem C78_frame_by_name {name : String} {frame : Frame K} (hp : Sound p) (ha : Exists p sa)
    (h : p.disk.frames name = some frame) :
    (simulateP rng hermite (.path name) sa biased sparse lost lost' p).1
      = (simulateP rng hermite (.frame frame) sa biased sparse lost lost' p).1 := by
  rw [simulateP_fst rng hermite _ biased sparse lost lost' hp ha (fun _ => []),
    simulateP_fst rng hermite _ biased sparse lost lost' hp ha (fun _ => [])]
  have : frameData p.disk (.path name) = frameData p.disk (.frame frame) := by
    unfold frameData; simp only [h]
  rw [this]

/-- **C78**  The name of a specification file is as good as the dictionary that the user gets by loading the
file themselves. -/
theorem C78_spec_by_name {name : String} {a : Nat} (hp : Sound p)
    (h : loadSpec (.path name) p = (.ok a, p')) :
    (simulateP rng hermite fa (.path name) biased sparse lost lost' p).1
      = (simulateP rng hermite fa (.obj a) biased sparse lost lost' p').1 := by
  unfold loadSpec at h
  dsimp only at h
  cases hd : p.disk.specs name with
  | none => rw [hd] at h; cases h
  | some x =>
    obtain ⟨objs, root⟩ := x
    rw [hd] at h
    obtain ⟨h1, h2⟩ := Prod.mk.inj h
    obtain rfl := Except.ok.inj h1
    obtain ⟨ho, hr⟩ := hp.files name objs root hd
    have hap := placed_apart hp.closed ho hr
    have hp' : Sound p' := by rw [← h2]; exact ⟨hap.closed, hp.files⟩
    have ha' : Exists p' (.obj (root + p.store.length)) := by rw [← h2]; exact hap.hi
    have hdd : p'.disk = p.disk := by rw [← h2]
    have hst : p'.store = placed p.store objs := by rw [← h2]; rfl
    rw [simulateP_fst rng hermite _ biased sparse lost lost' hp (sa := .path name) trivial (fun _ => []),
      simulateP_fst rng hermite _ biased sparse lost lost' hp' ha' (fun _ => []), hdd]
    refine bind_congr' _ fun fp => ?_
    have hs : specData p.disk p'.store (specNumTypes fp.1) (.obj (root + p.store.length))
        = specData p.disk p.store (specNumTypes fp.1) (.path name) := by
      unfold specData
      simp only [hd]
      rw [hst]
      exact readCopied_placed _ ho hr _
    rw [hs]
    refine bind_congr' _ fun spec => ?_
    rw [buildObjects_disk rng hermite spec biased lost lost hp' hp hdd]
    refine bind_congr' _ fun c => ?_
    rw [runCached_free _ _ _ _ _ p.rng p'.rng]

/-- **C78**  Without the parameter file every entry point raises `FileNotFoundError` at once and changes
nothing. -/
theorem C78_frame_missing {name : String} (h : p.disk.frames name = none) (c : Cached K) :
    simulateP rng hermite (.path name) sa biased sparse lost lost' p = (.error (.fileNotFound name), p) ∧
    getSimulateFuncP rng hermite (.path name) sa biased lost p = (.error (.fileNotFound name), p) ∧
    callSimulateFuncP rng c sparse (.path name) sa lost p = (.error (.fileNotFound name), p) := by
  have hr : readModelParamsInit (.path name) p = (.error (.fileNotFound name), p) := by
    rw [readModelParamsInit_run]; unfold frameData; simp only [h]
  have hg : getSimulateFuncP rng hermite (.path name) sa biased lost p = (.error (.fileNotFound name), p) := by
    unfold getSimulateFuncP; rw [Py.bind_eq, hr]
  refine ⟨?_, hg, ?_⟩
  · unfold simulateP; rw [Py.bind_eq, hg]
  · unfold callSimulateFuncP; rw [Py.bind_eq, hr]

/-- **C78**  Neither a string nor a data frame: `NotImplementedError` at once, and nothing has changed. -/
theorem C78_frame_other (c : Cached K) :
    simulateP rng hermite .other sa biased sparse lost lost' p = (.error .notImplemented, p) ∧
    getSimulateFuncP rng hermite .other sa biased lost p = (.error .notImplemented, p) ∧
    callSimulateFuncP rng c sparse .other sa lost p = (.error .notImplemented, p) := by
  have hr : readModelParamsInit .other p = (.error .notImplemented, p) := by
    rw [readModelParamsInit_run]; rfl
  have hg : getSimulateFuncP rng hermite .other sa biased lost p = (.error .notImplemented, p) := by
    unfold getSimulateFuncP; rw [Py.bind_eq, hr]
  refine ⟨?_, hg, ?_⟩
  · unfold simulateP; rw [Py.bind_eq, hg]
  · unfold callSimulateFuncP; rw [Py.bind_eq, hr]

/-- **C78**  With readable parameters and without the specification file every entry point raises
`FileNotFoundError` and changes nothing. -/
theorem C78_spec_missing {name : String} {x : Frame K × ModelParams K}
    (hx : (readModelParamsInit fa p).1 = .ok x) (h : p.disk.specs name = none) (c : Cached K) :
    simulateP rng hermite fa (.path name) biased sparse lost lost' p = (.error (.fileNotFound name), p) ∧
    getSimulateFuncP rng hermite fa (.path name) biased lost p = (.error (.fileNotFound name), p) ∧
    callSimulateFuncP rng c sparse fa (.path name) lost p = (.error (.fileNotFound name), p) := by
  have hr : readModelParamsInit fa p = (.ok x, p) := by
    rw [readModelParamsInit_run] at hx ⊢
    exact congrArg (·, p) hx
  have hs : ∀ n, (readModelSpecInit (.path name) n : Py S K _) p = (.error (.fileNotFound name), p) := by
    intro n
    rw [readModelSpecInit_eq, Py.bind_eq]
    unfold loadSpec
    simp only [h]
  have hg : getSimulateFuncP rng hermite fa (.path name) biased lost p = (.error (.fileNotFound name), p) := by
    unfold getSimulateFuncP
    rw [Py.bind_eq, hr]
    dsimp only
    rw [Py.bind_eq, hs]
  refine ⟨?_, hg, ?_⟩
  · unfold simulateP; rw [Py.bind_eq, hg]
  · unfold callSimulateFuncP
    rw [Py.bind_eq, hr]
    dsimp only
    rw [Py.bind_eq, hs]

/-- **C78**  `simulate` returns only if all eight tables named by the specification are there. -/
theorem C78_tables_needed {rows : List (OutRow K)} (hp : Sound p) (ha : Exists p sa)
    (h : (simulateP rng hermite fa sa biased sparse lost lost' p).1 = .ok rows) :
    ∃ frame par spec, (readModelParamsInit fa p).1 = .ok (frame, par) ∧
      (readModelSpecInit sa (specNumTypes frame) p).1 = .ok spec ∧ Present p.disk spec.files := by
  rw [simulateP_fst rng hermite _ biased sparse lost lost' hp ha (fun _ => [])] at h
  obtain ⟨⟨frame, par⟩, h1, h⟩ := bind_ok.1 h
  obtain ⟨spec, h2, h⟩ := bind_ok.1 h
  obtain ⟨c, h3, h⟩ := bind_ok.1 h
  refine ⟨frame, par, spec, by rw [readModelParamsInit_run]; exact h1, ?_, buildObjects_present h3⟩
  rw [(readModelSpecInit_run hp ha _).1]
  exact h2

/-- The example runs with file names, and with objects. -/
example [Transc ℚ] (hermite : Nat → List ℚ × List ℚ) (g l l' : Nat) :
    Sound (exProcess exNames g) ∧ Exists (exProcess exNames g) (.obj 0) ∧
    (∃ rows, (simulateP (altRng ℚ) hermite (.frame exFrame) (.obj 0) false false l l'
      (exProcess exNames g)).1 = .ok rows ∧
      (simulateP (altRng ℚ) hermite (.path "params.pkl") (.obj 0) false false l l'
        (exProcess exNames g)).1 = .ok rows) ∧
    (∃ a p', loadSpec (.path "spec.yml") (exProcess exNames g) = (.ok a, p')) ∧
    (exProcess exNames g).disk.frames "none.pkl" = none ∧
    (exProcess exNames g).disk.specs "none.yml" = none ∧
    (readModelParamsInit (.frame exFrame) (exProcess exNames g)).1 = .ok (exFrame, exParams) := by
  have hs := exProcess_sound exNames g
  have ha := exProcess_obj exNames g
  obtain ⟨st', hread⟩ := specOf_reads (st := simStore 4) (by decide +kernel)
  have hrun := C78_agrees (rng := altRng ℚ) (hermite := hermite) (biased := false) (sparse := false)
    (lost := l) (lost' := l') (frame := exFrame) hs ha (by
      intro st2 spec h
      rw [exFacts.types] at h
      rw [show (exProcess exNames g).store = simStore 4 from rfl, hread] at h
      obtain ⟨-, rfl⟩ := Prod.mk.inj (Except.ok.inj h)
      exact exProcess_present g)
  obtain ⟨rows, ho⟩ := exOutput exFiles_ok hermite false false g
  obtain ⟨w', hw⟩ := ho.run
  have hrows : (simulateP (altRng ℚ) hermite (.frame exFrame) (.obj 0) false false l l'
      (exProcess exNames g)).1 = .ok rows := by
    rw [hrun, exProcess_tables]
    show dataOf (simulate (simEnv exFiles hermite) exFrame 0 false false (simWorld 4 g)) = _
    rw [hw]
    rfl
  refine ⟨hs, ha, ⟨rows, hrows, ?_⟩, ⟨_, _, rfl⟩, rfl, rfl, ?_⟩
  · rw [C78_frame_by_name hs ha (frame := exFrame) rfl, hrows]
  · rw [readModelParamsInit_run]; exact exFrameData (exProcess exNames g).disk

/-! ## C79 -/

/-- **C79**  The function returned by `get_simulate_func` needs the tables no more: after any session, in which
calls may have raised and every table may have been changed or deleted, it gives the data that `simulate` gave
when it was built, for every parameter frame with the same number of types. -/
theorem C79_tables_not_needed {fa' : FrameArg K} {c : Cached K} {p1 p2 : Process S K}
    {fs fs' : List (Cached K)} (hp : Sound p) (ha : Exists p sa)
    (hg : getSimulateFuncP rng hermite fa sa biased lost p = (.ok c, p1))
    (h : Acts rng hermite p.store.length (p1, fs) (p2, fs'))
    (hf : p2.disk.frames = p.disk.frames) (hs : p2.disk.specs = p.disk.specs)
    (hn : ∀ x x', (readModelParamsInit fa p).1 = .ok x → (readModelParamsInit fa' p).1 = .ok x' →
      specNumTypes x'.1 = specNumTypes x.1) (l l' l'' : S) :
    (callSimulateFuncP rng c sparse fa' sa l p2).1
      = (simulateP rng hermite fa' sa biased sparse l' l'' p).1 := by
  have hgr := getSimulateFuncP_inv hp rng hermite fa ha biased lost p (Grown.refl hp)
  have hfst := getSimulateFuncP_fst rng hermite fa biased lost hp ha
  rw [hg] at hgr hfst
  dsimp only at hgr hfst
  obtain ⟨k1, k2⟩ := Acts.kept h (hgr.sound hp) hgr.kept
  have ha2 := Exists.grown (q := p2) ha k1
  rw [callSimulateFuncP_fst rng hermite c sparse fa' l k2 ha2 (fun _ => []),
    simulateP_fst rng hermite fa' biased sparse l' l'' hp ha (fun _ => [])]
  have e1 : frameData p2.disk fa' = frameData p.disk fa' := by
    cases fa' with
    | path name => unfold frameData; rw [hf]
    | frame f => rfl
    | other => rfl
  have e2 : ∀ n, specData p2.disk p2.store n sa = specData p.disk p.store n sa := by
    intro n
    cases sa with
    | path name => unfold specData; rw [hs]
    | obj a =>
      rw [specData_ext hp.closed k2.closed k1 ha]
      rfl
  rw [e1]
  obtain ⟨fp, h1, hfst⟩ := bind_ok.1 hfst.symm
  obtain ⟨spec, h2, hfst⟩ := bind_ok.1 hfst
  cases h3 : frameData p.disk fa' with
  | error e => rfl
  | ok fp' =>
    rw [ok_bind, ok_bind, e2, hn fp fp' (by rw [readModelParamsInit_run]; exact h1)
      (by rw [readModelParamsInit_run]; exact h3), h2, ok_bind, ok_bind,
      buildObjects_disk rng hermite spec biased l' lost hp hp rfl, hfst, ok_bind]
    rw [runCached_free _ _ _ _ _ p2.rng p.rng]

/-- In the example the function can be built, and then all tables can be deleted. -/
example [Transc ℚ] (hermite : Nat → List ℚ × List ℚ) (g l : Nat) :
    ∃ c p1 p2, getSimulateFuncP (altRng ℚ) hermite (.frame exFrame) (.obj 0) false l (exProcess exNames g)
        = (.ok c, p1) ∧
      Acts (altRng ℚ) hermite (exProcess exNames g).store.length (p1, [c]) (p2, [c]) ∧
      p2.disk.frames = (exProcess exNames g).disk.frames ∧ p2.disk.specs = (exProcess exNames g).disk.specs ∧
      ∀ n, p2.disk.shares n = none := by
  have hs := exProcess_sound exNames g
  have ha := exProcess_obj exNames g
  obtain ⟨rows, ho⟩ := exOutput exFiles_ok hermite false false g
  obtain ⟨st', hread⟩ := specOf_reads (st := simStore 4) (by decide +kernel)
  have hget := C78_get_agrees (rng := altRng ℚ) (hermite := hermite) (biased := false)
    (lost := l) (frame := exFrame) hs ha (by
      intro st2 spec h
      rw [exFacts.types] at h
      rw [show (exProcess exNames g).store = simStore 4 from rfl, hread] at h
      obtain ⟨-, rfl⟩ := Prod.mk.inj (Except.ok.inj h)
      exact exProcess_present g)
  rw [exProcess_tables] at hget
  obtain ⟨w', hw⟩ := ho.run
  unfold simulate at hw
  obtain ⟨⟨c, w1⟩, hc, -⟩ := bind_ok.1 hw
  have hget' : (getSimulateFuncP (altRng ℚ) hermite (.frame exFrame) (.obj 0) false l
      (exProcess exNames g)).1 = .ok c := by
    rw [hget]
    show dataOf (getSimulateFunc (simEnv exFiles hermite) exFrame 0 false (simWorld 4 g)) = _
    rw [hc]
    rfl
  generalize hq : getSimulateFuncP (altRng ℚ) hermite (.frame exFrame) (.obj 0) false l
      (exProcess exNames g) = q at hget'
  obtain ⟨r, p1⟩ := q
  dsimp only at hget'
  subst hget'
  exact ⟨c, p1, _, rfl, .more (.none _)
    (.changeFiles { (exProcess exNames g).disk with shares := fun _ => none } hs.files), rfl, rfl, fun _ => rfl⟩

end Soepy.Props
