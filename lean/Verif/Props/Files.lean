import Verif.Model.AuxFuncs
import Verif.Spec.Files
import Verif.Props.RandomInit

/-! # Files that matter, and removing files (C93) -/

set_option linter.unusedSectionVars false

namespace Soepy.Props
open Soepy
open Soepy.Spec (Sound dataOf)
variable {S K : Type} [Field K] [LinearOrder K] [IsStrictOrderedRing K] [FloorRing K] [Transc K]
  {rng : Rng S K} {hermite : Nat → List K × List K} {biased sparse : Bool} {lost lost' : S} {p q : Process S K}

/-- Two programs on two processes with the same result. -/
theorem bind_same {α β : Type} {x y : Py S K α} {f : α → Py S K β} (h : (x p).1 = (y q).1)
    (hp : (x p).2 = p) (hq : (y q).2 = q) (hf : ∀ a, (f a p).1 = (f a q).1) : ((x >>= f) p).1 = ((y >>= f) q).1 := by
  rw [Py.bind_eq, Py.bind_eq]
  rcases hx : x p with ⟨r, p'⟩
  rcases hy : y q with ⟨r', q'⟩
  rw [hx] at h hp
  rw [hy] at h hq
  obtain rfl : p' = p := hp
  obtain rfl : q' = q := hq
  obtain rfl : r = r' := h
  cases r with
  | error e => rfl
  | ok a => exact hf a

theorem calc_same {α β : Type} (x : Except PyErr α) {f : α → Py S K β} (hf : ∀ a, (f a p).1 = (f a q).1) :
    ((Py.calc x >>= f) p).1 = ((Py.calc x >>= f) q).1 := bind_same rfl rfl rfl hf

theorem read_same {β : Type} {name : String} (h : p.disk.shares name = q.disk.shares name)
    {f : List (Nat × K) → Py S K β} (hf : ∀ a, (f a p).1 = (f a q).1) :
    ((readShares name >>= f) p).1 = ((readShares name >>= f) q).1 := by
  have h2 : ∀ p : Process S K, (readShares name p).2 = p := by
    intro p
    unfold readShares
    cases p.disk.shares name <;> rfl
  refine bind_same ?_ (h2 p) (h2 q) hf
  unfold readShares
  rw [h]
  cases q.disk.shares name <;> rfl

theorem draw_same {α β : Type} (F : S → Except PyErr (α × S)) (hr : p.rng = q.rng) {f : α → β} :
    ((Py.draw lost F >>= fun a => (pure (f a) : Py S K β)) p).1
      = ((Py.draw lost F >>= fun a => (pure (f a) : Py S K β)) q).1 := by
  rw [Py.bind_eq, Py.bind_eq]
  unfold Py.draw
  rw [hr]
  cases F q.rng <;> rfl

theorem buildObjects_same {spec : ModelSpec K} (hr : p.rng = q.rng) (ht : Spec.SameTables p.disk q.disk spec.files) :
    (buildObjects rng hermite spec biased lost p).1 = (buildObjects rng hermite spec biased lost q).1 := by
  unfold buildObjects
  refine read_same (ht _ (by simp)) fun _ => ?_
  refine read_same (ht _ (by simp)) fun _ => ?_
  refine calc_same _ fun _ => ?_
  refine read_same (ht _ (by simp)) fun _ => ?_
  refine read_same (ht _ (by simp)) fun _ => ?_
  refine calc_same _ fun _ => ?_
  refine read_same (ht _ (by simp)) fun _ => ?_
  refine calc_same _ fun _ => ?_
  refine read_same (ht _ (by simp)) fun _ => ?_
  refine calc_same _ fun _ => ?_
  refine read_same (ht _ (by simp)) fun _ => ?_
  refine calc_same _ fun _ => ?_
  refine read_same (ht _ (by simp)) fun _ => ?_
  refine calc_same _ fun _ => ?_
  refine calc_same _ fun _ => ?_
  exact draw_same _ hr

/-- **C93**  `simulate` reads the two files it is given and the eight tables that the specification names, and no other
file: if these are the same, or missing in both cases, the call returns the same data or raises the same exception. -/
theorem C93_only_named_files {fa : FrameArg K} {sa : SpecArg} (hp : Sound p) (hq : Sound q) (ha : Spec.Exists p sa)
    (hrng : p.rng = q.rng) (hst : p.store = q.store) (hf : Spec.SameFrame p.disk q.disk fa)
    (hs : Spec.SameSpec p.disk q.disk sa)
    (ht : ∀ frame par spec, (readModelParamsInit fa p).1 = .ok (frame, par) →
      (readModelSpecInit sa (specNumTypes frame) p).1 = .ok spec → Spec.SameTables p.disk q.disk spec.files) :
    (simulateP rng hermite fa sa biased sparse lost lost' p).1
      = (simulateP rng hermite fa sa biased sparse lost lost' q).1 := by
  have hb : Spec.Exists q sa := by
    cases sa with
    | path name => trivial
    | obj a => show a < q.store.length; rw [← hst]; exact ha
  rw [simulateP_fst rng hermite fa biased sparse lost lost' hp ha (fun _ => []),
    simulateP_fst rng hermite fa biased sparse lost lost' hq hb (fun _ => [])]
  have h1 : frameData p.disk fa = frameData q.disk fa := by
    cases fa with
    | path name => unfold frameData; dsimp only; rw [show p.disk.frames name = q.disk.frames name from hf]
    | frame f => rfl
    | other => rfl
  have h2 : ∀ nt, specData p.disk p.store nt sa = specData q.disk q.store nt sa := by
    intro nt
    cases sa with
    | path name => unfold specData; dsimp only; rw [show p.disk.specs name = q.disk.specs name from hs]
    | obj a => unfold specData; rw [hst]
  rw [h1]
  cases hd : frameData q.disk fa with
  | error e => rfl
  | ok fp =>
    rw [ok_bind, ok_bind, h2]
    cases hd2 : specData q.disk q.store (specNumTypes fp.1) sa with
    | error e => rfl
    | ok spec =>
      rw [ok_bind, ok_bind, hrng, buildObjects_same hrng]
      refine ht fp.1 fp.2 spec ?_ ?_
      · rw [readModelParamsInit_run, h1, hd]
      · rw [(readModelSpecInit_run hp ha _).1, h2, hd2]

theorem pyIn_iff {a b : String} : pyIn a b = true ↔ a.toList <:+: b.toList := by
  unfold pyIn
  exact ⟨fun h => @of_decide_eq_true _ (_) h, fun h => @decide_eq_true _ (_) h⟩

theorem startsWith_iff {name pre : String} : startsWith name pre = true ↔ ∃ y, name.toList = pre.toList ++ y := by
  unfold startsWith
  rw [decide_eq_true_iff]
  exact ⟨fun ⟨y, h⟩ => ⟨y, h.symm⟩, fun ⟨y, h⟩ => ⟨y, h.symm⟩⟩

theorem globSoepy_iff {name : String} : globSoepy name = true ↔ Spec.PackageFile name := by
  have hslash : pyIn "/" name = true ↔ '/' ∈ name.toList := by
    rw [pyIn_iff]
    show ['/'] <:+: name.toList ↔ _
    constructor
    · exact fun h => h.subset (by simp)
    · intro h
      obtain ⟨s, t, e⟩ := List.append_of_mem h
      exact ⟨s, t, by rw [e]; simp⟩
  have hdot : startsWith name "." = true ↔ ∃ y, name.toList = '.' :: y := startsWith_iff
  unfold globSoepy Spec.PackageFile
  rw [Bool.and_eq_true, Bool.and_eq_true, Bool.not_eq_true', Bool.not_eq_true', ← Bool.not_eq_true, ← Bool.not_eq_true,
    hslash, hdot, pyIn_iff]
  constructor
  · rintro ⟨⟨⟨s, t, h1⟩, h2⟩, h3⟩
    refine ⟨h3, ?_⟩
    cases s with
    | nil => exact absurd ⟨_, h1.symm⟩ h2
    | cons c x => exact ⟨c, x, t, fun hc => h2 ⟨_, by rw [← h1, hc]; rfl⟩, h1.symm⟩
  · rintro ⟨h3, c, x, y, hc, h1⟩
    refine ⟨⟨⟨c :: x, y, h1.symm⟩, ?_⟩, h3⟩
    rintro ⟨z, h4⟩
    rw [h1] at h4
    exact hc (List.cons.inj h4).1

/-- **C93**  `cleanup()` removes the files `x.soepy.y` of the current directory and no other file. -/
theorem C93_cleanup (p : Process S K) :
    ∃ p', (cleanup none : Py S K Unit) p = (.ok (), p') ∧ p'.rng = p.rng ∧ p'.store = p.store ∧
      (∀ n, Spec.PackageFile n → p'.disk.frames n = none ∧ p'.disk.specs n = none ∧ p'.disk.shares n = none) ∧
      ∀ n, ¬ Spec.PackageFile n → p'.disk.frames n = p.disk.frames n ∧ p'.disk.specs n = p.disk.specs n ∧
        p'.disk.shares n = p.disk.shares n := by
  refine ⟨_, rfl, rfl, rfl, fun n hn => ?_, fun n hn => ?_⟩
  · have h := globSoepy_iff.2 hn
    exact ⟨if_pos h, if_pos h, if_pos h⟩
  · have h : ¬ globSoepy n = true := fun h => hn (globSoepy_iff.1 h)
    exact ⟨if_neg h, if_neg h, if_neg h⟩


/-- **C93**  The two other documented options keep the files of the regression tests and the generated inputs. -/
theorem C93_cleanup_options (p : Process S K) {o kept : String}
    (ho : o = "regression" ∧ kept = "regression" ∨ o = "init_file" ∧ kept = "test.soepy") :
    ∃ p', (cleanup (some o) : Py S K Unit) p = (.ok (), p') ∧ p'.rng = p.rng ∧ p'.store = p.store ∧
      (∀ n, Spec.PackageFile n → ¬ kept.toList <+: n.toList →
        p'.disk.frames n = none ∧ p'.disk.specs n = none ∧ p'.disk.shares n = none) ∧
      ∀ n, ¬ Spec.PackageFile n ∨ kept.toList <+: n.toList →
        p'.disk.frames n = p.disk.frames n ∧ p'.disk.specs n = p.disk.specs n ∧
        p'.disk.shares n = p.disk.shares n := by
  have key : (cleanup (some o) : Py S K Unit) p
      = (.ok (), { p with disk := p.disk.remove fun f => globSoepy f && !startsWith f kept }) := by
    rcases ho with ⟨rfl, rfl⟩ | ⟨rfl, rfl⟩ <;> rfl
  refine ⟨_, key, rfl, rfl, fun n hn hk => ?_, fun n hn => ?_⟩
  · have h : (globSoepy n && !startsWith n kept) = true := by
      unfold startsWith
      rw [globSoepy_iff.2 hn, decide_eq_false hk]
      rfl
    exact ⟨if_pos h, if_pos h, if_pos h⟩
  · have h : ¬ (globSoepy n && !startsWith n kept) = true := by
      unfold startsWith
      rw [Bool.and_eq_true, not_and_or]
      rcases hn with hn | hn
      · exact Or.inl fun h => hn (globSoepy_iff.1 h)
      · exact Or.inr (by rw [decide_eq_true hn]; decide)
    exact ⟨if_neg h, if_neg h, if_neg h⟩

/-- **C93**  Any other option removes nothing. -/
theorem C93_cleanup_unknown (p : Process S K) {o : String} (h1 : o ≠ "regression") (h2 : o ≠ "init_file") :
    (cleanup (some o) : Py S K Unit) p = (.ok (), p) := by
  unfold cleanup Disk.remove
  simp only [if_neg h1, if_neg h2, Bool.false_eq_true, if_false]

/-- **C93**  After `cleanup()` the generated inputs are gone. -/
theorem C93_after_cleanup (p : Process S K) :
    (simulateP rng hermite (.path "test.soepy.pkl") (.path "test.soepy.yml") biased sparse lost lost'
      ((cleanup none : Py S K Unit) p).2).1 = .error (.fileNotFound "test.soepy.pkl") := by
  obtain ⟨p', hp', -, -, hgone, -⟩ := C93_cleanup p
  rw [hp']
  have hn := (hgone "test.soepy.pkl" (globSoepy_iff.1 (by decide +kernel))).1
  unfold simulateP getSimulateFuncP
  rw [Py.bind_eq, Py.bind_eq, readModelParamsInit_run]
  have : frameData p'.disk (.path "test.soepy.pkl") = .error (.fileNotFound "test.soepy.pkl") := by
    unfold frameData
    dsimp only
    rw [hn]
  rw [this]

/-- **C93**  `cleanup("init_file")` after `random_init` keeps the inputs: `simulate` returns the same data. -/
theorem C93_inputs_survive {r : InitRng S K} {c : Constr} {z : Sizes} {p' : Process S K} (laws : InitLaws r)
    (rl : RngLaws rng) (hc : Spec.Sensible c) (hp : Sound p) (h : randomInit r c p = (.ok z, p')) :
    ∃ rows, (simulateP rng hermite (.path "test.soepy.pkl") (.path "test.soepy.yml") biased sparse lost lost' p').1
        = .ok rows ∧
      (simulateP rng hermite (.path "test.soepy.pkl") (.path "test.soepy.yml") biased sparse lost lost'
        ((cleanup (some "init_file") : Py S K Unit) p').2).1 = .ok rows := by
  obtain ⟨rows, hrows⟩ := C91_simulates (hermite := hermite) (biased := biased) (sparse := sparse) (lost := lost)
    (lost' := lost') laws rl hc hp h
  refine ⟨rows, hrows, ?_⟩
  rw [← hrows]
  obtain ⟨hz, frame, par, F⟩ := fixture_facts laws hc h
  obtain ⟨b1, b2, b3, b4, b5, b6⟩ := chosen_bounds hc hz
  have hcl := specObjects_closed (K := K) z
  have hsound : Sound p' := by
    refine ⟨by rw [F.store]; exact hp.closed, ?_⟩
    intro n objs root hn
    rw [F.spec] at hn
    dsimp only at hn
    split_ifs at hn with hname
    · obtain ⟨rfl, rfl⟩ := Prod.mk.inj (Option.some.inj hn)
      exact ⟨hcl, Nat.succ_pos _⟩
    · exact hp.files n objs root hn
  obtain ⟨q, hq, q1, q2, hgone, hkept⟩ := C93_cleanup_options p' (o := "init_file") (kept := "test.soepy")
    (Or.inr ⟨rfl, rfl⟩)
  rw [hq]
  have hkeep : ∀ n, "test.soepy".toList <+: n.toList → q.disk.frames n = p'.disk.frames n ∧
      q.disk.specs n = p'.disk.specs n ∧ q.disk.shares n = p'.disk.shares n := fun n hn => hkept n (Or.inr hn)
  have hqs : Sound q := by
    refine ⟨by rw [q2]; exact hsound.closed, ?_⟩
    intro n objs root hn
    by_cases hc : ¬ Spec.PackageFile n ∨ "test.soepy".toList <+: n.toList
    · rw [(hkept n hc).2.1] at hn
      exact hsound.files n objs root hn
    · rw [not_or, not_not] at hc
      rw [(hgone n hc.1 hc.2).2.1] at hn
      cases hn
  symm
  refine C93_only_named_files hsound hqs trivial q1.symm q2.symm (hkeep _ (by decide +kernel)).1.symm
    (hkeep _ (by decide +kernel)).2.1.symm ?_
  intro frame' par' spec' h1 h2
  have h2 := (readModelSpecInit_run (sa := .path "test.soepy.yml") hsound trivial
    (specNumTypes frame')).1.symm.trans h2
  obtain ⟨st', spec, hr, H⟩ := specObjects_read (K := K) (z := z) ⟨by omega, b2, by omega, b6⟩ (specNumTypes frame')
  have h3 : specData p'.disk p'.store (specNumTypes frame') (.path "test.soepy.yml")
      = (readModelSpec (specObjects z) 0 (specNumTypes frame')).map Prod.snd := by
    rw [← specData_obj (d := p'.disk) hcl (Nat.succ_pos _)]
    unfold specData
    rw [F.spec]
    rfl
  rw [h3, hr] at h2
  obtain rfl := Except.ok.inj h2
  intro n hn
  simp only [H.educ_shares, H.child_age_shares, H.partner_shares, H.pt, H.ft, H.child, H.separation, H.arrival,
    List.mem_cons, List.not_mem_nil, or_false] at hn
  refine (hkeep n ?_).2.2.symm
  rcases hn with rfl | rfl | rfl | rfl | rfl | rfl | rfl | rfl <;> decide +kernel

/-- The example's process where every name is a file with parameters. -/
def crowded (g : Nat) : Process Nat ℚ :=
  { exProcess [] g with disk := { exDisk [] with frames := fun _ => some exFrame } }

/-- The hypotheses hold for the constraints of the unit test: after `cleanup("init_file")` the generated inputs give the
same data, although another package file is gone; after `cleanup()` they are gone as well. -/
example [Transc ℚ] (hermite : Nat → List ℚ × List ℚ) (g l l' : Nat) :
    ∃ z p' rows, randomInit lowRng unitConstr (crowded g) = (.ok z, p') ∧
      (simulateP (altRng ℚ) hermite (.path "test.soepy.pkl") (.path "test.soepy.yml") false false l l' p').1
        = .ok rows ∧
      (simulateP (altRng ℚ) hermite (.path "test.soepy.pkl") (.path "test.soepy.yml") false false l l'
        ((cleanup (some "init_file") : Py Nat ℚ Unit) p').2).1 = .ok rows ∧
      p'.disk.frames "data.soepy.pkl" = some exFrame ∧
      ((cleanup (some "init_file") : Py Nat ℚ Unit) p').2.disk.frames "data.soepy.pkl" = none ∧
      ((cleanup (some "init_file") : Py Nat ℚ Unit) p').2.disk.frames "data.pkl" = some exFrame ∧
      (simulateP (altRng ℚ) hermite (.path "test.soepy.pkl") (.path "test.soepy.yml") false false l l'
        ((cleanup none : Py Nat ℚ Unit) p').2).1 = .error (.fileNotFound "test.soepy.pkl") := by
  have hs : Sound (crowded g) := ⟨(exProcess_sound [] g).closed, (exProcess_sound [] g).files⟩
  obtain ⟨z, p', h, -, -⟩ := C91_returns lowRng_laws unitConstr_sensible (crowded g)
  obtain ⟨rows, h1, h2⟩ := C93_inputs_survive (hermite := hermite) (biased := false) (sparse := false) (lost := l)
    (lost' := l') lowRng_laws (altRng_laws (K := ℚ)) unitConstr_sensible hs h
  obtain ⟨-, frame, par, F⟩ := fixture_facts lowRng_laws unitConstr_sensible h
  obtain ⟨q, hq, -, -, hgone, hkept⟩ := C93_cleanup_options p' (o := "init_file") (kept := "test.soepy")
    (Or.inr ⟨rfl, rfl⟩)
  have hf : ∀ n, n ≠ "test.soepy.pkl" → p'.disk.frames n = some exFrame := fun n hn => by
    rw [F.params]
    exact if_neg hn
  refine ⟨z, p', rows, h, h1, h2, hf _ (by decide), ?_, ?_, C93_after_cleanup p'⟩
  · rw [hq]
    exact (hgone _ (globSoepy_iff.1 (by decide +kernel)) (by decide +kernel)).1
  · rw [hq]
    exact ((hkept _ (Or.inl fun h => absurd (globSoepy_iff.2 h) (by decide +kernel))).1).trans (hf _ (by decide))

end Soepy.Props
