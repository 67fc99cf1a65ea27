import Verif.Spec.Tables
import Verif.Props.Effects

/-! # The first fault of the tables is reported (C94) -/

set_option linter.unusedSectionVars false

namespace Soepy.Props
open Soepy
open Soepy.Spec (Sound Exists FirstFault There Holds EveryLevel Fills)
variable {S K : Type} [Field K] [LinearOrder K] [IsStrictOrderedRing K] [FloorRing K] [Transc K]
  {rng : Rng S K} {hermite : Nat → List K × List K} {biased sparse : Bool} {lost lost' : S} {p : Process S K}

theorem mapE_error {α β : Type} {f : α → Except PyErr β} {e : PyErr} {xs : List α}
    (h : ∀ x ∈ xs, (∃ y, f x = .ok y) ∨ f x = .error e) (hx : ∃ x ∈ xs, f x = .error e) : mapE f xs = .error e := by
  induction xs with
  | nil => obtain ⟨x, hx, -⟩ := hx; cases hx
  | cons x xs ih =>
    simp only [mapE]
    rcases h x (by simp) with ⟨y, hy⟩ | he
    · rw [hy]
      dsimp only
      rw [ih (fun z hz => h z (List.mem_cons_of_mem _ hz))]
      obtain ⟨z, hz, he⟩ := hx
      rcases List.mem_cons.1 hz with rfl | hz
      · rw [hy] at he; cases he
      · exact ⟨z, hz, he⟩
    · rw [he]

theorem sharesOfEduc_cases (rows : List (Nat × K)) (i : Nat) :
    ((∃ r ∈ rows, r.1 = i) ∧ ∃ y, sharesOfEduc rows i = .ok y) ∨
      ((¬ ∃ r ∈ rows, r.1 = i) ∧ sharesOfEduc rows i = .error .indexError) := by
  unfold sharesOfEduc
  cases hc : (rows.filter fun r => r.1 == i).map Prod.snd with
  | nil =>
    right
    refine ⟨?_, rfl⟩
    rintro ⟨r, hr, rfl⟩
    have h2 := List.map_eq_nil_iff.1 hc
    have : r ∈ rows.filter fun x => x.1 == r.1 := List.mem_filter.2 ⟨hr, by simp⟩
    rw [h2] at this
    cases this
  | cons x rest =>
    left
    refine ⟨?_, _, rfl⟩
    have : x ∈ (rows.filter fun r => r.1 == i).map Prod.snd := by rw [hc]; simp
    obtain ⟨r, hr, -⟩ := List.mem_map.1 this
    obtain ⟨h1, h2⟩ := List.mem_filter.1 hr
    exact ⟨r, h1, by simpa using h2⟩

theorem sharesOfEduc_error {rows : List (Nat × K)} {n : Nat} (h : ¬ EveryLevel n rows) :
    mapE (sharesOfEduc rows) (List.range n) = .error .indexError := by
  unfold EveryLevel at h
  push Not at h
  obtain ⟨i, hi, h⟩ := h
  refine mapE_error (fun j _ => ?_) ⟨i, List.mem_range.2 hi, ?_⟩
  · rcases sharesOfEduc_cases rows j with ⟨-, h⟩ | ⟨-, h⟩
    · exact Or.inl h
    · exact Or.inr h
  · rcases sharesOfEduc_cases rows i with ⟨⟨r, hr, h1⟩, -⟩ | ⟨-, h⟩
    · exact absurd h1 (h r hr)
    · exact h

theorem sharesOfEduc_fine {rows : List (Nat × K)} {n : Nat} (h : EveryLevel n rows) :
    ∃ l, mapE (sharesOfEduc rows) (List.range n) = .ok l := by
  refine mapE_exists fun i hi => ?_
  rcases sharesOfEduc_cases rows i with ⟨-, h⟩ | ⟨h1, -⟩
  · exact h
  · exact absurd (h i (List.mem_range.1 hi)) h1

theorem partnerRows_cases (rows : List (Nat × K)) (n : Nat) :
    (EveryLevel n rows ∧ partnerRows rows n = .ok ((rows.filter fun r => decide (r.1 < n)).map Prod.snd)) ∨
      (¬ EveryLevel n rows ∧ partnerRows rows n = .error (.keyError "period")) := by
  have hany : ((List.range n).any fun t => ! rows.any fun r => r.1 == t) = true ↔ ¬ EveryLevel n rows := by
    unfold EveryLevel
    simp only [List.any_eq_true, List.mem_range, Bool.not_eq_true', List.any_eq_false, not_forall, not_exists]
    constructor
    · rintro ⟨t, ht, h⟩
      exact ⟨t, ht, fun r hr => h r hr.1 (by simp [hr.2])⟩
    · rintro ⟨t, ht, h⟩
      exact ⟨t, ht, fun r hr h' => h r ⟨hr, by simpa using h'⟩⟩
  unfold partnerRows
  by_cases h : EveryLevel n rows
  · exact Or.inl ⟨h, if_neg fun h' => hany.1 h' h⟩
  · exact Or.inr ⟨h, if_pos (hany.2 h)⟩

theorem partnerReshape_cases (rows : List (Nat × K)) (n m : Nat) :
    (Fills n m rows ∧ ∃ l, partnerReshape ((rows.filter fun r => decide (r.1 < n)).map Prod.snd) n m = .ok l) ∨
      (¬ Fills n m rows ∧ partnerReshape ((rows.filter fun r => decide (r.1 < n)).map Prod.snd) n m
        = .error (.valueError "cannot reshape array")) := by
  unfold partnerReshape
  rw [List.length_map]
  by_cases h : Fills n m rows
  · exact Or.inl ⟨h, _, if_neg (not_not.2 h)⟩
  · exact Or.inr ⟨h, if_pos h⟩

/-- A table is read: it is missing, or the program goes on with it. -/
theorem read_step {β : Type} {name : String} {f : List (Nat × K) → Py S K β} {e : PyErr} {l : List (Prop × PyErr)}
    (h : FirstFault ((There p.disk name, .fileNotFound name) :: l) e)
    (hf : ∀ rows, p.disk.shares name = some rows → FirstFault l e → f rows p = (.error e, p)) :
    (readShares name >>= f) p = (.error e, p) := by
  rw [Py.bind_eq]
  unfold readShares
  rcases h with ⟨h1, rfl⟩ | ⟨⟨rows, h1⟩, h2⟩
  · cases hd : p.disk.shares name with
    | none => rfl
    | some rows => exact absurd ⟨rows, hd⟩ h1
  · rw [h1]
    exact hf rows h1 h2

/-- A table is looked at: it is at fault, or the program goes on. -/
theorem calc_step {α β : Type} {x : Except PyErr α} {f : α → Py S K β} {e e' : PyErr} {l : List (Prop × PyErr)}
    {c : Prop} (h : FirstFault ((c, e') :: l) e) (hx : ¬ c → x = .error e')
    (hok : c → ∃ a, x = .ok a)
    (hf : ∀ a, x = .ok a → FirstFault l e → f a p = (.error e, p)) :
    (Py.calc x >>= f) p = (.error e, p) := by
  rw [Py.bind_eq]
  rcases h with ⟨h1, rfl⟩ | ⟨h1, h2⟩
  · rw [hx h1]
    rfl
  · obtain ⟨a, ha⟩ := hok h1
    have := hf a ha h2
    rw [ha]
    exact this

/-- The requirement on a table that is there. -/
theorem holds_iff {name : String} {rows : List (Nat × K)} {P : List (Nat × K) → Prop}
    (h : p.disk.shares name = some rows) : Holds p.disk name P ↔ P rows :=
  ⟨fun h' => h' rows h, fun h' rows' h2 => by rw [h] at h2; obtain rfl := Option.some.inj h2; exact h'⟩

theorem levels_step {β : Type} {name : String} {rows : List (Nat × K)} {spec : ModelSpec K}
    (hr : p.disk.shares name = some rows) {f : List (List K) → Py S K β} {e : PyErr} {l : List (Prop × PyErr)}
    {x : Except PyErr (List (List K))} (hx : x = mapE (sharesOfEduc rows) (List.range spec.num_educ_levels))
    (h : FirstFault ((Holds p.disk name (EveryLevel spec.num_educ_levels), .indexError) :: l) e)
    (hf : ∀ a, FirstFault l e → f a p = (.error e, p)) : (Py.calc x >>= f) p = (.error e, p) := by
  subst hx
  refine calc_step h (fun h => ?_) (fun h => ?_) fun a _ h => hf a h
  · rw [holds_iff hr] at h
    exact sharesOfEduc_error h
  · rw [holds_iff hr] at h
    exact sharesOfEduc_fine h

theorem buildObjects_fault {spec : ModelSpec K} {e : PyErr} (h : FirstFault (Spec.requirements p.disk spec) e) :
    buildObjects rng hermite spec biased lost p = (.error e, p) := by
  unfold Spec.requirements at h
  dsimp only at h
  unfold buildObjects
  refine read_step h fun _ _ h => ?_
  refine read_step h fun rows hr h => ?_
  refine levels_step hr rfl h fun _ h => ?_
  refine read_step h fun _ _ h => ?_
  refine read_step h fun rows hr h => ?_
  refine levels_step hr rfl h fun _ h => ?_
  refine read_step h fun rows hr h => ?_
  refine levels_step hr rfl h fun _ h => ?_
  refine read_step h fun rows hr h => ?_
  refine calc_step h (fun h => ?_) (fun h => ?_) fun _ _ h => ?_
  · rw [holds_iff hr] at h
    unfold genProbChildVector
    dsimp only
    rw [List.length_map]
    exact if_pos h
  · rw [holds_iff hr] at h
    unfold genProbChildVector
    dsimp only
    rw [List.length_map]
    exact ⟨_, if_neg (not_not.2 h)⟩
  refine read_step h fun sep hs h => ?_
  refine calc_step h (fun h => ?_) (fun h => ?_) fun v hv h => ?_
  · rw [holds_iff hs] at h
    rcases partnerRows_cases sep spec.num_periods with ⟨h', -⟩ | ⟨-, h'⟩
    · exact absurd h' h
    · exact h'
  · rw [holds_iff hs] at h
    rcases partnerRows_cases sep spec.num_periods with ⟨-, h'⟩ | ⟨h', -⟩
    · exact ⟨_, h'⟩
    · exact absurd h h'
  refine read_step h fun arr ha h => ?_
  rw [Py.bind_eq]
  have key : genProbPartner { readFiles (fun _ => sep) spec.files with partner_arrival := arr } spec = .error e := by
    unfold genProbPartner
    change (partnerRows sep spec.num_periods >>= fun v => partnerRows arr spec.num_periods >>= fun v' => _) = _
    rw [hv, ok_bind]
    rcases partnerRows_cases sep spec.num_periods with ⟨-, h'⟩ | ⟨-, h'⟩
    · obtain rfl := Except.ok.inj (hv.symm.trans h')
      rcases h with ⟨h1, rfl⟩ | ⟨h1, h⟩
      · rw [holds_iff ha] at h1
        rcases partnerRows_cases arr spec.num_periods with ⟨h2, -⟩ | ⟨-, h2⟩
        · exact absurd h2 h1
        · rw [h2]; rfl
      · rw [holds_iff ha] at h1
        rcases partnerRows_cases arr spec.num_periods with ⟨-, h2⟩ | ⟨h2, -⟩
        · rw [h2, ok_bind]
          rcases h with ⟨h1, rfl⟩ | ⟨h1, h⟩
          · rw [holds_iff ha] at h1
            rcases partnerReshape_cases arr spec.num_periods spec.num_educ_levels with ⟨h2, -⟩ | ⟨-, h2⟩
            · exact absurd h2 h1
            · rw [h2]; rfl
          · rw [holds_iff ha] at h1
            rcases partnerReshape_cases arr spec.num_periods spec.num_educ_levels with ⟨-, y, h2⟩ | ⟨h2, -⟩
            · rw [h2, ok_bind]
              rcases h with ⟨h1, rfl⟩ | ⟨-, h⟩
              · rw [holds_iff hs] at h1
                rcases partnerReshape_cases sep spec.num_periods spec.num_educ_levels with ⟨h2, -⟩ | ⟨-, h2⟩
                · exact absurd h2 h1
                · rw [h2]; rfl
              · exact h.elim
            · exact absurd h1 h2
        · exact absurd h1 h2
    · rw [hv] at h'; cases h'
  rw [key]
  rfl

/-- **C94**  With readable parameters and specification, `get_simulate_func` and `simulate` raise the exception of the
first requirement on the tables that is not met; the generator and the files are as before, and the objects in memory
have not changed. -/
theorem C94_first_fault {fa : FrameArg K} {sa : SpecArg} {x : Frame K × ModelParams K} {spec : ModelSpec K} {e : PyErr}
    (hp : Sound p) (ha : Exists p sa) (hx : (readModelParamsInit fa p).1 = .ok x)
    (hs : (readModelSpecInit sa (specNumTypes x.1) p).1 = .ok spec)
    (h : FirstFault (Spec.requirements p.disk spec) e) :
    ∃ p', getSimulateFuncP rng hermite fa sa biased lost p = (.error e, p') ∧
      simulateP rng hermite fa sa biased sparse lost lost' p = (.error e, p') ∧
      p'.rng = p.rng ∧ p'.disk = p.disk ∧ p.store <+: p'.store := by
  obtain ⟨h1, h2, -, h4, h5⟩ := readModelSpecInit_run hp ha (specNumTypes x.1)
  have hr : readModelParamsInit fa p = (.ok x, p) := by
    rw [readModelParamsInit_run] at hx ⊢
    exact congrArg (·, p) hx
  have hg : getSimulateFuncP rng hermite fa sa biased lost p
      = (.error e, (readModelSpecInit sa (specNumTypes x.1) p).2) := by
    unfold getSimulateFuncP
    rw [Py.bind_eq, hr]
    dsimp only
    rw [Py.bind_eq]
    rcases hq : readModelSpecInit sa (specNumTypes x.1) p with ⟨r, q⟩
    rw [hq] at hs h5
    obtain rfl : r = .ok spec := hs
    dsimp only at h5 ⊢
    exact buildObjects_fault (by rw [h5]; exact h)
  refine ⟨_, hg, ?_, h4, h5, h2⟩
  unfold simulateP
  rw [Py.bind_eq, hg]

/-- **C94**  If `simulate` returns, every requirement on the tables is met. -/
theorem C94_met {fa : FrameArg K} {sa : SpecArg} {rows : List (OutRow K)} (hp : Sound p) (ha : Exists p sa)
    (h : (simulateP rng hermite fa sa biased sparse lost lost' p).1 = .ok rows) :
    ∃ frame par spec, (readModelParamsInit fa p).1 = .ok (frame, par) ∧
      (readModelSpecInit sa (specNumTypes frame) p).1 = .ok spec ∧ ∀ c ∈ Spec.requirements p.disk spec, c.1 := by
  obtain ⟨frame, par, spec, h1, h2, -⟩ := C78_tables_needed hp ha h
  refine ⟨frame, par, spec, h1, h2, ?_⟩
  have key : ∀ l : List (Prop × PyErr), (∀ c ∈ l, c.1) ∨ ∃ e, FirstFault l e := by
    intro l
    induction l with
    | nil => exact Or.inl (by simp)
    | cons c l ih =>
      obtain ⟨c, e⟩ := c
      by_cases hc : c
      · rcases ih with ih | ⟨e', ih⟩
        · refine Or.inl fun x hx => ?_
          rcases List.mem_cons.1 hx with rfl | hx
          · exact hc
          · exact ih x hx
        · exact Or.inr ⟨e', Or.inr ⟨hc, ih⟩⟩
      · exact Or.inr ⟨e, Or.inl ⟨hc, rfl⟩⟩
  rcases key (Spec.requirements p.disk spec) with h3 | ⟨e, h3⟩
  · exact h3
  · obtain ⟨p', -, h4, -⟩ := C94_first_fault (rng := rng) (hermite := hermite) (biased := biased) (sparse := sparse)
      (lost := lost) (lost' := lost') hp ha h1 h2 h3
    rw [h4] at h
    cases h

/-- The example's process with other tables. -/
def exTables (tables : String → Option (List (Nat × ℚ))) (g : Nat) : Process Nat ℚ :=
  { exProcess [] g with disk := { exDisk [] with shares := tables } }

/-- With one of two levels of education missing in the table of child ages the call stops there, although a later table
is missing; with the level it is the later table that is reported. -/
example [Transc ℚ] (hermite : Nat → List ℚ × List ℚ) (g l l' : Nat) :
    (∃ p', simulateP (altRng ℚ) hermite (.frame exFrame) (.obj 0) false false l l' (exTables
        (fun n => if n = "educ" then some [] else if n = "ages" then some [(0, 1)] else none) g)
      = (.error .indexError, p') ∧ p'.rng = g) ∧
    (∃ p', simulateP (altRng ℚ) hermite (.frame exFrame) (.obj 0) false false l l' (exTables
        (fun n => if n = "educ" then some [] else if n = "ages" then some [(0, 1), (1, 1)] else none) g)
      = (.error (.fileNotFound "partner"), p') ∧ p'.rng = g) := by
  have key : ∀ (tables : String → Option (List (Nat × ℚ))) (e : PyErr),
      FirstFault (Spec.requirements (exTables tables g).disk simSpec) e →
      ∃ p', simulateP (altRng ℚ) hermite (.frame exFrame) (.obj 0) false false l l' (exTables tables g)
        = (.error e, p') ∧ p'.rng = g := by
    intro tables e h
    have hs : Sound (exTables tables g) := ⟨(exProcess_sound [] g).closed, (exProcess_sound [] g).files⟩
    have ha : Exists (exTables tables g) (.obj 0) := exProcess_obj [] g
    obtain ⟨p', -, h1, h2, -⟩ := C94_first_fault (rng := altRng ℚ) (hermite := hermite) (biased := false)
      (sparse := false) (lost := l) (lost' := l') (fa := .frame exFrame) (x := (exFrame, exParams)) (spec := simSpec)
      hs ha (by rw [readModelParamsInit_run]; exact exFrameData (exTables tables g).disk)
      (by rw [(readModelSpecInit_run hs ha _).1]; exact exSpecData [] g) h
    exact ⟨p', h1, h2⟩
  have hreq : ∀ tables, Spec.requirements (exTables tables g).disk simSpec
      = (There (exTables tables g).disk "educ", .fileNotFound "educ") ::
        (There (exTables tables g).disk "ages", .fileNotFound "ages") ::
        (Holds (exTables tables g).disk "ages" (EveryLevel 2), .indexError) ::
        (There (exTables tables g).disk "partner", .fileNotFound "partner") ::
        (Spec.requirements (exTables tables g).disk simSpec).drop 4 := by
    intro tables
    unfold Spec.requirements
    rw [specOf_facts.files, specOf_facts.educ]
    rfl
  refine ⟨key _ _ ?_, key _ _ ?_⟩
  · rw [hreq]
    refine Or.inr ⟨⟨_, rfl⟩, Or.inr ⟨⟨_, rfl⟩, Or.inl ⟨fun h => ?_, rfl⟩⟩⟩
    obtain ⟨r, hr, h1⟩ := h [(0, 1)] rfl 1 (by decide)
    simp at hr
    rw [hr] at h1
    cases h1
  · rw [hreq]
    refine Or.inr ⟨⟨_, rfl⟩, Or.inr ⟨⟨_, rfl⟩, Or.inr ⟨fun rows hr i hi => ?_, Or.inl ⟨?_, rfl⟩⟩⟩⟩
    · obtain rfl : [((0 : Nat), (1 : ℚ)), (1, 1)] = rows := Option.some.inj hr
      have : i = 0 ∨ i = 1 := by omega
      rcases this with rfl | rfl
      · exact ⟨(0, 1), by simp, rfl⟩
      · exact ⟨(1, 1), by simp, rfl⟩
    · rintro ⟨rows, h⟩
      cases h

end Soepy.Props
