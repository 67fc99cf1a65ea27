import Verif.Proof.FrameRows
import Verif.Props.Effects

/-!
# Which parameter frames are accepted (C90)
-/

set_option linter.unusedSectionVars false

namespace Soepy.Props
open Soepy
variable {S K : Type} [Field K] [LinearOrder K] [IsStrictOrderedRing K] [FloorRing K] [Transc K]
  {rng : Rng S K} {hermite : Nat → List K × List K} {fa : FrameArg K} {sa : SpecArg} {biased sparse : Bool}
  {lost lost' : S} {p : Process S K} {frame : Frame K}

/-! ## C90 -/

/-- The frame has a row of this category and name. -/
def HasRow (frame : Frame K) (c n : String) : Prop := ∃ v, (c, n, v) ∈ frame

/-- The frame has the rows on the age of the youngest child. -/
def HasChildRows (frame : Frame K) : Prop := ∀ n ∈ Spec.childRows, HasRow frame "disutil_work" n

/-- The argument is the frame, or the name of a file that contains it. -/
def Supplies (p : Process S K) (frame : Frame K) (fa : FrameArg K) : Prop :=
  fa = .frame frame ∨ ∃ name, fa = .path name ∧ p.disk.frames name = some frame

theorem missingName_none {c n : String} : Spec.missingName frame c n = none ↔ HasRow frame c n := by
  unfold Spec.missingName HasRow
  constructor
  · intro h
    split_ifs at h with h1
    push Not at h1
    obtain ⟨⟨c', n', v⟩, hr, h2, h3⟩ := h1
    obtain rfl : c' = c := h2
    obtain rfl : n' = n := h3
    exact ⟨v, hr⟩
  · rintro ⟨v, hv⟩
    exact if_neg fun h => h _ hv ⟨rfl, rfl⟩

theorem missing_none {c n : String} : Spec.missing frame c n = none ↔ HasRow frame c n := by
  unfold Spec.missing
  constructor
  · intro h
    exact missingName_none.1 (Option.or_eq_none_iff.1 h).2
  · intro h
    refine Option.or_eq_none_iff.2 ⟨?_, missingName_none.2 h⟩
    obtain ⟨v, hv⟩ := h
    exact if_neg fun h => h _ hv rfl

/-- Nothing is missing: the rows that are read by name are there, and if there are shares of types there is a
parameter of a type. -/
theorem C90_complete : Spec.firstMissing frame = none ↔
    HasRow frame "sd_wage_shock" "sigma" ∧ (∀ r ∈ Spec.requiredRows, HasRow frame r.1 r.2) ∧
    ((∃ r ∈ frame, r.1 = "shares") → ∃ r ∈ frame, r.1 = "hetrg_unobs") := by
  unfold Spec.firstMissing
  rw [Option.or_eq_none_iff, Option.or_eq_none_iff, missing_none, List.findSome?_eq_none_iff]
  simp only [missing_none]
  refine and_congr_right fun _ => ?_
  rw [and_comm]
  refine and_congr_right fun _ => ?_
  unfold Spec.missingCategory
  by_cases h1 : ∀ r ∈ frame, r.1 ≠ "shares"
  · simp only [if_pos h1, true_iff]
    rintro ⟨r, hr, h⟩
    exact absurd h (h1 r hr)
  · rw [if_neg h1]
    push Not at h1
    by_cases h2 : ∀ r ∈ frame, r.1 ≠ "hetrg_unobs"
    · rw [if_pos h2]
      simp only [reduceCtorEq, false_iff]
      intro h
      obtain ⟨r, hr, h⟩ := h h1
      exact h2 r hr h
    · rw [if_neg h2]
      push Not at h2
      simp only [true_iff]
      exact fun _ => h2

/-- **C90**  A frame with the rows on the age of the child is accepted exactly if nothing is missing, and otherwise
`KeyError` names the first thing that is missing. -/
theorem C90_read (h : HasChildRows frame) :
    ((∃ par, readModelParams frame = .ok par) ↔ Spec.firstMissing frame = none) ∧
    ∀ e, readModelParams frame = .error e ↔ ∃ k, Spec.firstMissing frame = some k ∧ e = .keyError k := by
  have hr := reads_readModelParams (frame := frame) fun n hn => missingName_none.2 (h n hn)
  cases hm : Spec.firstMissing frame with
  | none =>
    rw [hm] at hr
    obtain ⟨par, hr⟩ := hr
    simp [hr]
  | some k =>
    rw [hm] at hr
    have hr : readModelParams frame = .error (.keyError k) := hr
    simp [hr, eq_comm]

/-- **C90**  Every accepted frame has all the rows. -/
theorem C90_necessary {par : ModelParams K} (h : readModelParams frame = .ok par) :
    HasChildRows frame ∧ Spec.firstMissing frame = none := by
  suffices hc : HasChildRows frame from ⟨hc, (C90_read hc).1.1 ⟨par, h⟩⟩
  unfold readModelParams at h
  obtain ⟨⟨d, der⟩, h1, h⟩ := bind_ok.1 h
  obtain ⟨c, hd, k1, k2, k3, k4, k5, k6, -⟩ := (groupParameters_ok h).dis
  rw [expandModelParamsDict_dget h1 (by decide)] at hd
  intro n hn
  rw [← missingName_none]
  have hr := reads_name hd n
  have hok : ∃ v, dget c n = .ok v := by
    simp only [Spec.childRows, List.mem_cons, List.not_mem_nil, or_false] at hn
    rcases hn with rfl | rfl | rfl | rfl | rfl | rfl
    exacts [⟨_, k1⟩, ⟨_, k2⟩, ⟨_, k3⟩, ⟨_, k4⟩, ⟨_, k5⟩, ⟨_, k6⟩]
  obtain ⟨v, hv⟩ := hok
  cases hm : Spec.missingName frame "disutil_work" n with
  | none => rfl
  | some k =>
    rw [hm] at hr
    have hr : dget c n = .error (.keyError k) := hr
    rw [hv] at hr
    cases hr

/-- **C90**  The entry points raise that `KeyError` before anything else, and change nothing. -/
theorem C90_entry_points (h : HasChildRows frame) {k : String} (hk : Spec.firstMissing frame = some k)
    (hs : Supplies p frame fa) (c : Cached K) :
    simulateP rng hermite fa sa biased sparse lost lost' p = (.error (.keyError k), p) ∧
    getSimulateFuncP rng hermite fa sa biased lost p = (.error (.keyError k), p) ∧
    callSimulateFuncP rng c sparse fa sa lost p = (.error (.keyError k), p) := by
  have he : readModelParams frame = .error (.keyError k) := ((C90_read h).2 _).2 ⟨k, hk, rfl⟩
  have hr : readModelParamsInit fa p = (.error (.keyError k), p) := by
    rw [readModelParamsInit_run]
    rcases hs with rfl | ⟨name, rfl, hn⟩
    · rw [frameData_frame, he]; rfl
    · unfold frameData; simp only [hn, he]; rfl
  have hg : getSimulateFuncP rng hermite fa sa biased lost p = (.error (.keyError k), p) := by
    unfold getSimulateFuncP; rw [Py.bind_eq, hr]
  refine ⟨?_, hg, ?_⟩
  · unfold simulateP; rw [Py.bind_eq, hg]
  · unfold callSimulateFuncP; rw [Py.bind_eq, hr]

/-- The example frame without the rows of this name. -/
def exWithout (n : String) : Frame ℚ := exFrame.filter fun r => decide (r.2.1 ≠ n)

theorem hasRow_of_find {frame : Frame ℚ} {c n : String}
    (h : (frame.find? fun r => decide (r.1 = c ∧ r.2.1 = n)).isSome = true) : HasRow frame c n := by
  obtain ⟨⟨c', n', v⟩, hr⟩ := Option.isSome_iff_exists.1 h
  have h2 := List.find?_some hr
  simp only [decide_eq_true_eq] at h2
  exact ⟨v, by rw [← h2.1, ← h2.2]; exact List.mem_of_find?_eq_some hr⟩

/-- The hypotheses of C90 hold: the complete example frame is accepted, and without the risk aversion
(the category then is empty), without the wage constant of one level, or without parameters of the types the
`KeyError` names the category or the row. -/
example : HasChildRows exFrame ∧ Spec.firstMissing exFrame = none ∧
    HasChildRows (exWithout "mu") ∧ Spec.firstMissing (exWithout "mu") = some "risk" ∧
    HasChildRows (exWithout "gamma_0_high") ∧ Spec.firstMissing (exWithout "gamma_0_high") = some "gamma_0_high" ∧
    Spec.firstMissing ((exWithout "theta_p1").filter fun r => decide (r.2.1 ≠ "theta_f1")) = some "hetrg_unobs" := by
  refine ⟨fun n hn => hasRow_of_find ?_, by decide +kernel, fun n hn => hasRow_of_find ?_, by decide +kernel,
    fun n hn => hasRow_of_find ?_, by decide +kernel, by decide +kernel⟩ <;> (fin_cases hn <;> decide +kernel)

end Soepy.Props
