import Verif.Proof.Exogenous
import Verif.Model.Simulate
import Verif.Props.StateSpace

/-! # A negative last child bearing period (C118) -/

set_option linter.unusedSectionVars false

namespace Soepy.Props
open Soepy

variable {S K : Type} [Field K] [LinearOrder K] [IsStrictOrderedRing K] [FloorRing K] [Transc K]

/-- **C118**  Planning: for a last child bearing period below -1 Python counts from the end of the horizon, so that the table of
birth probabilities used by the solver has the entries of the file in all but the last `-(last + 1)` periods. -/
theorem C118_planned {disk : String → List (Nat × K)} {spec : ModelSpec K} {l : List (List K)}
    (hlast : spec.last_child_bearing_period < -1)
    (h : genProbChildVector (readFiles disk spec.files) spec = .ok l) {t e : Nat} (ht : t < spec.num_periods) (he : e < 3) :
    (l.getD t []).getD e 0 = if (t : Int) < spec.num_periods + (spec.last_child_bearing_period + 1)
      then Spec.tableEntry (disk spec.files.child_info) spec.num_periods 3 t e else 0 := by
  unfold genProbChildVector at h
  dsimp only at h
  split_ifs at h with hl
  rw [not_not] at hl
  obtain rfl := Except.ok.inj h
  have hstop : t < sliceEnd spec.num_periods (min (spec.last_child_bearing_period + 1) spec.num_periods)
      ↔ (t : Int) < spec.num_periods + (spec.last_child_bearing_period + 1) := by
    unfold sliceEnd
    rw [if_pos (by omega)]
    omega
  have hget : ∀ f : Nat → List K, ((List.range spec.num_periods).map f).getD t [] = f t := by
    intro f
    rw [List.getD_eq_getElem?_getD, List.getElem?_map, List.getElem?_range ht, Option.map_some,
      Option.getD_some]
  rw [hget]
  by_cases h1 : (t : Int) < spec.num_periods + (spec.last_child_bearing_period + 1)
  · rw [if_pos (hstop.2 h1), if_pos h1, show ((0 : K) + ·) = id from funext fun x => zero_add x,
      List.map_id, tableEntry_get ht he hl]
    rfl
  · rw [if_neg (fun h => h1 (hstop.1 h)), if_neg h1]
    simp only [List.getD_eq_getElem?_getD]
    rw [List.getElem?_replicate]
    split_ifs <;> rfl

/-- **C118**  Simulation: with a negative last child bearing period no birth is drawn in any period, whatever the probabilities:
the generator is not used, and the new age of the youngest child is the one of the update rule (or, in the last period, the old age). -/
theorem C118_simulated {rng : Rng S K} {spec : ModelSpec K} {inp : SimInput K} {t : Nat} {rows : List (Row K)} {g g' : S}
    {ages : List Int} (hlast : spec.last_child_bearing_period < 0)
    (h : nextChildAges rng spec inp t rows g = .ok (ages, g')) :
    g' = g ∧ ages.length = rows.length ∧ ∀ (k : Nat) (r : Row K), rows[k]? = some r →
      ((t : Int) = spec.num_periods - 1 → ages[k]? = some r.agent.age) ∧
      ((t : Int) ≠ spec.num_periods - 1 → ∃ a, npGet inp.childAgeUpdateRule r.out.idx = .ok a ∧ ages[k]? = some a) := by
  unfold nextChildAges at h
  split_ifs at h with h1 h2
  · obtain ⟨rfl, rfl⟩ := Prod.mk.inj (Except.ok.inj h)
    refine ⟨rfl, List.length_map _, fun k r hk => ⟨fun _ => by rw [List.getElem?_map, hk]; rfl, fun hn => absurd h1 hn⟩⟩
  · exact absurd h2 (by omega)
  · obtain ⟨rules, hr, h3⟩ := bind_ok.1 h
    obtain ⟨rfl, rfl⟩ := Prod.mk.inj (Except.ok.inj h3)
    have key : ∀ (l : List (Row K)) (out : List Int), mapE (fun r : Row K => npGet inp.childAgeUpdateRule r.out.idx) l = .ok out →
        out.length = l.length ∧ ∀ (k : Nat) (r : Row K), l[k]? = some r →
          ∃ a, npGet inp.childAgeUpdateRule r.out.idx = .ok a ∧ out[k]? = some a := by
      intro l
      induction l with
      | nil =>
        intro out ho
        obtain rfl := Except.ok.inj ho
        exact ⟨rfl, fun k r hk => by simp at hk⟩
      | cons x l ih =>
        intro out ho
        unfold mapE at ho
        split at ho
        · cases ho
        rename_i a ha
        split at ho
        · cases ho
        rename_i o hl
        obtain rfl := Except.ok.inj ho
        obtain ⟨i1, i2⟩ := ih o hl
        refine ⟨by simp [i1], fun k r hk => ?_⟩
        cases k with
        | zero =>
          obtain rfl := Option.some.inj hk
          exact ⟨a, ha, rfl⟩
        | succ k => exact i2 k r (by simpa using hk)
    obtain ⟨k1, k2⟩ := key rows _ hr
    exact ⟨rfl, k1, fun k r hk => ⟨fun hn => absurd hn h1, fun _ => k2 k r hk⟩⟩

/-- The specification of the examples with a last child bearing period of -2. -/
def negSpec : ModelSpec ℚ := { exSpec with last_child_bearing_period := -2 }

/-- The hypotheses of C118 are met, and solver and simulator disagree: births are planned in periods 0 and 1 of three. -/
example : ∃ l, genProbChildVector (readFiles (fun _ => (List.range 9).map fun i => (i / 3, (1/2 : ℚ))) negSpec.files) negSpec
      = .ok l ∧ negSpec.last_child_bearing_period < -1 ∧ l = [[1/2, 1/2, 1/2], [1/2, 1/2, 1/2], [0, 0, 0]] :=
  ⟨_, by decide +kernel, by decide +kernel, rfl⟩

/-- The hypotheses of `C118_simulated` are met in a period before the last. -/
example [Transc ℚ] (rng : Rng S ℚ) (inp : SimInput ℚ) (r : Row ℚ) (g : S) (h : npGet inp.childAgeUpdateRule r.out.idx = .ok 3) :
    nextChildAges rng negSpec inp 0 [r] g = .ok ([3], g) := by
  unfold nextChildAges
  rw [if_neg (by decide +kernel), if_neg (by decide +kernel)]
  simp only [mapE, h]
  rfl

end Soepy.Props
