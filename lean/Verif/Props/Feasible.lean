import Verif.Proof.Feasible
import Verif.Props.Reference

/-!
# Exactly when a simulation runs through (C87)
-/

set_option linter.unusedSectionVars false

namespace Soepy.Props
open Soepy
variable {S K : Type} [Field K] [LinearOrder K] [IsStrictOrderedRing K] [FloorRing K] [Transc K]
  {env : Env S K} {frame : Frame K} {a : Nat} {biased sparse : Bool} {w : World S K}
  {par : ModelParams K} {spec : ModelSpec K}

/-- **C87**  On a readable frame and specification `simulate` returns if and only if the inputs are feasible:
files, shares and switches fit the specification, and wherever a birth, an arrival or a separation is drawn for
an agent of the reference simulation, the number in the file is a probability. -/
theorem C87_returns_iff (laws : RngLaws env.rng) (closed : Closed w.store) (addr : a < w.store.length)
    (params : readModelParams frame = .ok par)
    (spec_ok : ∃ st', readModelSpec w.store a (specNumTypes frame) = .ok (st', spec))
    (hu : Usable spec par) (hlast : -1 ≤ spec.last_child_bearing_period)
    (years : spec.educ_years.length = spec.num_educ_levels) :
    (∃ q, simulate env frame a biased sparse w = .ok q) ↔ Spec.Feasible env par spec biased := by
  constructor
  · rintro ⟨⟨rows, w'⟩, h⟩
    exact feasible_of_output ⟨laws, closed, addr, params, spec_ok, w', h⟩ hu hlast
  · intro h
    obtain ⟨rows, ho⟩ := simulate_feasible laws closed addr params spec_ok hu hlast years h sparse
    obtain ⟨w', h⟩ := ho.run
    exact ⟨_, h⟩

/-- **C87**  Otherwise it raises. -/
theorem C87_raises_iff (laws : RngLaws env.rng) (closed : Closed w.store) (addr : a < w.store.length)
    (params : readModelParams frame = .ok par)
    (spec_ok : ∃ st', readModelSpec w.store a (specNumTypes frame) = .ok (st', spec))
    (hu : Usable spec par) (hlast : -1 ≤ spec.last_child_bearing_period)
    (years : spec.educ_years.length = spec.num_educ_levels) :
    (∃ e, simulate env frame a biased sparse w = .error e) ↔ ¬ Spec.Feasible env par spec biased := by
  rw [← C87_returns_iff (sparse := sparse) laws closed addr params spec_ok hu hlast years]
  cases simulate env frame a biased sparse w <;> simp

/-- **C87**  The rows on feasible inputs are the reference panel. -/
theorem C87_rows (laws : RngLaws env.rng) (closed : Closed w.store) (addr : a < w.store.length)
    (params : readModelParams frame = .ok par)
    (spec_ok : ∃ st', readModelSpec w.store a (specNumTypes frame) = .ok (st', spec))
    (hu : Usable spec par) (hlast : -1 ≤ spec.last_child_bearing_period)
    (years : spec.educ_years.length = spec.num_educ_levels) (h : Spec.Feasible env par spec biased) :
    ∃ w', simulate env frame a biased false w = .ok (Spec.panel env par spec biased, w') := by
  obtain ⟨rows, ho⟩ := simulate_feasible laws closed addr params spec_ok hu hlast years h false
  obtain ⟨w', hr⟩ := ho.run
  exact ⟨w', by rw [hr, C69_rows ho hu hlast]⟩

/-- **C87**  It is enough that the tables contain probabilities in the cells of the model; cells of period 0 in
the file of births, of periods after the last child bearing period and of education levels the model does not
have may contain anything. -/
theorem C87_tables (laws : RngLaws env.rng) (h : Spec.Prepared env par spec)
    (hb : ∀ t e, 0 < t → t < spec.num_periods → (t : Int) ≤ spec.last_child_bearing_period →
      e < spec.num_educ_levels →
      Spec.IsProb (Spec.tableEntry (env.disk spec.files.child_info) spec.num_periods 3 t e))
    (ha : ∀ t e, t < spec.num_periods → e < spec.num_educ_levels →
      Spec.IsProb (Spec.arrivalTable env.disk spec t e) ∧ Spec.IsProb (Spec.separationTable env.disk spec t e)) :
    Spec.Feasible env par spec biased := by
  refine feasible_of_tables laws h (fun t e h1 h2 h3 => ?_) ha biased
  unfold Spec.birthTable
  split_ifs with h4
  · exact hb t e h1 h2 h4 h3
  · exact ⟨le_refl _, zero_le_one⟩

/-- **C87**  The inputs of C50 and C69 are feasible. -/
theorem C87_of_runnable (laws : RngLaws env.rng) (closed : Closed w.store) (addr : a < w.store.length)
    (params : readModelParams frame = .ok par)
    (spec_ok : ∃ st', readModelSpec w.store a (specNumTypes frame) = .ok (st', spec))
    (h : Runnable env spec par) (hlast : -1 ≤ spec.last_child_bearing_period) (biased : Bool) :
    Spec.Feasible env par spec biased :=
  (C87_returns_iff (sparse := false) laws closed addr params spec_ok h.usable hlast h.years).1
    (by
      obtain ⟨new, h⟩ := C69_total laws closed addr params spec_ok h hlast biased
      exact ⟨_, h⟩)

/-- The example files with these birth rates. -/
def filesWithBirths (b : List ℚ) : FileData := { exFiles with births := b }

theorem simStore_reads : (readModelSpec (simStore 4) 0 2).toBool = true := by decide +kernel

theorem filesWithBirths_prepared [Transc ℚ] (hermite : Nat → List ℚ × List ℚ) {b : List ℚ} (hb : b.length = 3) :
    Spec.Prepared (simEnv (filesWithBirths b) hermite) exParams simSpec := by
  have hs := specOf_facts
  have hf := files_ok exFiles_ok hs
  have he : ∀ name, name ≠ "child" → (filesWithBirths b).disk name = exFiles.disk name := by
    intro name h
    unfold FileData.disk
    simp only [h, if_false]
    rfl
  have e0 : (simEnv (filesWithBirths b) hermite).disk = (filesWithBirths b).disk := rfl
  constructor
  · rw [hs.periods]; decide
  · exact Or.inl hs.method
  · exact Or.inl hs.regime
  · rw [e0, he _ (by rw [hs.files]; decide)]; exact hf.educ_len
  · rw [e0, he _ (by rw [hs.files]; decide)]; exact hf.educ
  · rw [e0, he _ (by rw [hs.files]; decide)]; exact hf.ages
  · intro e h
    rw [e0, he _ (by rw [hs.files]; decide)]
    have := lt_of_lt_of_le h hf.partners_len
    exact ⟨_, List.getElem?_eq_getElem this, hf.partners _ (List.getElem_mem this)⟩
  · rw [e0, he _ (by rw [hs.files]; decide)]; exact hf.pt
  · rw [e0, he _ (by rw [hs.files]; decide)]; exact hf.ft
  · rw [hs.types, exFacts.shares]; rfl
  · rw [exFacts.shares]; exact ⟨by simp; norm_num, by norm_num⟩
  · rw [e0, hs.files, hs.periods]
    obtain ⟨x, y, z, rfl⟩ := List.length_eq_three.1 hb
    rfl
  · rw [e0, he _ (by rw [hs.files]; decide)]; exact ⟨hf.separation.periods, hf.separation.count⟩
  · rw [e0, he _ (by rw [hs.files]; decide)]; exact ⟨hf.arrival.periods, hf.arrival.count⟩

theorem filesWithBirths_iff [Transc ℚ] (hermite : Nat → List ℚ × List ℚ) {b : List ℚ} (biased sparse : Bool)
    (g : Nat) :
    (∃ q, simulate (simEnv (filesWithBirths b) hermite) exFrame 0 biased sparse (simWorld 4 g) = .ok q) ↔
      Spec.Feasible (simEnv (filesWithBirths b) hermite) exParams simSpec biased :=
  C87_returns_iff (env := simEnv (filesWithBirths b) hermite) altRng_laws (simStore_closed 4)
    (by simp [simWorld, simStore, exStore]) exFacts.reads
    (by rw [exFacts.types]; exact specOf_reads simStore_reads) ex_usable
    (by rw [specOf_facts.last]; decide) (by rw [specOf_facts.years, specOf_facts.educ]; rfl)

/-- A birth rate of 7 in period 0 and of -1 in period 2, after the last child bearing period 1: nobody looks at
them, the simulation returns. -/
example [Transc ℚ] (hermite : Nat → List ℚ × List ℚ) (biased sparse : Bool) (g : Nat) :
    ∃ q, simulate (simEnv (filesWithBirths [7, 1/5, -1]) hermite) exFrame 0 biased sparse (simWorld 4 g)
      = .ok q := by
  have hs := specOf_facts
  rw [filesWithBirths_iff]
  refine C87_tables altRng_laws (filesWithBirths_prepared hermite rfl) ?_ ?_
  · intro t e h1 h2 h3 h4
    rw [hs.last] at h3
    rw [hs.educ] at h4
    obtain rfl : t = 1 := by omega
    rw [hs.files, hs.periods]
    have : e = 0 ∨ e = 1 := by omega
    unfold Spec.IsProb
    change 0 ≤ Spec.tableEntry ((filesWithBirths [7, 1/5, -1]).disk "child") 3 3 1 e ∧
      Spec.tableEntry ((filesWithBirths [7, 1/5, -1]).disk "child") 3 3 1 e ≤ 1
    rcases this with rfl | rfl <;> decide +kernel
  · intro t e h1 h2
    unfold Spec.arrivalTable Spec.separationTable Spec.IsProb
    rw [hs.periods] at h1
    rw [hs.educ] at h2
    rw [hs.files, hs.periods, hs.educ]
    have k1 : t = 0 ∨ t = 1 ∨ t = 2 := by omega
    have k2 : e = 0 ∨ e = 1 := by omega
    change (0 ≤ Spec.tableEntry ((filesWithBirths [7, 1/5, -1]).disk "arr") 3 2 t e ∧
        Spec.tableEntry ((filesWithBirths [7, 1/5, -1]).disk "arr") 3 2 t e ≤ 1) ∧
      0 ≤ Spec.tableEntry ((filesWithBirths [7, 1/5, -1]).disk "sep") 3 2 t e ∧
        Spec.tableEntry ((filesWithBirths [7, 1/5, -1]).disk "sep") 3 2 t e ≤ 1
    rcases k1 with rfl | rfl | rfl <;> rcases k2 with rfl | rfl <;> decide +kernel

/-- A birth rate of 7 in period 1: the simulation raises. -/
example [Transc ℚ] (hermite : Nat → List ℚ × List ℚ) (biased sparse : Bool) (g : Nat) :
    ∃ e, simulate (simEnv (filesWithBirths [1/10, 7, 1/10]) hermite) exFrame 0 biased sparse (simWorld 4 g)
      = .error e := by
  have hs := specOf_facts
  refine (C87_raises_iff (env := simEnv (filesWithBirths [1/10, 7, 1/10]) hermite) altRng_laws
    (simStore_closed 4) (by simp [simWorld, simStore, exStore]) exFacts.reads
    (by rw [exFacts.types]; exact specOf_reads simStore_reads) ex_usable
    (by rw [specOf_facts.last]; decide) (by rw [specOf_facts.years, specOf_facts.educ]; rfl)).2 fun h => ?_
  have h0 : Spec.entryYear (simEnv (filesWithBirths [1/10, 7, 1/10]) hermite) simSpec 1 = some 0 := by
    unfold Spec.entryYear Spec.drawnEducation
    rw [hs.years, hs.agents, hs.seed, hs.files]
    change (((altRng ℚ).choice ((altRng ℚ).seed 1) 5
      (((filesWithBirths [1/10, 7, 1/10]).disk "educ").map Prod.snd)).1[1]?.bind fun e => [0, 1][e]?) = some 0
    decide +kernel
  have hm : Spec.entrant (simEnv (filesWithBirths [1/10, 7, 1/10]) hermite) exParams simSpec 1
      ∈ (Spec.population (simEnv (filesWithBirths [1/10, 7, 1/10]) hermite) exParams simSpec biased 0).1 := by
    refine List.mem_map_of_mem (List.mem_filter.2 ⟨List.mem_range.2 (by rw [hs.agents]; decide), ?_⟩)
    simpa using h0
  have hp := h.birth 0 (by rw [hs.periods]; decide) (by rw [hs.last]; decide) _ hm
  have he := population_educ (env := simEnv (filesWithBirths [1/10, 7, 1/10]) hermite) altRng_laws
    h.toPrepared biased 0 _ hm
  revert hp he
  generalize (Spec.entrant (simEnv (filesWithBirths [1/10, 7, 1/10]) hermite) exParams simSpec 1).state.educ = e
  unfold Spec.birthTable Spec.IsProb
  rw [hs.educ, hs.last, hs.files, hs.periods]
  intro hp he
  have : e = 0 ∨ e = 1 := by omega
  have hp2 : (if (((0 + 1 : Nat)) : Int) ≤ 1 then
      Spec.tableEntry ((filesWithBirths [1/10, 7, 1/10]).disk "child") 3 3 (0 + 1) e else 0) ≤ 1 := hp.2
  revert hp2
  rcases this with rfl | rfl <;> decide +kernel

end Soepy.Props
