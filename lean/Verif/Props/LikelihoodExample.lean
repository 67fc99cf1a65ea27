import Verif.Props.Likelihood
import Verif.Props.IndifferenceExample
import Mathlib.Probability.Independence.InfinitePi

/-! # C113, C114: examples -/

set_option linter.unusedSectionVars false

namespace Soepy.Props
open Soepy MeasureTheory ProbabilityTheory

/-- Normal numbers read from a table with one entry for every period and agent. -/
def tableNormals (ω : ℕ × ℕ → ℝ) (g r c : Nat) : List (List ℝ) × Nat :=
  ((List.range r).map fun i => (List.range c).map fun j => ω (i, j), g + 1)

theorem table_laws (ω : ℕ × ℕ → ℝ) : RngLaws { altRng ℝ with normal := tableNormals ω } := by
  have h : RngLaws (altRng ℝ) := altRng_laws
  refine ⟨h.choice_length, h.choice_pos, h.binomial_length, h.binomial_le, h.binomial_zero, h.binomial_one, ?_, ?_⟩
  · intro g n m
    simp [tableNormals]
  · intro g n m row hrow
    simp only [tableNormals, List.mem_map] at hrow
    obtain ⟨i, -, rfl⟩ := hrow
    simp

theorem subject_stays {S : Type} {env : Env S ℝ} {par : ModelParams ℝ} {spec : ModelSpec ℝ} {biased : Bool} {t k i : ℕ}
    {a : Spec.Subject ℝ} (h : (Spec.population env par spec biased t).1[k]? = some a) (hi : a.id = i) (j : ℕ) :
    ∃ b, (Spec.population env par spec biased (t + j)).1[k]? = some b ∧ b.id = i := by
  induction j with
  | zero => exact ⟨a, h, hi⟩
  | succ j ih =>
    obtain ⟨b, hb, hbi⟩ := ih
    exact ⟨_, population_succ_get env (t + j) hb, hbi⟩

/-- The hypotheses of C113 are met: independent normal numbers for all periods and agents, the simulation runs for
all of them, and the likelihood of the career of agent 1 over all three periods in the data frame that belongs to the numbers
`ω0` is the product of three normal probabilities. -/
example (m g : Nat) (biased : Bool) (ω0 : ℕ × ℕ → ℝ) : ∃ (career : ℕ → OutRow ℝ) (rows : (ℕ × ℕ → ℝ) → List (OutRow ℝ)),
    (∀ ω, Spec.Output (withNormals (altRng ℝ) gaussRules truDisk (tableNormals ω)) truFrame 0 biased false
      { rng := g, store := truStore "quadrature" m } truPar (truSpec "quadrature" m) (rows ω)) ∧
    (∀ j : ℕ, j < 3 → career j ∈ rows ω0 ∧ (career j).id = 1 ∧ (career j).period = (j : ℤ)) ∧
    Measure.infinitePi (fun _ : ℕ × ℕ => gaussianReal 0 1) {ω | ∀ j : ℕ, j < 3 → ∃ r ∈ rows ω, r.id = 1 ∧ r.period = (j : ℤ) ∧
        Spec.stateOf r = Spec.stateOf (career j) ∧ r.stock = (career j).stock ∧ r.choice = (career j).choice}
      = ∏ j ∈ Finset.range 3, gaussianReal 0 1 {z | ((choiceAt (withNormals (altRng ℝ) gaussRules truDisk (tableNormals ω0)) truPar
          (truSpec "quadrature" m) biased (Spec.stateOf (career j)) (career j).stock (z * (1/4)) : ℕ) : ℤ) = (career j).choice} := by
  have h1 := tru_sizes "quadrature"
  have h2 := tru_limits "quadrature"
  have h3 := tru_modes "quadrature"
  simp only [Prod.mk.injEq] at h1 h2 h3
  have a1 : (truSpec "quadrature" m).num_periods = 3 := by rw [truSpec_refined]; exact h1.1
  have a4 : (truSpec "quadrature" m).educ_years = [0, 1] := by rw [truSpec_refined]; exact h1.2.2.2
  have a5 : (truSpec "quadrature" m).num_agents_sim = 5 := by rw [truSpec_refined]; exact h2.2.2.2.2
  have a7 : (truSpec "quadrature" m).last_child_bearing_period = 1 := by rw [truSpec_refined]; exact h2.2.2.2.1
  have a9 : (truSpec "quadrature" m).integration_method = "quadrature" := by rw [truSpec_refined]; exact h3.1
  have a11 : (truSpec "quadrature" m).seed_sim = 1 := by krfl
  have hf : (truSpec "quadrature" m).files = ⟨"educ", "ages", "partner", "ft", "pt", "child", "sep", "arr"⟩ := by
    rw [truSpec_refined]; exact tru_files _
  have hr : Rules2007 (truSpec "quadrature" m) := by
    have := (truSolvent "quadrature").rules
    rw [truSpec_refined]
    exact ⟨this.tax, this.rate0, this.rate1, this.cap⟩
  have hu := truUsable "quadrature" m
  have hlast : -1 ≤ (truSpec "quadrature" m).last_child_bearing_period := by rw [a7]; decide
  choose rows hrows using fun ω => truOutput "quadrature" (table_laws ω) (Or.inl rfl) m g biased false
  have hed : Spec.drawnEducation (withNormals (altRng ℝ) gaussRules truDisk (tableNormals ω0)) (truSpec "quadrature" m)
      = [1, 0, 1, 0, 1] := by
    unfold Spec.drawnEducation
    rw [a5, a11, hf]
    have ho : options [(1/2 : ℝ), 1/2] = [0, 1] := by
      unfold options
      simp [List.range_succ]
    show ((List.range 5).map fun j => (options [(1/2 : ℝ), 1/2]).getD ((j + 1) % (options [(1/2 : ℝ), 1/2]).length) 0) = _
    rw [ho]
    rfl
  have hent : Spec.entryYear (withNormals (altRng ℝ) gaussRules truDisk (tableNormals ω0)) (truSpec "quadrature" m) 1 = some 0 := by
    unfold Spec.entryYear
    rw [hed, a4]
    rfl
  have hmem : Spec.entrant (withNormals (altRng ℝ) gaussRules truDisk (tableNormals ω0)) truPar (truSpec "quadrature" m) 1
      ∈ Spec.entrants (withNormals (altRng ℝ) gaussRules truDisk (tableNormals ω0)) truPar (truSpec "quadrature" m) 0 :=
    List.mem_map.2 ⟨1, List.mem_filter.2 ⟨List.mem_range.2 (by rw [a5]; decide), decide_eq_true hent⟩, rfl⟩
  obtain ⟨k, hk⟩ := List.mem_iff_getElem?.1 hmem
  choose b hb hbi using fun j => subject_stays (env := withNormals (altRng ℝ) gaussRules truDisk (tableNormals ω0))
    (par := truPar) (spec := truSpec "quadrature" m) (biased := biased) (t := 0) (i := 1) hk rfl j
  obtain ⟨career, hcareer⟩ : ∃ career : ℕ → OutRow ℝ, ∀ j, career j
      = Spec.entryOf (withNormals (altRng ℝ) gaussRules truDisk (tableNormals ω0)) truPar (truSpec "quadrature" m) biased k (b j) :=
    ⟨_, fun _ => rfl⟩
  have hcar : ∀ j < 3, career j ∈ rows ω0 ∧ (career j).id = ((1 : ℕ) : ℤ) ∧ (career j).period = ((0 + j : ℕ) : ℤ) := by
    intro j hj
    rw [C69_rows (hrows ω0) hu hlast]
    exact panel_mem.2 ⟨by rw [a1]; omega, k, b j, hb j, hbi j, hcareer j⟩
  have hZ : ∀ (ω : ℕ × ℕ → ℝ) (t k : ℕ), k < 5 →
      ((Spec.normalDraws (withNormals (altRng ℝ) gaussRules truDisk (tableNormals ω)) (truSpec "quadrature" m)).getD t []).getD k 0
      = if t < 3 then ω (t, k) else 0 := by
    intro ω t k hk
    unfold Spec.normalDraws
    rw [a1, a5]
    show ((((List.range 3).map fun i => (List.range 5).map fun j => ω (i, j)) : List (List ℝ)).getD t []).getD k 0 = _
    split_ifs with ht
    · simp [List.getD_eq_getElem?_getD, ht, hk]
    · simp [List.getD_eq_getElem?_getD, ht]
  have hmain := C113_likelihood (P := Measure.infinitePi (fun _ : ℕ × ℕ => gaussianReal 0 1)) (N := tableNormals)
    (base := altRng ℝ) (hermite := gaussRules) (disk := truDisk) (biased := biased) hr hu hlast (fun _ _ => rfl)
    (fun ω ω' => by unfold Spec.nodes; simp only [a9, if_true])
    (by
      intro t ht k hk
      rw [a1] at ht
      rw [a5] at hk
      simp only [hZ _ t k hk, if_pos ht]
      exact ⟨measurable_pi_apply _, Measure.infinitePi_map_eval _ _⟩)
    (by
      intro k hk
      rw [a5] at hk
      simp only [hZ _ _ k hk]
      have := (iIndepFun_infinitePi (P := fun _ : ℕ × ℕ => gaussianReal 0 1) (X := fun p z => if p.1 < 3 then z else 0)
        (fun p => by split_ifs; exacts [measurable_id, measurable_const])).precomp (g := fun t : ℕ => (t, k))
        (fun a b h => (Prod.mk.inj h).1)
      exact this)
    (rows := rows) (fun ω => ⟨_, _, _, hrows ω⟩) ω0 hent (n := 3) hcar
  simp only [Nat.zero_add] at hcar hmain
  rw [par_sd] at hmain
  exact ⟨career, rows, hrows, hcar, hmain⟩

theorem entrant_present {S : Type} {env : Env S ℝ} {par : ModelParams ℝ} {spec : ModelSpec ℝ} {biased : Bool} {t : ℕ}
    {a : Spec.Subject ℝ} (h : a ∈ Spec.entrants env par spec t) : a ∈ (Spec.population env par spec biased t).1 := by
  cases t with
  | zero => exact h
  | succ t => exact List.mem_append_right _ h

/-- The hypotheses of C114 are met: independent normal numbers for all periods and agents, and the whole data frame that
belongs to the numbers `ω0`, with two agents who enter in period 0 and three who enter in period 1. -/
example (m g : Nat) (biased : Bool) (ω0 : ℕ × ℕ → ℝ) : ∃ (career : ℕ → ℕ → OutRow ℝ) (rows : (ℕ × ℕ → ℝ) → List (OutRow ℝ)),
    (∀ ω, Spec.Output (withNormals (altRng ℝ) gaussRules truDisk (tableNormals ω)) truFrame 0 biased false
      { rng := g, store := truStore "quadrature" m } truPar (truSpec "quadrature" m) (rows ω)) ∧
    (∀ i ∈ Finset.range 5, ∀ j : ℕ, j < 2 + i % 2 → career i j ∈ rows ω0 ∧ (career i j).id = i ∧
      (career i j).period = ((1 - i % 2 + j : ℕ) : ℤ)) ∧
    Measure.infinitePi (fun _ : ℕ × ℕ => gaussianReal 0 1) {ω | ∀ i ∈ Finset.range 5, ∀ j < 2 + i % 2, ∃ r ∈ rows ω, r.id = i ∧
        r.period = ((1 - i % 2 + j : ℕ) : ℤ) ∧
        Spec.stateOf r = Spec.stateOf (career i j) ∧ r.stock = (career i j).stock ∧ r.choice = (career i j).choice}
      = ∏ i ∈ Finset.range 5, ∏ j ∈ Finset.range (2 + i % 2), gaussianReal 0 1 {z | ((choiceAt (withNormals (altRng ℝ) gaussRules
          truDisk (tableNormals ω0)) truPar (truSpec "quadrature" m) biased (Spec.stateOf (career i j)) (career i j).stock
          (z * (1/4)) : ℕ) : ℤ) = (career i j).choice} := by
  have h1 := tru_sizes "quadrature"
  have h2 := tru_limits "quadrature"
  have h3 := tru_modes "quadrature"
  simp only [Prod.mk.injEq] at h1 h2 h3
  have a1 : (truSpec "quadrature" m).num_periods = 3 := by rw [truSpec_refined]; exact h1.1
  have a4 : (truSpec "quadrature" m).educ_years = [0, 1] := by rw [truSpec_refined]; exact h1.2.2.2
  have a5 : (truSpec "quadrature" m).num_agents_sim = 5 := by rw [truSpec_refined]; exact h2.2.2.2.2
  have a7 : (truSpec "quadrature" m).last_child_bearing_period = 1 := by rw [truSpec_refined]; exact h2.2.2.2.1
  have a9 : (truSpec "quadrature" m).integration_method = "quadrature" := by rw [truSpec_refined]; exact h3.1
  have a11 : (truSpec "quadrature" m).seed_sim = 1 := by krfl
  have hf : (truSpec "quadrature" m).files = ⟨"educ", "ages", "partner", "ft", "pt", "child", "sep", "arr"⟩ := by
    rw [truSpec_refined]; exact tru_files _
  have hr : Rules2007 (truSpec "quadrature" m) := by
    have := (truSolvent "quadrature").rules
    rw [truSpec_refined]
    exact ⟨this.tax, this.rate0, this.rate1, this.cap⟩
  have hu := truUsable "quadrature" m
  have hlast : -1 ≤ (truSpec "quadrature" m).last_child_bearing_period := by rw [a7]; decide
  choose rows hrows using fun ω => truOutput "quadrature" (table_laws ω) (Or.inl rfl) m g biased false
  have hed : Spec.drawnEducation (withNormals (altRng ℝ) gaussRules truDisk (tableNormals ω0)) (truSpec "quadrature" m)
      = [1, 0, 1, 0, 1] := by
    unfold Spec.drawnEducation
    rw [a5, a11, hf]
    have ho : options [(1/2 : ℝ), 1/2] = [0, 1] := by
      unfold options
      simp [List.range_succ]
    show ((List.range 5).map fun j => (options [(1/2 : ℝ), 1/2]).getD ((j + 1) % (options [(1/2 : ℝ), 1/2]).length) 0) = _
    rw [ho]
    rfl
  have hent : ∀ i ∈ Finset.range 5, Spec.entryYear (withNormals (altRng ℝ) gaussRules truDisk (tableNormals ω0))
      (truSpec "quadrature" m) i = some (1 - i % 2) := by
    intro i hi
    have hi := Finset.mem_range.1 hi
    unfold Spec.entryYear
    rw [hed, a4]
    interval_cases i <;> rfl
  have hmem : ∀ i ∈ Finset.range 5, ∃ k, (Spec.population (withNormals (altRng ℝ) gaussRules truDisk (tableNormals ω0)) truPar
      (truSpec "quadrature" m) biased (1 - i % 2)).1[k]?
      = some (Spec.entrant (withNormals (altRng ℝ) gaussRules truDisk (tableNormals ω0)) truPar (truSpec "quadrature" m) i) :=
    fun i hi => List.mem_iff_getElem?.1 (entrant_present (List.mem_map.2 ⟨i, List.mem_filter.2
      ⟨List.mem_range.2 (by rw [a5]; exact Finset.mem_range.1 hi), decide_eq_true (hent i hi)⟩, rfl⟩))
  choose! k hk using hmem
  have : Nonempty (Spec.Subject ℝ) :=
    ⟨Spec.entrant (withNormals (altRng ℝ) gaussRules truDisk (tableNormals ω0)) truPar (truSpec "quadrature" m) 0⟩
  choose! b hb hbi using fun i (hi : i ∈ Finset.range 5) => fun j => subject_stays (hk i hi) (i := i) rfl j
  obtain ⟨career, hcareer⟩ : ∃ career : ℕ → ℕ → OutRow ℝ, ∀ i j, career i j
      = Spec.entryOf (withNormals (altRng ℝ) gaussRules truDisk (tableNormals ω0)) truPar (truSpec "quadrature" m) biased (k i) (b i j) :=
    ⟨_, fun _ _ => rfl⟩
  have hcar : ∀ i ∈ Finset.range 5, ∀ j < 2 + i % 2, career i j ∈ rows ω0 ∧ (career i j).id = i ∧
      (career i j).period = ((1 - i % 2 + j : ℕ) : ℤ) := by
    intro i hi j hj
    rw [C69_rows (hrows ω0) hu hlast]
    exact panel_mem.2 ⟨by rw [a1]; omega, k i, b i j, hb i hi j, hbi i hi j, hcareer i j⟩
  have hZ : ∀ (ω : ℕ × ℕ → ℝ) (t k : ℕ), 
      ((Spec.normalDraws (withNormals (altRng ℝ) gaussRules truDisk (tableNormals ω)) (truSpec "quadrature" m)).getD t []).getD k 0
      = if t < 3 ∧ k < 5 then ω (t, k) else 0 := by
    intro ω t k
    unfold Spec.normalDraws
    rw [a1, a5]
    show ((((List.range 3).map fun i => (List.range 5).map fun j => ω (i, j)) : List (List ℝ)).getD t []).getD k 0 = _
    split_ifs with ht
    · simp [List.getD_eq_getElem?_getD, ht.1, ht.2]
    · by_cases h : t < 3
      · have hk : ¬ k < 5 := fun hk => ht ⟨h, hk⟩
        simp [List.getD_eq_getElem?_getD, h, hk]
      · simp [List.getD_eq_getElem?_getD, h]
  have hmain := C114_panel (P := Measure.infinitePi (fun _ : ℕ × ℕ => gaussianReal 0 1)) (N := tableNormals)
    (base := altRng ℝ) (hermite := gaussRules) (disk := truDisk) (biased := biased) hr hu hlast (fun _ _ => rfl)
    (fun ω ω' => by unfold Spec.nodes; simp only [a9, if_true])
    (by
      intro t ht k hk
      rw [a1] at ht
      rw [a5] at hk
      simp only [hZ _ t k, if_pos (And.intro ht hk)]
      exact ⟨measurable_pi_apply _, Measure.infinitePi_map_eval _ _⟩)
    (by
      simp only [hZ]
      exact iIndepFun_infinitePi (P := fun _ : ℕ × ℕ => gaussianReal 0 1) (X := fun p z => if p.1 < 3 ∧ p.2 < 5 then z else 0)
        (fun p => by split_ifs; exacts [measurable_id, measurable_const]))
    (rows := rows) (fun ω => ⟨_, _, _, hrows ω⟩) ω0 (Finset.range 5) hent hcar
  rw [par_sd] at hmain
  exact ⟨career, rows, hrows, hcar, hmain⟩

end Soepy.Props
