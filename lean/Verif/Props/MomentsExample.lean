import Verif.Props.Moments
import Verif.Props.LikelihoodExample

/-! # C117: example -/

set_option linter.unusedSectionVars false

namespace Soepy.Props
open Soepy MeasureTheory ProbabilityTheory

open Classical in
/-- The hypotheses of C117 are met: independent normal numbers and all five agents, who enter in different periods. -/
example (m g : Nat) (biased : Bool) (H : Set (ℕ → Set (State × ℝ × ℤ))) : ∃ rows : (ℕ × ℕ → ℝ) → List (OutRow ℝ),
    (∀ ω, Spec.Output (withNormals (altRng ℝ) gaussRules truDisk (tableNormals ω)) truFrame 0 biased false
      { rng := g, store := truStore "quadrature" m } truPar (truSpec "quadrature" m) (rows ω)) ∧
    Measure.infinitePi (fun _ : ℕ × ℕ => gaussianReal 0 1) {ω | ∀ i ∈ Finset.range 5, history (rows ω) i ∈ H}
      = ∏ i ∈ Finset.range 5, Measure.infinitePi (fun _ : ℕ × ℕ => gaussianReal 0 1) {ω | history (rows ω) i ∈ H} ∧
    (Measure.infinitePi (fun _ : ℕ × ℕ => gaussianReal 0 1)).real
        {ω | (9/10 : ℝ) ≤ |(((Finset.range 5).filter fun i => history (rows ω) i ∈ H).card : ℝ) / (Finset.range 5).card
          - (∑ i ∈ Finset.range 5, (Measure.infinitePi (fun _ : ℕ × ℕ => gaussianReal 0 1)).real {ω | history (rows ω) i ∈ H})
            / (Finset.range 5).card|}
      ≤ 2 * Real.exp (-2 * (Finset.range 5).card * (9/10) ^ 2) := by
  have h1 := tru_sizes "quadrature"
  have h2 := tru_limits "quadrature"
  have h3 := tru_modes "quadrature"
  simp only [Prod.mk.injEq] at h1 h2 h3
  have a1 : (truSpec "quadrature" m).num_periods = 3 := by rw [truSpec_refined]; exact h1.1
  have a4 : (truSpec "quadrature" m).educ_years = [0, 1] := by rw [truSpec_refined]; exact h1.2.2.2
  have a5 : (truSpec "quadrature" m).num_agents_sim = 5 := by rw [truSpec_refined]; exact h2.2.2.2.2
  have a7 : (truSpec "quadrature" m).last_child_bearing_period = 1 := by rw [truSpec_refined]; exact h2.2.2.2.1
  have a9 : (truSpec "quadrature" m).integration_method = "quadrature" := by rw [truSpec_refined]; exact h3.1
  have a11 : (truSpec "quadrature" m).seed_sim = 1 := by krfl
  have hf : (truSpec "quadrature" m).files = ⟨"educ", "ages", "partner", "ft", "pt", "child", "sep", "arr"⟩ := by
    rw [truSpec_refined]; exact tru_files _
  have hr : Rules2007 (truSpec "quadrature" m) := by
    have := (truSolvent "quadrature").rules
    rw [truSpec_refined]
    exact ⟨this.tax, this.rate0, this.rate1, this.cap⟩
  have hu := truUsable "quadrature" m
  have hlast : -1 ≤ (truSpec "quadrature" m).last_child_bearing_period := by rw [a7]; decide
  choose rows hrows using fun ω => truOutput "quadrature" (table_laws ω) (Or.inl rfl) m g biased false
  have hZ : ∀ (ω : ℕ × ℕ → ℝ) (t k : ℕ), 
      ((Spec.normalDraws (withNormals (altRng ℝ) gaussRules truDisk (tableNormals ω)) (truSpec "quadrature" m)).getD t []).getD k 0
      = if t < 3 ∧ k < 5 then ω (t, k) else 0 := by
    intro ω t k
    unfold Spec.normalDraws
    rw [a1, a5]
    show ((((List.range 3).map fun i => (List.range 5).map fun j => ω (i, j)) : List (List ℝ)).getD t []).getD k 0 = _
    split_ifs with ht
    · simp [List.getD_eq_getElem?_getD, ht.1, ht.2]
    · by_cases h : t < 3
      · have hk : ¬ k < 5 := fun hk => ht ⟨h, hk⟩
        simp [List.getD_eq_getElem?_getD, h, hk]
      · simp [List.getD_eq_getElem?_getD, h]
  have hlaw : ∀ t < (truSpec "quadrature" m).num_periods, ∀ k < (truSpec "quadrature" m).num_agents_sim,
      Measurable (fun ω => ((Spec.normalDraws (withNormals (altRng ℝ) gaussRules truDisk (tableNormals ω))
        (truSpec "quadrature" m)).getD t []).getD k 0) := by
    intro t ht k hk
    rw [a1] at ht
    rw [a5] at hk
    simp only [hZ _ t k, if_pos (And.intro ht hk)]
    exact measurable_pi_apply _
  have hindep : iIndepFun (fun (p : ℕ × ℕ) ω => ((Spec.normalDraws
      (withNormals (altRng ℝ) gaussRules truDisk (tableNormals ω)) (truSpec "quadrature" m)).getD p.1 []).getD p.2 0)
      (Measure.infinitePi (fun _ : ℕ × ℕ => gaussianReal 0 1)) := by
    simp only [hZ]
    exact iIndepFun_infinitePi (P := fun _ : ℕ × ℕ => gaussianReal 0 1) (X := fun p z => if p.1 < 3 ∧ p.2 < 5 then z else 0)
      (fun p => by split_ifs; exacts [measurable_id, measurable_const])
  have hin : ∀ i ∈ Finset.range 5, ∃ r ∈ rows 0, r.id = (i : ℤ) := by
    intro i hi
    have hi5 : i < 5 := Finset.mem_range.1 hi
    have hed : Spec.drawnEducation (withNormals (altRng ℝ) gaussRules truDisk (tableNormals 0)) (truSpec "quadrature" m)
        = [1, 0, 1, 0, 1] := by
      unfold Spec.drawnEducation
      rw [a5, a11, hf]
      have ho : options [(1/2 : ℝ), 1/2] = [0, 1] := by
        unfold options
        simp [List.range_succ]
      show ((List.range 5).map fun j => (options [(1/2 : ℝ), 1/2]).getD ((j + 1) % (options [(1/2 : ℝ), 1/2]).length) 0) = _
      rw [ho]
      rfl
    obtain ⟨t0, ht0, hent⟩ : ∃ t0 < 3,
        Spec.entryYear (withNormals (altRng ℝ) gaussRules truDisk (tableNormals 0)) (truSpec "quadrature" m) i = some t0 := by
      unfold Spec.entryYear
      rw [hed, a4]
      interval_cases i
      · exact ⟨1, by decide, rfl⟩
      · exact ⟨0, by decide, rfl⟩
      · exact ⟨1, by decide, rfl⟩
      · exact ⟨0, by decide, rfl⟩
      · exact ⟨1, by decide, rfl⟩
    obtain ⟨k, hk⟩ := List.mem_iff_getElem?.1 (entrant_there (biased := biased) (par := truPar) (List.mem_map.2 ⟨i,
      List.mem_filter.2 ⟨List.mem_range.2 (by rw [a5]; exact hi5), decide_eq_true hent⟩, rfl⟩))
    obtain ⟨hr, h1, h2⟩ := panel_mem.2 ⟨by rw [a1]; exact ht0, k, _, hk, rfl, rfl⟩
    exact ⟨_, by rw [C69_rows (hrows 0) hu hlast]; exact hr, h1⟩
  refine ⟨rows, hrows, ?_, ?_⟩
  · exact (C117_independent_careers (P := Measure.infinitePi (fun _ : ℕ × ℕ => gaussianReal 0 1)) (N := tableNormals)
      (base := altRng ℝ) (hermite := gaussRules) (disk := truDisk) (biased := biased) hr hu hlast (fun _ _ => rfl)
      (fun ω ω' => by unfold Spec.nodes; simp only [a9, if_true]) hlaw hindep
      (rows := rows) (fun ω => ⟨_, _, _, hrows ω⟩) 0 (Finset.range 5) hin fun _ => H).2
  · exact C117_simulated_moments (P := Measure.infinitePi (fun _ : ℕ × ℕ => gaussianReal 0 1)) (N := tableNormals)
      (base := altRng ℝ) (hermite := gaussRules) (disk := truDisk) (biased := biased) hr hu hlast (fun _ _ => rfl)
      (fun ω ω' => by unfold Spec.nodes; simp only [a9, if_true]) hlaw hindep
      (rows := rows) (fun ω => ⟨_, _, _, hrows ω⟩) 0 (agents := Finset.range 5) ⟨0, by simp⟩ hin H (by norm_num)

end Soepy.Props
