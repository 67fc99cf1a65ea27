import Verif.Props.Indifference
import Verif.Props.MachinePanelExample
import Mathlib.Probability.Distributions.Gaussian.Real

/-! # C111: example -/

set_option linter.unusedSectionVars false

namespace Soepy.Props
open Soepy MeasureTheory ProbabilityTheory

/-- A generator all of whose normal numbers are the same. -/
noncomputable def sameRng (ω : ℝ) : Rng Nat ℝ :=
  { altRng ℝ with normal := fun g n m => (List.replicate n (List.replicate m ω), g + 1) }

theorem sameRng_laws (ω : ℝ) : RngLaws (sameRng ω) := by
  have h : RngLaws (altRng ℝ) := altRng_laws
  refine ⟨h.choice_length, h.choice_pos, h.binomial_length, h.binomial_le, h.binomial_zero, h.binomial_one, ?_, ?_⟩
  · intro g n m
    exact List.length_replicate
  · intro g n m row hrow
    rw [List.eq_of_mem_replicate hrow]
    exact List.length_replicate

/-- The hypotheses of C111 are met: one draw of the standard normal distribution for everybody, agents plan by quadrature,
the simulation runs for every draw, and almost surely nobody in its data is indifferent above the smallest number. -/
example (m g : Nat) (biased : Bool) : ∀ᵐ ω ∂(gaussianReal 0 1), ∃ rows,
    Spec.Output (truEnv (sameRng ω)) truFrame 0 biased false { rng := g, store := truStore "quadrature" m } truPar
      (truSpec "quadrature" m) rows ∧ rows ≠ [] ∧
    ∀ r ∈ rows, ∃ d, r.detail = some d ∧ ∀ j ≠ 0, d.value j = d.value 0 →
      Spec.simResources (truSpec "quadrature" m) truPar (Spec.stateOf r) r.stock
        (Spec.shock (truEnv (sameRng ω)) truPar (truSpec "quadrature" m) r) j = 1 / 2 ^ 52 := by
  have h2 := tru_limits "quadrature"
  have h3 := tru_modes "quadrature"
  simp only [Prod.mk.injEq] at h2 h3
  have a7 : (truSpec "quadrature" m).last_child_bearing_period = 1 := by rw [truSpec_refined]; exact h2.2.2.2.1
  have a8 : (truSpec "quadrature" m).elasticity_scale = ((1 : ℤ) : ℝ) := by krfl
  have a9 : (truSpec "quadrature" m).integration_method = "quadrature" := by rw [truSpec_refined]; exact h3.1
  have hr : Rules2007 (truSpec "quadrature" m) := by
    have := (truSolvent "quadrature").rules
    rw [truSpec_refined]
    exact ⟨this.tax, this.rate0, this.rate1, this.cap⟩
  have : NullSingletonClass (gaussianReal 0 1) := nullSingletonClass_gaussianReal one_ne_zero
  have hall := C111_nobody_is_indifferent (P := gaussianReal 0 1) (rng := sameRng) (hermite := gaussRules) (disk := truDisk)
    (spec := truSpec "quadrature" m) (par := truPar) (by rw [par_mu]; norm_num) hr (by rw [a8]; norm_num)
    (by rw [par_sd]; norm_num) (truUsable "quadrature" m) (by rw [a7]; decide)
    (by
      intro ω ω'
      unfold Spec.nodes
      simp only [a9, if_true])
    (by
      intro t ht k hk y
      have hd : ∀ ω, ((Spec.normalDraws ⟨sameRng ω, gaussRules, truDisk⟩ (truSpec "quadrature" m)).getD t []).getD k 0 = ω := by
        intro ω
        unfold Spec.normalDraws sameRng
        simp [List.getD_eq_getElem?_getD, ht, hk]
      simp only [hd, Set.ofPred_eq_eq_singleton]
      exact measure_singleton y) biased
  filter_upwards [hall] with ω hω
  obtain ⟨rows, ho⟩ := truOutput "quadrature" (sameRng_laws ω) (Or.inl rfl) m g biased false
  refine ⟨rows, ho, ?_, hω _ _ _ _ ho⟩
  obtain ⟨r, hr, -⟩ := truRow _ ho
  exact List.ne_nil_of_mem hr

end Soepy.Props
