import Mathlib.Probability.Distributions.Gaussian.Real
import Mathlib.MeasureTheory.Measure.LevyConvergence
import Mathlib.Analysis.Calculus.ParametricIntervalIntegral
import Mathlib.MeasureTheory.Integral.IntervalIntegral.FundThmCalculus
import Mathlib.Analysis.Normed.Group.Tannery
import Mathlib.Algebra.Polynomial.BigOperators
import Mathlib.Algebra.Polynomial.Eval.Degree

/-! Quadrature rules with `n` nodes that integrate polynomials of degree less than `2 n` exactly converge, for normal
shocks and integrands with finitely many jumps that grow at most exponentially. -/

set_option linter.unusedSectionVars false

namespace Soepy
open MeasureTheory ProbabilityTheory Polynomial Filter Topology

/-! ## Interpolation from below -/

/-- All derivatives exist and are nonnegative. -/
def Monot (f : ℝ → ℝ) : Prop :=
  ∃ F : ℕ → ℝ → ℝ, F 0 = f ∧ ∀ j x, HasDerivAt (F j) (F (j + 1) x) x ∧ 0 ≤ F j x

theorem Monot.nonneg {f : ℝ → ℝ} (hf : Monot f) (x : ℝ) : 0 ≤ f x := by
  obtain ⟨F, rfl, h⟩ := hf
  exact (h 0 x).2

theorem Monot.exp {a : ℝ} (ha : 0 ≤ a) : Monot fun x => Real.exp (a * x) := by
  refine ⟨fun j x => a ^ j * Real.exp (a * x), by simp, fun j x => ⟨?_, by positivity⟩⟩
  have h := (((hasDerivAt_id x).const_mul a).exp).const_mul (a ^ j)
  refine h.congr_deriv ?_
  simp only [id, mul_one]
  ring

/-- Difference quotients keep the property. -/
theorem Monot.quotient {f : ℝ → ℝ} (hf : Monot f) (y : ℝ) :
    ∃ g, Monot g ∧ ∀ x, f x = f y + (x - y) * g x := by
  obtain ⟨F, rfl, h⟩ := hf
  have hc : ∀ j, Continuous (F j) := fun j =>
    continuous_iff_continuousAt.2 fun x => (h j x).1.continuousAt
  have hcc : ∀ j k, Continuous fun q : ℝ × ℝ => q.2 ^ k * F j (y + q.2 * (q.1 - y)) := fun j k => by
    have := hc j
    fun_prop
  refine ⟨fun x => ∫ t in (0 : ℝ)..1, F 1 (y + t * (x - y)), ⟨fun j x => ∫ t in (0 : ℝ)..1,
    t ^ j * F (j + 1) (y + t * (x - y)), by simp, fun j x => ⟨?_, ?_⟩⟩, ?_⟩
  · have hcont : ∀ x', Continuous fun t : ℝ => t ^ j * F (j + 1) (y + t * (x' - y)) := fun x' => by
      have := hc (j + 1)
      fun_prop
    have hcont' : Continuous fun t : ℝ => t ^ (j + 1) * F (j + 2) (y + t * (x - y)) := by
      have := hc (j + 2)
      fun_prop
    have hK : IsCompact (Set.Icc (x - 1) (x + 1) ×ˢ Set.Icc (0 : ℝ) 1) := isCompact_Icc.prod isCompact_Icc
    obtain ⟨B, hB⟩ := hK.exists_bound_of_continuousOn (hcc (j + 2) (j + 1)).continuousOn
    refine (intervalIntegral.hasDerivAt_integral_of_dominated_loc_of_deriv_le (bound := fun _ => B)
      (F := fun x' t => t ^ j * F (j + 1) (y + t * (x' - y)))
      (F' := fun x' t => t ^ (j + 1) * F (j + 2) (y + t * (x' - y))) (s := Set.Icc (x - 1) (x + 1))
      (Icc_mem_nhds (by linarith) (by linarith))
      (Eventually.of_forall fun x' => (hcont x').aestronglyMeasurable) ((hcont x).intervalIntegrable _ _)
      hcont'.aestronglyMeasurable ?_ (intervalIntegrable_const) ?_).2
    · refine Eventually.of_forall fun t ht x' hx' => ?_
      rw [Set.uIoc_of_le zero_le_one] at ht
      exact hB (x', t) ⟨hx', ht.1.le, ht.2⟩
    · refine Eventually.of_forall fun t ht x' hx' => ?_
      have h1 : HasDerivAt (fun x' => y + t * (x' - y)) t x' := by
        simpa using (((hasDerivAt_id x').sub_const y).const_mul t).const_add y
      have h2 := ((h (j + 1) (y + t * (x' - y))).1.comp x' h1).const_mul (t ^ j)
      refine h2.congr_deriv ?_
      ring
  · refine intervalIntegral.integral_nonneg zero_le_one fun t ht => ?_
    exact mul_nonneg (pow_nonneg ht.1 _) (h _ _).2
  · intro x
    have h1 : ∀ t ∈ Set.uIcc (0 : ℝ) 1, HasDerivAt (fun t => F 0 (y + t * (x - y)))
        ((x - y) * F 1 (y + t * (x - y))) t := fun t _ => by
      have h1 : HasDerivAt (fun t : ℝ => y + t * (x - y)) (x - y) t := by
        simpa using ((hasDerivAt_id t).mul_const (x - y)).const_add y
      refine ((h 0 (y + t * (x - y))).1.comp t h1).congr_deriv ?_
      ring
    have hi : IntervalIntegrable (fun t => (x - y) * F 1 (y + t * (x - y))) volume 0 1 := by
      have := hc 1
      exact (by fun_prop : Continuous fun t : ℝ => (x - y) * F 1 (y + t * (x - y))).intervalIntegrable _ _
    have h2 := intervalIntegral.integral_eq_sub_of_hasDerivAt h1 hi
    rw [intervalIntegral.integral_const_mul] at h2
    rw [h2]
    simp

/-- Newton interpolation with a nonnegative remainder. -/
theorem Monot.newton : ∀ (l : List ℝ) {f : ℝ → ℝ}, Monot f → ∃ (p : ℝ[X]) (g : ℝ → ℝ), (∀ x, 0 ≤ g x) ∧
    p.degree < l.length ∧ ∀ x, f x = p.eval x + (l.map fun y => x - y).prod * g x
  | [], f, hf => ⟨0, f, hf.nonneg, by simp, fun x => by simp⟩
  | y :: l, f, hf => by
    obtain ⟨g, hg, h⟩ := hf.quotient y
    obtain ⟨p, r, hr, hp, h'⟩ := Monot.newton l hg
    refine ⟨C (f y) + (X - C y) * p, r, hr, ?_, fun x => ?_⟩
    · rw [List.length_cons]
      refine (degree_add_le _ _).trans_lt (max_lt ?_ ?_)
      · exact (degree_C_le).trans_lt (by exact_mod_cast Nat.succ_pos _)
      · rw [degree_mul, degree_X_sub_C, add_comm]
        rcases eq_or_ne p 0 with rfl | hp0
        · rw [degree_zero]; exact WithBot.bot_lt_coe _
        · rw [degree_eq_natDegree hp0] at hp ⊢
          exact_mod_cast Nat.succ_lt_succ (by exact_mod_cast hp)
    · rw [h x, h' x]
      simp only [eval_add, eval_C, eval_mul, eval_sub, eval_X, List.map_cons, List.prod_cons]
      ring

/-! ## Rules -/

/-- A discrete distribution with at most `n` nodes that has the first `2 n - 1` moments of the normal
distribution. -/
structure Gauss (n : ℕ) (ν : Measure ℝ) : Prop where
  prob : IsProbabilityMeasure ν
  nodes : ∃ l : List ℝ, l.length = n ∧ ∀ᵐ x ∂ν, x ∈ l
  exact : ∀ p : ℝ[X], p.degree < (2 * n : ℕ) → ∫ x, p.eval x ∂ν = ∫ x, p.eval x ∂gaussianReal 0 1

theorem Gauss.integrable {n : ℕ} {ν : Measure ℝ} (h : Gauss n ν) {f : ℝ → ℝ} (hf : Measurable f) :
    Integrable f ν := by
  obtain ⟨l, -, hl⟩ := h.nodes
  have := h.prob
  refine Integrable.of_bound hf.aestronglyMeasurable ((l.map fun x => |f x|).sum) ?_
  filter_upwards [hl] with x hx
  exact List.single_le_sum (by simp) _ (List.mem_map.2 ⟨x, hx, rfl⟩)

theorem gauss_poly_integrable (p : ℝ[X]) : Integrable (fun x => p.eval x) (gaussianReal 0 1) := by
  induction p using Polynomial.induction_on' with
  | add p q hp hq =>
    simp only [eval_add]
    exact hp.add hq
  | monomial k a =>
    simp only [eval_monomial]
    refine Integrable.const_mul ?_ _
    have := (memLp_id_gaussianReal (μ := 0) (v := 1) (k : NNReal)).integrable_norm_pow'
    refine (integrable_norm_iff (by fun_prop)).1 ?_
    simpa using this

theorem Gauss.neg {n : ℕ} {ν : Measure ℝ} (h : Gauss n ν) : Gauss n (ν.map fun x => -x) := by
  have := h.prob
  have hm : AEMeasurable (fun x : ℝ => -x) ν := measurable_neg.aemeasurable
  refine ⟨Measure.isProbabilityMeasure_map hm, ?_, fun p hp => ?_⟩
  · obtain ⟨l, rfl, hl⟩ := h.nodes
    refine ⟨l.map fun x => -x, by simp, ?_⟩
    rw [ae_map_iff hm (by
      have : {x | x ∈ l.map fun x : ℝ => -x} = ((l.map fun x : ℝ => -x).toFinset : Set ℝ) := by ext; simp
      rw [this]; exact Finset.measurableSet _)]
    filter_upwards [hl] with x hx
    exact List.mem_map.2 ⟨x, hx, rfl⟩
  · have hq : (p.comp (-X)).degree < (2 * n : ℕ) := by
      refine lt_of_le_of_lt ?_ hp
      rcases eq_or_ne p 0 with rfl | hp0
      · simp
      · rw [degree_eq_natDegree hp0]
        refine degree_le_of_natDegree_le ?_
        rw [natDegree_comp]; simp
    have h1 := h.exact _ hq
    simp only [eval_comp, eval_neg, eval_X] at h1
    rw [integral_map hm (by fun_prop), h1]
    conv_rhs => rw [← neg_zero (G := ℝ), ← gaussianReal_map_neg, integral_map (by fun_prop) (by fun_prop)]

/-- Exponential moments of a rule are at most those of the normal distribution. -/
theorem Gauss.exp_le_of_nonneg {n : ℕ} {ν : Measure ℝ} (h : Gauss n ν) {a : ℝ} (ha : 0 ≤ a) :
    ∫ x, Real.exp (a * x) ∂ν ≤ ∫ x, Real.exp (a * x) ∂gaussianReal 0 1 := by
  obtain ⟨l, rfl, hl⟩ := h.nodes
  obtain ⟨p, g, hg, hp, hpg⟩ := (Monot.exp ha).newton (l ++ l)
  have hν : ∫ x, Real.exp (a * x) ∂ν = ∫ x, p.eval x ∂ν := by
    refine integral_congr_ae ?_
    filter_upwards [hl] with x hx
    rw [hpg x, List.prod_eq_zero (List.mem_map.2 ⟨x, List.mem_append_left _ hx, sub_self x⟩), zero_mul, add_zero]
  rw [hν, h.exact p (by simpa [two_mul] using hp)]
  refine integral_mono (gauss_poly_integrable p) (integrable_exp_mul_gaussianReal a) fun x => ?_
  dsimp only
  rw [hpg x, List.map_append, List.prod_append]
  nlinarith [mul_nonneg (mul_self_nonneg (l.map fun y => x - y).prod) (hg x)]

theorem Gauss.exp_le {n : ℕ} {ν : Measure ℝ} (h : Gauss n ν) (a : ℝ) :
    ∫ x, Real.exp (a * x) ∂ν ≤ ∫ x, Real.exp (a * x) ∂gaussianReal 0 1 := by
  rcases le_total 0 a with ha | ha
  · exact h.exp_le_of_nonneg ha
  · have h1 := h.neg.exp_le_of_nonneg (a := -a) (by linarith)
    rw [integral_map (by fun_prop) (by fun_prop)] at h1
    have h2 : ∫ x, Real.exp (-a * x) ∂gaussianReal 0 1 = ∫ x, Real.exp (a * x) ∂gaussianReal 0 1 := by
      conv_lhs => rw [← neg_zero (G := ℝ), ← gaussianReal_map_neg, integral_map (by fun_prop) (by fun_prop)]
      simp
    rw [h2] at h1
    simpa using h1

/-- A bound on all two-sided exponential moments. -/
noncomputable def expMoment (a : ℝ) : ℝ :=
  ∫ x, Real.exp (a * x) ∂gaussianReal 0 1 + ∫ x, Real.exp (-a * x) ∂gaussianReal 0 1

theorem exp_abs_le (a x : ℝ) : Real.exp (a * |x|) ≤ Real.exp (a * x) + Real.exp (-a * x) := by
  rcases abs_cases x with ⟨h, -⟩ | ⟨h, -⟩ <;> rw [h]
  · linarith [Real.exp_pos (-a * x)]
  · rw [mul_neg, ← neg_mul]; linarith [Real.exp_pos (a * x)]

theorem Gauss.exp_abs {n : ℕ} {ν : Measure ℝ} (h : Gauss n ν) (a : ℝ) :
    ∫ x, Real.exp (a * |x|) ∂ν ≤ expMoment a := by
  refine (integral_mono (h.integrable (by fun_prop)) ((h.integrable (by fun_prop)).add (h.integrable (by fun_prop)))
    (exp_abs_le a)).trans ?_
  simp only [Pi.add_apply]
  rw [integral_add (h.integrable (by fun_prop)) (h.integrable (by fun_prop))]
  exact add_le_add (h.exp_le a) (h.exp_le (-a))

theorem normal_exp_abs_integrable (a : ℝ) : Integrable (fun x => Real.exp (a * |x|)) (gaussianReal 0 1) := by
  refine ((integrable_exp_mul_gaussianReal a).add (integrable_exp_mul_gaussianReal (-a))).mono'
    (by fun_prop) (Eventually.of_forall fun x => ?_)
  rw [Real.norm_eq_abs, abs_of_pos (Real.exp_pos _)]
  exact exp_abs_le a x

theorem normal_exp_abs (a : ℝ) : ∫ x, Real.exp (a * |x|) ∂gaussianReal 0 1 ≤ expMoment a := by
  refine (integral_mono (normal_exp_abs_integrable a)
    ((integrable_exp_mul_gaussianReal a).add (integrable_exp_mul_gaussianReal (-a))) (exp_abs_le a)).trans ?_
  simp only [Pi.add_apply]
  rw [integral_add (integrable_exp_mul_gaussianReal a) (integrable_exp_mul_gaussianReal (-a))]
  rfl

/-! ## Weak convergence -/

/-- The characteristic function is the series of the moments. -/
theorem charFun_series {ν : Measure ℝ} [IsFiniteMeasure ν] {t B : ℝ}
    (hi : Integrable (fun x => Real.exp (2 * |t| * |x|)) ν)
    (hB : ∫ x, Real.exp (2 * |t| * |x|) ∂ν ≤ B) :
    HasSum (fun k : ℕ => (t * Complex.I) ^ k / k.factorial * ((∫ x, x ^ k ∂ν : ℝ) : ℂ)) (charFun ν t) ∧
    ∀ k : ℕ, ‖(t * Complex.I) ^ k / k.factorial * ((∫ x, x ^ k ∂ν : ℝ) : ℂ)‖ ≤ (1 / 2) ^ k * B := by
  have hle : ∀ (k : ℕ) (x : ℝ), ‖((t * Complex.I) ^ k / k.factorial * (x : ℂ) ^ k)‖
      ≤ (1 / 2) ^ k * Real.exp (2 * |t| * |x|) := by
    intro k x
    have h := Real.pow_div_factorial_le_exp (2 * |t| * |x|) (by positivity) k
    have : ‖((t * Complex.I) ^ k / k.factorial * (x : ℂ) ^ k)‖ = (1 / 2) ^ k * ((2 * |t| * |x|) ^ k / k.factorial) := by
      rw [norm_mul, norm_div, norm_pow, norm_mul, Complex.norm_I, Complex.norm_real, norm_pow, Complex.norm_real,
        Complex.norm_natCast, Real.norm_eq_abs, Real.norm_eq_abs, mul_pow, mul_pow, mul_pow]
      field_simp
      rw [one_div, inv_pow]
      field_simp
      rw [one_pow, mul_one]
    rw [this]
    exact mul_le_mul_of_nonneg_left h (by positivity)
  have hint : ∀ k : ℕ, Integrable (fun x : ℝ => (t * Complex.I) ^ k / k.factorial * (x : ℂ) ^ k) ν := fun k =>
    (hi.const_mul ((1 / 2) ^ k)).mono' (by fun_prop) (Eventually.of_forall fun x => hle k x)
  have hnorm : ∀ k : ℕ, ∫ x, ‖((t * Complex.I) ^ k / k.factorial * ((x : ℝ) : ℂ) ^ k)‖ ∂ν ≤ (1 / 2) ^ k * B := fun k => by
    refine (integral_mono (hint k).norm (hi.const_mul _) (hle k)).trans ?_
    rw [integral_const_mul]
    exact mul_le_mul_of_nonneg_left hB (by positivity)
  have hval : ∀ k : ℕ, ∫ x, (t * Complex.I) ^ k / k.factorial * ((x : ℝ) : ℂ) ^ k ∂ν
      = (t * Complex.I) ^ k / k.factorial * ((∫ x, x ^ k ∂ν : ℝ) : ℂ) := fun k => by
    rw [integral_const_mul, ← integral_complex_ofReal]
    simp
  have hsum : Summable fun k : ℕ => (1 / 2 : ℝ) ^ k * B :=
    (summable_geometric_of_lt_one (by norm_num) (by norm_num)).mul_right B
  constructor
  · have h := hasSum_integral_of_summable_integral_norm hint
      (hsum.of_nonneg_of_le (fun k => integral_nonneg fun _ => norm_nonneg _) hnorm)
    simp only [hval] at h
    suffices hc : charFun ν t = ∫ a : ℝ, ∑' i : ℕ, (t * Complex.I) ^ i / i.factorial * (a : ℂ) ^ i ∂ν by
      rw [hc]; exact h
    rw [charFun_apply_real]
    refine integral_congr_ae (Eventually.of_forall fun x => ?_)
    have h2 := NormedSpace.expSeries_div_hasSum_exp (t * x * Complex.I : ℂ)
    rw [← Complex.exp_eq_exp_ℂ] at h2
    dsimp only
    rw [← h2.tsum_eq]
    refine tsum_congr fun k => ?_
    rw [show (t * x * Complex.I : ℂ) = t * Complex.I * x by ring, mul_pow]
    ring
  · intro k
    rw [← hval]
    exact (norm_integral_le_integral_norm _).trans (hnorm k)

/-- Rules with more and more nodes converge weakly to the normal distribution. -/
theorem gauss_tendsto {ν : ℕ → ProbabilityMeasure ℝ} (h : ∀ n, Gauss (n + 1) (ν n)) :
    Tendsto ν atTop (𝓝 ⟨gaussianReal 0 1, inferInstance⟩) := by
  refine ProbabilityMeasure.tendsto_of_tendsto_charFun fun t => ?_
  have hn : ∀ n, _ := fun n => charFun_series (t := t) ((h n).integrable (by fun_prop)) ((h n).exp_abs (2 * |t|))
  have hg := charFun_series (t := t) (normal_exp_abs_integrable (2 * |t|)) (normal_exp_abs (2 * |t|))
  have key := tendsto_tsum_of_dominated_convergence (𝓕 := atTop) (bound := fun k : ℕ => (1 / 2 : ℝ) ^ k * expMoment (2 * |t|))
    (f := fun n k => (t * Complex.I) ^ k / k.factorial * ((∫ x, x ^ k ∂(ν n : Measure ℝ) : ℝ) : ℂ))
    (g := fun k : ℕ => (t * Complex.I) ^ k / k.factorial * ((∫ x, x ^ k ∂gaussianReal 0 1 : ℝ) : ℂ))
    ((summable_geometric_of_lt_one (by norm_num) (by norm_num)).mul_right _) ?_
    (Eventually.of_forall fun n k => (hn n).2 k)
  · rw [hg.1.tsum_eq] at key
    refine key.congr fun n => ?_
    exact (hn n).1.tsum_eq
  · intro k
    refine tendsto_const_nhds.congr' ?_
    filter_upwards [eventually_ge_atTop k] with n hnk
    have := (h n).exact (X ^ k) (by rw [degree_X_pow]; exact_mod_cast (by omega))
    simp only [eval_pow, eval_X] at this
    rw [this]

/-- Convergence for bounded integrands with finitely many jumps. -/
theorem gauss_bounded {ν : ℕ → ProbabilityMeasure ℝ} (h : ∀ n, Gauss (n + 1) (ν n)) {f : ℝ → ℝ} {M : ℝ}
    (hm : Measurable f) (hM : ∀ x, |f x| ≤ M) {D : Finset ℝ} (hD : ∀ x ∉ D, ContinuousAt f x) :
    Tendsto (fun n => ∫ x, f x ∂(ν n : Measure ℝ)) atTop (𝓝 (∫ x, f x ∂gaussianReal 0 1)) := by
  have hweak := ProbabilityMeasure.tendsto_iff_forall_integral_tendsto.1 (gauss_tendsto h)
  have hM0 : 0 ≤ M := (abs_nonneg _).trans (hM 0)
  -- a bump around the jumps
  set K : Set ℝ := ((insert (0 : ℝ) D : Finset ℝ) : Set ℝ) with hK
  have hKfin : K.Finite := Finset.finite_toSet _
  have hKne : K.Nonempty := ⟨0, by simp [hK]⟩
  set b : ℕ → ℝ → ℝ := fun m x => max 0 (1 - m * Metric.infDist x K) with hb
  have hbc : ∀ m, Continuous (b m) := fun m => by
    have := Metric.continuous_infDist_pt K
    simp only [hb]
    fun_prop
  have hb0 : ∀ m x, 0 ≤ b m x := fun m x => le_max_left _ _
  have hb1 : ∀ m x, b m x ≤ 1 := fun m x => max_le zero_le_one (by
    have : 0 ≤ (m : ℝ) * Metric.infDist x K := mul_nonneg (Nat.cast_nonneg _) Metric.infDist_nonneg
    linarith)
  have hbK : ∀ m, ∀ x ∈ K, b m x = 1 := fun m x hx => by
    simp only [hb, Metric.infDist_zero_of_mem hx, mul_zero, sub_zero]
    exact max_eq_right zero_le_one
  have hbint : ∀ (μ : Measure ℝ) [IsFiniteMeasure μ] m, Integrable (b m) μ := fun μ _ m =>
    Integrable.of_bound (hbc m).aestronglyMeasurable 1 (Eventually.of_forall fun x => by
      rw [Real.norm_eq_abs, abs_of_nonneg (hb0 m x)]; exact hb1 m x)
  have hfint : ∀ (μ : Measure ℝ) [IsFiniteMeasure μ], Integrable f μ := fun μ _ =>
    Integrable.of_bound hm.aestronglyMeasurable M (Eventually.of_forall fun x => by rw [Real.norm_eq_abs]; exact hM x)
  -- bumps vanish
  have hvanish : Tendsto (fun m => ∫ x, b m x ∂gaussianReal 0 1) atTop (𝓝 0) := by
    have : Tendsto (fun m => ∫ x, b m x ∂gaussianReal 0 1) atTop (𝓝 (∫ _, (0 : ℝ) ∂gaussianReal 0 1)) := by
      refine tendsto_integral_of_dominated_convergence (fun _ => 1) (fun m => (hbc m).aestronglyMeasurable)
        (integrable_const _) (fun m => Eventually.of_forall fun x => by
          rw [Real.norm_eq_abs, abs_of_nonneg (hb0 m x)]; exact hb1 m x) ?_
      have hnull : gaussianReal 0 1 K = 0 := by
        have := nullSingletonClass_gaussianReal (μ := 0) (v := 1) one_ne_zero
        exact hKfin.measure_zero _
      have hae : ∀ᵐ x ∂gaussianReal 0 1, x ∉ K := measure_eq_zero_iff_ae_notMem.1 hnull
      filter_upwards [hae] with x hx
      have hpos : 0 < Metric.infDist x K := (hKfin.isClosed.notMem_iff_infDist_pos hKne).1 hx
      obtain ⟨N, hN⟩ := exists_nat_gt (1 / Metric.infDist x K)
      refine tendsto_const_nhds.congr' ?_
      filter_upwards [eventually_ge_atTop N] with m hmN
      have : 1 ≤ m * Metric.infDist x K := by
        have h1 : (N : ℝ) ≤ m := by exact_mod_cast hmN
        have := (div_lt_iff₀ hpos).1 (hN.trans_le h1)
        exact this.le
      exact (max_eq_left (by linarith)).symm
    simpa using this
  -- the integrand without the jumps
  have hcut : ∀ m, Continuous fun x => f x * (1 - b m x) := by
    intro m
    rw [continuous_iff_continuousAt]
    intro x
    by_cases hx : x ∈ D
    · have hxK : b m x = 1 := hbK m x (by simp [hK, hx])
      have hlim : Tendsto (fun y => M * (1 - b m y)) (𝓝 x) (𝓝 0) := by
        have : ContinuousAt (fun y => M * (1 - b m y)) x := by
          have := hbc m
          fun_prop
        have h' := this.tendsto
        rwa [hxK, sub_self, mul_zero] at h'
      unfold ContinuousAt
      dsimp only
      rw [hxK, sub_self, mul_zero]
      refine squeeze_zero_norm (fun y => ?_) hlim
      rw [Real.norm_eq_abs, abs_mul, abs_of_nonneg (sub_nonneg.2 (hb1 m y))]
      exact mul_le_mul_of_nonneg_right (hM y) (sub_nonneg.2 (hb1 m y))
    · exact (hD x hx).mul (continuousAt_const.sub (hbc m).continuousAt)
  have hcutM : ∀ m x, ‖f x * (1 - b m x)‖ ≤ M := fun m x => by
    rw [Real.norm_eq_abs, abs_mul, abs_of_nonneg (sub_nonneg.2 (hb1 m x))]
    exact (mul_le_mul_of_nonneg_left (by linarith [hb0 m x]) (abs_nonneg _)).trans ((mul_one _).trans_le (hM x))
  have hsplit : ∀ (μ : Measure ℝ) [IsFiniteMeasure μ] m,
      |∫ x, f x ∂μ - ∫ x, f x * (1 - b m x) ∂μ| ≤ M * ∫ x, b m x ∂μ := fun μ _ m => by
    have h1 : Integrable (fun x => f x * (1 - b m x)) μ :=
      Integrable.of_bound (hcut m).aestronglyMeasurable M (Eventually.of_forall (hcutM m))
    rw [← integral_sub (hfint μ) h1, ← integral_const_mul]
    refine abs_integral_le_integral_abs.trans (integral_mono ((hfint μ).sub h1).abs ((hbint μ m).const_mul M) fun x => ?_)
    dsimp only
    rw [show f x - f x * (1 - b m x) = f x * b m x by ring, abs_mul, abs_of_nonneg (hb0 m x)]
    exact mul_le_mul_of_nonneg_right (hM x) (hb0 m x)
  rw [Metric.tendsto_atTop]
  intro ε hε
  obtain ⟨m, hmε⟩ := ((hvanish.const_mul M).eventually (gt_mem_nhds (show M * 0 < ε / 4 by simpa using by linarith))).exists
  have t1 := hweak (BoundedContinuousFunction.ofNormedAddCommGroup _ (hcut m) M (hcutM m))
  have t2 := hweak (BoundedContinuousFunction.ofNormedAddCommGroup _ (hbc m) 1 fun x => by
    rw [Real.norm_eq_abs, abs_of_nonneg (hb0 m x)]; exact hb1 m x)
  simp only [BoundedContinuousFunction.coe_ofNormedAddCommGroup, ProbabilityMeasure.coe_mk] at t1 t2
  obtain ⟨N1, h1⟩ := Metric.tendsto_atTop.1 t1 (ε / 4) (by linarith)
  obtain ⟨N2, h2⟩ := eventually_atTop.1 ((t2.const_mul M).eventually (gt_mem_nhds hmε))
  refine ⟨max N1 N2, fun n hn => ?_⟩
  have e1 := h1 n (le_of_max_le_left hn)
  have e2 := h2 n (le_of_max_le_right hn)
  have e3 := hsplit (ν n : Measure ℝ) m
  have e4 := hsplit (gaussianReal 0 1) m
  rw [Real.dist_eq] at e1 ⊢
  rw [abs_lt] at e1 ⊢
  rw [abs_le] at e3 e4
  constructor <;> linarith [e1.1, e1.2, e3.1, e3.2, e4.1, e4.2]

/-- Convergence for integrands with finitely many jumps and at most exponential growth. -/
theorem gauss_converges {ν : ℕ → ProbabilityMeasure ℝ} (h : ∀ n, Gauss (n + 1) (ν n)) {f : ℝ → ℝ} {C a : ℝ}
    (hm : Measurable f) (hC : ∀ x, |f x| ≤ C * Real.exp (a * |x|)) {D : Finset ℝ} (hD : ∀ x ∉ D, ContinuousAt f x) :
    Tendsto (fun n => ∫ x, f x ∂(ν n : Measure ℝ)) atTop (𝓝 (∫ x, f x ∂gaussianReal 0 1)) := by
  set B : ℝ := C ^ 2 * expMoment (2 * a) with hB
  have hsq : ∀ x, f x ^ 2 ≤ C ^ 2 * Real.exp (2 * a * |x|) := fun x => by
    rw [← sq_abs, show C ^ 2 * Real.exp (2 * a * |x|) = (C * Real.exp (a * |x|)) ^ 2 by
      rw [mul_pow, ← Real.exp_nat_mul]; congr 2; push_cast; ring]
    exact pow_le_pow_left₀ (abs_nonneg _) (hC x) 2
  have hB0 : 0 ≤ B := mul_nonneg (sq_nonneg _)
    (add_nonneg (integral_nonneg fun _ => (Real.exp_pos _).le) (integral_nonneg fun _ => (Real.exp_pos _).le))
  have hgint : Integrable f (gaussianReal 0 1) :=
    ((normal_exp_abs_integrable a).const_mul C).mono' hm.aestronglyMeasurable (Eventually.of_forall hC)
  have cut : ∀ R : ℝ, 0 < R → ∀ x, |f x - max (-R) (min R (f x))| ≤ f x ^ 2 / R := by
    intro R hR x
    rw [le_div_iff₀ hR]
    rcases le_total R (f x) with h1 | h1
    · rw [min_eq_left h1, max_eq_right (by linarith), abs_of_nonneg (by linarith)]
      nlinarith
    · rw [min_eq_right h1]
      rcases le_total (-R) (f x) with h2 | h2
      · rw [max_eq_right h2, sub_self, abs_zero, zero_mul]; positivity
      · rw [max_eq_left h2, abs_of_nonpos (by linarith)]
        nlinarith
  have err : ∀ (μ : Measure ℝ) [IsFiniteMeasure μ], Integrable f μ → Integrable (fun x => Real.exp (2 * a * |x|)) μ →
      ∫ x, Real.exp (2 * a * |x|) ∂μ ≤ expMoment (2 * a) → ∀ R : ℝ, 0 < R →
      |∫ x, f x ∂μ - ∫ x, max (-R) (min R (f x)) ∂μ| ≤ B / R := by
    intro μ _ hfi he hle R hR
    have hgi : Integrable (fun x => max (-R) (min R (f x))) μ :=
      Integrable.of_bound (by fun_prop) R (Eventually.of_forall fun x => by
        rw [Real.norm_eq_abs, abs_le]
        exact ⟨le_max_left _ _, max_le (by linarith) (min_le_left _ _)⟩)
    rw [← integral_sub hfi hgi]
    refine abs_integral_le_integral_abs.trans ((integral_mono (g := fun x => C ^ 2 / R * Real.exp (2 * a * |x|))
      (hfi.sub hgi).abs (he.const_mul _) fun x => ?_).trans ?_)
    · refine (cut R hR x).trans ?_
      dsimp only
      rw [div_mul_eq_mul_div]
      exact div_le_div_of_nonneg_right (hsq x) hR.le
    · rw [integral_const_mul, hB, div_mul_eq_mul_div]
      exact div_le_div_of_nonneg_right (mul_le_mul_of_nonneg_left hle (sq_nonneg _)) hR.le
  rw [Metric.tendsto_atTop]
  intro ε hε
  set R : ℝ := 4 * (B + 1) / ε with hR
  have hR0 : 0 < R := by positivity
  have hBR : B / R ≤ ε / 4 := by
    rw [div_le_iff₀ hR0, hR]
    field_simp
    linarith
  have hbd := gauss_bounded h (f := fun x => max (-R) (min R (f x))) (M := R) (by fun_prop) (fun x => by
      rw [abs_le]
      exact ⟨le_max_left _ _, max_le (by linarith) (min_le_left _ _)⟩) (D := D) fun x hx =>
    continuousAt_const.max (continuousAt_const.min (hD x hx))
  obtain ⟨N, hN⟩ := Metric.tendsto_atTop.1 hbd (ε / 4) (by linarith)
  refine ⟨N, fun n hn => ?_⟩
  have e1 := hN n hn
  have e2 := err (ν n : Measure ℝ) ((h n).integrable hm) ((h n).integrable (by fun_prop)) ((h n).exp_abs _) R hR0
  have e3 := err (gaussianReal 0 1) hgint (normal_exp_abs_integrable _) (normal_exp_abs _) R hR0
  rw [Real.dist_eq, abs_lt] at e1 ⊢
  rw [abs_le] at e2 e3
  constructor <;> linarith [e1.1, e1.2, e2.1, e2.2, e3.1, e3.2]

end Soepy
