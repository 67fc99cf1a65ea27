import Verif.Proof.Integral
import Verif.Model.RealInst
import Mathlib.Probability.StrongLaw
import Mathlib.Probability.Distributions.Gaussian.Real
import Mathlib.MeasureTheory.Constructions.BorelSpace.Order
import Mathlib.MeasureTheory.Function.SpecialFunctions.Basic
import Mathlib.MeasureTheory.Function.LpOrder
import Mathlib.Probability.Moments.Variance
import Mathlib.Probability.HasLaw

/-! Flow utility as a function of the wage shock: it is measurable, and integrable for normal shocks. -/

set_option linter.unusedSectionVars false

namespace Soepy
open MeasureTheory ProbabilityTheory

variable {e : Spec.Economy ℝ} {s : State} {x : ℝ}

theorem schedule_measurable (tp : TaxParams ℝ) : Measurable (Spec.schedule tp) := by
  unfold Spec.schedule
  dsimp only
  refine Measurable.ite measurableSet_Iio measurable_const ?_
  refine Measurable.ite measurableSet_Iio (by fun_prop) ?_
  refine Measurable.ite measurableSet_Iio (by fun_prop) ?_
  exact Measurable.ite measurableSet_Iio (by fun_prop) (by fun_prop)

theorem taxable_measurable (d : SscSpec ℝ) : Measurable (Spec.taxable d) := by
  unfold Spec.taxable
  fun_prop

theorem householdNet_measurable (spec : ModelSpec ℝ) (male : ℝ) :
    Measurable fun female => Spec.householdNet spec female male := by
  have h1 := taxable_measurable spec.ssc_deductions
  have h2 := schedule_measurable spec.tax_params
  unfold Spec.householdNet
  dsimp only
  split
  · split
    · fun_prop
    · fun_prop
  · fun_prop

theorem partTimeBenefit_measurable (e : Spec.Economy ℝ) (s : State) : Measurable (Spec.partTimeBenefit e s) := by
  unfold Spec.partTimeBenefit
  refine Measurable.ite ?_ measurable_const measurable_const
  simp only [Set.setOf_and]
  refine (MeasurableSet.const _).inter ((MeasurableSet.const _).inter ((MeasurableSet.const _).inter ?_))
  exact measurableSet_le (by fun_prop) measurable_const

theorem consumption_measurable (e : Spec.Economy ℝ) (s : State) (x : ℝ) (c : Fin 3) :
    Measurable fun shock => Spec.consumption e s x c shock := by
  have h1 := householdNet_measurable e.spec (Spec.partnerWage e.spec s)
  have h2 := partTimeBenefit_measurable e s
  have hexp : Measurable fun shock : ℝ => Real.exp (Spec.logWage e s x + shock) := by fun_prop
  fin_cases c
  · exact measurable_const
  · unfold Spec.consumption
    simp only [transc_exp]
    have a := h1.comp (hexp.const_mul 18)
    have b := h2.comp (hexp.const_mul 18)
    exact ((((a.add b).add_const _).sub_const _).max measurable_const).div_const _
  · unfold Spec.consumption
    simp only [transc_exp]
    have a := h1.comp (hexp.const_mul 38)
    exact ((((a.add_const _).add_const _).sub_const _).max measurable_const).div_const _

theorem flow_measurable (e : Spec.Economy ℝ) (s : State) (x : ℝ) (c : Fin 3) :
    Measurable fun shock => Spec.flow e s x c shock := by
  unfold Spec.flow
  simp only [transc_pow]
  exact (((consumption_measurable e s x c).pow_const _).div_const _).mul_const _

theorem best_measurable (e : Spec.Economy ℝ) (V : State → ℝ → ℝ) (s : State) (x σ : ℝ) :
    Measurable fun z => Spec.best e V s x (z * σ) := by
  have h : ∀ c, Measurable fun z : ℝ => Spec.flow e s x c (z * σ) :=
    fun c => (flow_measurable e s x c).comp (measurable_id.mul_const σ)
  unfold Spec.best
  exact (((h 0).add_const _).max ((h 1).add_const _)).max ((h 2).add_const _)

theorem best_integrable {μ : Measure ℝ} [IsFiniteMeasure μ] {σ : ℝ} (V : State → ℝ → ℝ)
    (h : ∀ c, Integrable (fun z => Spec.flow e s x c (z * σ)) μ) :
    Integrable (fun z => Spec.best e V s x (z * σ)) μ := by
  unfold Spec.best
  have h' : ∀ c, Integrable (fun z => Spec.flow e s x c (z * σ) + e.par.delta * Spec.continuation e V s x c) μ :=
    fun c => (h c).add (integrable_const _)
  exact ((h' 0).sup (h' 1)).sup (h' 2)

theorem best_memLp {μ : Measure ℝ} [IsFiniteMeasure μ] {σ : ℝ} (V : State → ℝ → ℝ)
    (h : ∀ c, MemLp (fun z => Spec.flow e s x c (z * σ)) 2 μ) :
    MemLp (fun z => Spec.best e V s x (z * σ)) 2 μ := by
  unfold Spec.best
  have h' : ∀ c, MemLp (fun z => Spec.flow e s x c (z * σ) + e.par.delta * Spec.continuation e V s x c) 2 μ :=
    fun c => (h c).add (memLp_const _)
  exact ((h' 0).sup (h' 1)).sup (h' 2)

/-- Chebyshev's inequality for the mean of independent draws. -/
theorem mean_deviates {Ω : Type} [MeasurableSpace Ω] {P : Measure Ω} [IsProbabilityMeasure P] {μ : Measure ℝ}
    {Z : ℕ → Ω → ℝ} (hZ : ∀ i, HasLaw (Z i) μ P) (hindep : Pairwise fun i j => IndepFun (Z i) (Z j) P)
    {f : ℝ → ℝ} (hfm : Measurable f) (hf : MemLp f 2 μ) {V : ℝ} (hV : variance f μ ≤ V) {n : ℕ} (hn : 1 ≤ n) {η : ℝ}
    (hη : 0 < η) :
    P {ω | η ≤ |(∑ i ∈ Finset.range n, f (Z i ω)) / n - ∫ z, f z ∂μ|} ≤ ENNReal.ofReal (V / (n * η ^ 2)) := by
  have hn0 : (0 : ℝ) < n := by exact_mod_cast hn
  have hL : ∀ i, MemLp (fun ω => f (Z i ω)) 2 P := fun i => by
    have : MemLp f 2 (P.map (Z i)) := by rw [(hZ i).map_eq]; exact hf
    exact this.comp_of_map (hZ i).aemeasurable
  have hvar : ∀ i, variance (fun ω => f (Z i ω)) P = variance f μ := fun i => by
    rw [← (hZ i).map_eq, variance_map hfm.aemeasurable (hZ i).aemeasurable, Function.comp_def]
  have hmean : ∀ i, ∫ ω, f (Z i ω) ∂P = ∫ z, f z ∂μ := fun i =>
    (hZ i).integral_comp hf.aestronglyMeasurable
  have : IsProbabilityMeasure μ := (hZ 0).isProbabilityMeasure_iff.1 inferInstance
  set X : Ω → ℝ := fun ω => (1 / (n : ℝ)) * (∑ i ∈ Finset.range n, fun ω => f (Z i ω)) ω with hX
  have hS2 : MemLp (∑ i ∈ Finset.range n, fun ω => f (Z i ω)) 2 P := memLp_finsetSum' _ fun i _ => hL i
  have hX2 : MemLp X 2 P := hS2.const_mul _
  have hXv : variance X P = variance f μ / n := by
    rw [hX, variance_const_mul, IndepFun.variance_sum (fun i _ => hL i)
      (fun i _ j _ hij => (hindep hij).comp hfm hfm), Finset.sum_congr rfl fun i _ => hvar i]
    rw [Finset.sum_const, Finset.card_range, nsmul_eq_mul]
    field_simp
  have hXm : ∫ ω, X ω ∂P = ∫ z, f z ∂μ := by
    rw [hX, integral_const_mul]
    simp only [Finset.sum_apply]
    rw [integral_finsetSum _ fun i _ => (hL i).integrable one_le_two, Finset.sum_congr rfl fun i _ => hmean i,
      Finset.sum_const, Finset.card_range, nsmul_eq_mul]
    field_simp
  have h := meas_ge_le_variance_div_sq hX2 hη
  rw [hXm, hXv] at h
  have hset : {ω | η ≤ |(∑ i ∈ Finset.range n, f (Z i ω)) / n - ∫ z, f z ∂μ|}
      = {ω | η ≤ |X ω - ∫ z, f z ∂μ|} := by
    ext ω
    simp only [hX, Finset.sum_apply, Set.mem_setOf_eq, one_div_mul_eq_div]
  rw [hset]
  refine h.trans (ENNReal.ofReal_le_ofReal ?_)
  rw [div_div]
  exact div_le_div_of_nonneg_right hV (by positivity)

/-! ## Growth -/

/-- At most polynomial growth on the nonnegative numbers. -/
def Poly (f : ℝ → ℝ) : Prop := ∃ (C : ℝ) (N : ℕ), 0 ≤ C ∧ ∀ w, 0 ≤ w → |f w| ≤ C * (1 + w) ^ N

theorem Poly.const (c : ℝ) : Poly fun _ => c := ⟨|c|, 0, abs_nonneg _, fun w _ => by simp⟩

theorem Poly.id : Poly fun w => w :=
  ⟨1, 1, zero_le_one, fun w hw => by rw [abs_of_nonneg hw]; linarith⟩

theorem Poly.of_le {f g h : ℝ → ℝ} (hf : Poly f) (hg : Poly g) (hle : ∀ w, 0 ≤ w → |h w| ≤ |f w| + |g w|) : Poly h := by
  obtain ⟨C, N, hC, h1⟩ := hf
  obtain ⟨D, M, hD, h2⟩ := hg
  refine ⟨C + D, N + M, add_nonneg hC hD, fun w hw => (hle w hw).trans ?_⟩
  have e1 : (1 + w) ^ N ≤ (1 + w) ^ (N + M) := pow_le_pow_right₀ (by linarith) (Nat.le_add_right _ _)
  have e2 : (1 + w) ^ M ≤ (1 + w) ^ (N + M) := pow_le_pow_right₀ (by linarith) (Nat.le_add_left _ _)
  have := mul_le_mul_of_nonneg_left e1 hC
  have := mul_le_mul_of_nonneg_left e2 hD
  linarith [h1 w hw, h2 w hw]

theorem Poly.add {f g : ℝ → ℝ} (hf : Poly f) (hg : Poly g) : Poly fun w => f w + g w :=
  hf.of_le hg fun _ _ => abs_add_le _ _

theorem Poly.sub {f g : ℝ → ℝ} (hf : Poly f) (hg : Poly g) : Poly fun w => f w - g w :=
  hf.of_le hg fun _ _ => abs_sub _ _

theorem Poly.max {f g : ℝ → ℝ} (hf : Poly f) (hg : Poly g) : Poly fun w => max (f w) (g w) :=
  hf.of_le hg fun w _ => abs_max_le_max_abs_abs.trans (max_le (by linarith [abs_nonneg (g w)])
    (by linarith [abs_nonneg (f w)]))

theorem Poly.min {f g : ℝ → ℝ} (hf : Poly f) (hg : Poly g) : Poly fun w => min (f w) (g w) :=
  hf.of_le hg fun w _ => by
    rcases min_choice (f w) (g w) with h | h <;> rw [h]
    · linarith [abs_nonneg (g w)]
    · linarith [abs_nonneg (f w)]

theorem Poly.ite {f g : ℝ → ℝ} {p : ℝ → Prop} [DecidablePred p] (hf : Poly f) (hg : Poly g) :
    Poly fun w => if p w then f w else g w :=
  hf.of_le hg fun w _ => by
    split
    · linarith [abs_nonneg (g w)]
    · linarith [abs_nonneg (f w)]

theorem Poly.mul {f g : ℝ → ℝ} (hf : Poly f) (hg : Poly g) : Poly fun w => f w * g w := by
  obtain ⟨C, N, hC, h1⟩ := hf
  obtain ⟨D, M, hD, h2⟩ := hg
  refine ⟨C * D, N + M, mul_nonneg hC hD, fun w hw => ?_⟩
  rw [abs_mul, pow_add]
  calc |f w| * |g w| ≤ (C * (1 + w) ^ N) * (D * (1 + w) ^ M) :=
        mul_le_mul (h1 w hw) (h2 w hw) (abs_nonneg _) (by positivity)
    _ = _ := by ring

theorem Poly.pow {f : ℝ → ℝ} (hf : Poly f) : ∀ n : ℕ, Poly fun w => f w ^ n
  | 0 => by simpa using Poly.const 1
  | n + 1 => by simpa only [pow_succ] using (hf.pow n).mul hf

theorem Poly.schedule (tp : TaxParams ℝ) {f : ℝ → ℝ} (hf : Poly f) : Poly fun w => Spec.schedule tp (f w) := by
  have piece : ∀ i : Fin 4, Poly fun w =>
      tp.base i + tp.linear i * (f w - tp.thresholds i) + tp.quad i * (f w - tp.thresholds i) ^ 2 := fun i =>
    ((Poly.const _).add ((Poly.const _).mul (hf.sub (Poly.const _)))).add
      ((Poly.const _).mul ((hf.sub (Poly.const _)).pow 2))
  unfold Spec.schedule
  exact (Poly.const 0).ite ((piece 0).ite ((piece 1).ite ((piece 2).ite (piece 3))))

theorem Poly.taxable (d : SscSpec ℝ) {f : ℝ → ℝ} (hf : Poly f) : Poly fun w => Spec.taxable d (f w) :=
  hf.sub ((Poly.const _).mul (hf.min (Poly.const _)))

theorem Poly.householdNet (spec : ModelSpec ℝ) (male : ℝ) {f : ℝ → ℝ} (hf : Poly f) :
    Poly fun w => Spec.householdNet spec (f w) male := by
  have h1 := hf.taxable spec.ssc_deductions
  unfold Spec.householdNet
  dsimp only
  split
  · split
    · refine (h1.add (Poly.const _)).sub ((Poly.const _).mul ((Poly.const _).mul (Poly.schedule _ ?_)))
      simpa only [div_eq_mul_inv] using (h1.add (Poly.const _)).mul (Poly.const _)
    · exact (h1.add (Poly.const _)).sub ((Poly.const _).mul ((h1.schedule _).add (Poly.const _)))
  · exact h1.sub ((Poly.const _).mul (h1.schedule _))

/-- A power of a function with at most polynomial growth that is bounded away from zero. -/
theorem Poly.rpow {f : ℝ → ℝ} (hf : Poly f) {c : ℝ} (hc : 0 < c) (hb : ∀ w, 0 ≤ w → c ≤ f w) (m : ℝ) :
    Poly fun w => f w ^ m := by
  rcases le_total m 0 with hm | hm
  · refine (Poly.const (c ^ m)).of_le (Poly.const 0) fun w hw => ?_
    have h1 := hb w hw
    rw [abs_of_nonneg (Real.rpow_nonneg (hc.le.trans h1) _), abs_of_nonneg (Real.rpow_nonneg hc.le _), abs_zero, add_zero]
    exact Real.rpow_le_rpow_of_nonpos hc h1 hm
  · refine (((Poly.const 1).add hf).pow ⌈m⌉₊).of_le (Poly.const 0) fun w hw => ?_
    have h1 := hc.le.trans (hb w hw)
    rw [abs_of_nonneg (Real.rpow_nonneg h1 _), abs_of_nonneg (by positivity), abs_zero, add_zero, ← Real.rpow_natCast]
    calc f w ^ m ≤ (1 + f w) ^ m := Real.rpow_le_rpow h1 (by linarith) hm
      _ ≤ (1 + f w) ^ (⌈m⌉₊ : ℝ) := Real.rpow_le_rpow_of_exponent_le (by linarith) (Nat.le_ceil m)

theorem Poly.integrable_normal {f : ℝ → ℝ} (hf : Poly f) (hm : Measurable f) (l σ : ℝ) :
    Integrable (fun z => f (Real.exp (l + z * σ))) (gaussianReal 0 1) := by
  obtain ⟨C, N, hC, h⟩ := hf
  have hi : Integrable (fun z => C * (2 ^ (N - 1) * (1 + Real.exp (N * l) * Real.exp (N * σ * z)))) (gaussianReal 0 1) :=
    (((integrable_const (μ := gaussianReal 0 1) (1 : ℝ)).add
      ((integrable_exp_mul_gaussianReal _).const_mul _)).const_mul _).const_mul _
  refine hi.mono' (hm.comp (by fun_prop)).aestronglyMeasurable (Filter.Eventually.of_forall fun z => ?_)
  rw [Real.norm_eq_abs]
  refine (h _ (Real.exp_pos _).le).trans (mul_le_mul_of_nonneg_left ?_ hC)
  refine (add_pow_le zero_le_one (Real.exp_pos _).le N).trans_eq ?_
  rw [one_pow, ← Real.exp_add, ← Real.exp_nat_mul]
  congr 3
  ring

theorem Poly.memLp_normal {f : ℝ → ℝ} (hf : Poly f) (hm : Measurable f) (l σ : ℝ) :
    MemLp (fun z => f (Real.exp (l + z * σ))) 2 (gaussianReal 0 1) :=
  (memLp_two_iff_integrable_sq (hm.comp (by fun_prop)).aestronglyMeasurable).2
    ((hf.pow 2).integrable_normal (hm.pow_const 2) l σ)

theorem scale_pos (s : State) : (0 : ℝ) < Spec.scale s := by
  unfold Spec.scale
  split <;> split <;> norm_num

/-- Flow utility of a worker as a function of the wage. -/
noncomputable def workFlow (e : Spec.Economy ℝ) (s : State) (hours cost mult : ℝ) (extra : ℝ → ℝ) (w : ℝ) : ℝ :=
  (max (Spec.householdNet e.spec (hours * w) (Spec.partnerWage e.spec s) + extra w + Spec.kindergeld e.spec s - cost)
    1e-14 / Spec.scale s) ^ e.par.mu / e.par.mu * mult

theorem workFlow_poly (e : Spec.Economy ℝ) (s : State) (hours cost mult : ℝ) {extra : ℝ → ℝ} (h1 : Poly extra) :
    Poly (workFlow e s hours cost mult extra) := by
  have hs := scale_pos s
  have p1 : Poly fun w => hours * w := (Poly.const _).mul Poly.id
  have p2 : Poly fun w => max (Spec.householdNet e.spec (hours * w) (Spec.partnerWage e.spec s) + extra w
        + Spec.kindergeld e.spec s - cost) 1e-14 / Spec.scale s := by
    simpa only [div_eq_mul_inv] using
      (((((p1.householdNet e.spec (Spec.partnerWage e.spec s)).add h1).add (Poly.const _)).sub (Poly.const _)).max
        (Poly.const 1e-14)).mul (Poly.const (Spec.scale s)⁻¹)
  have p3 := p2.rpow (c := 1e-14 / Spec.scale s) (by positivity)
    (fun w _ => div_le_div_of_nonneg_right (le_max_right _ _) hs.le) e.par.mu
  unfold workFlow
  simpa only [div_eq_mul_inv (_ ^ _)] using (p3.mul (Poly.const e.par.mu⁻¹)).mul (Poly.const mult)

theorem workFlow_measurable (e : Spec.Economy ℝ) (s : State) (hours cost mult : ℝ) {extra : ℝ → ℝ}
    (h2 : Measurable extra) : Measurable (workFlow e s hours cost mult extra) := by
  have m1 := (householdNet_measurable e.spec (Spec.partnerWage e.spec s)).comp (measurable_id.const_mul hours)
  exact (((((((m1.add h2).add_const _).sub_const _).max measurable_const).div_const _).pow_const _).div_const _).mul_const _

theorem flow_part_time (e : Spec.Economy ℝ) (s : State) (x shock : ℝ) :
    Spec.flow e s x 1 shock = workFlow e s 18 (e.spec.child_care_costs (Spec.careRow s) 0) (Spec.multiplier e.par s 1)
      (fun w => Spec.partTimeBenefit e s (18 * w)) (Real.exp (Spec.logWage e s x + shock)) := rfl

theorem flow_full_time (e : Spec.Economy ℝ) (s : State) (x shock : ℝ) :
    Spec.flow e s x 2 shock = workFlow e s 38 (e.spec.child_care_costs (Spec.careRow s) 1) (Spec.multiplier e.par s 2)
      (fun _ => 0) (Real.exp (Spec.logWage e s x + shock)) := rfl

theorem partTimeBenefit_poly (e : Spec.Economy ℝ) (s : State) : Poly fun w => Spec.partTimeBenefit e s (18 * w) := by
  unfold Spec.partTimeBenefit
  exact (Poly.const _).ite (Poly.const _)

/-- Flow utility has a finite second moment if the shock is normal. -/
theorem flow_memLp (e : Spec.Economy ℝ) (s : State) (x : ℝ) (c : Fin 3) (σ : ℝ) :
    MemLp (fun z => Spec.flow e s x c (z * σ)) 2 (gaussianReal 0 1) := by
  fin_cases c
  · exact memLp_const (μ := gaussianReal 0 1) (p := 2) (Spec.flow e s x 0 0)
  · exact (workFlow_poly e s 18 _ _ (partTimeBenefit_poly e s)).memLp_normal
      (workFlow_measurable e s 18 _ _ ((partTimeBenefit_measurable e s).comp (measurable_id.const_mul 18))) _ _
  · exact (workFlow_poly e s 38 _ _ (Poly.const 0)).memLp_normal (workFlow_measurable e s 38 _ _ measurable_const) _ _

/-- Flow utility has a finite expectation if the shock is normal. -/
theorem flow_integrable (e : Spec.Economy ℝ) (s : State) (x : ℝ) (c : Fin 3) (σ : ℝ) :
    Integrable (fun z => Spec.flow e s x c (z * σ)) (gaussianReal 0 1) :=
  (flow_memLp e s x c σ).integrable one_le_two

end Soepy
