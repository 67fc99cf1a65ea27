import Verif.Proof.Normal
import Verif.Proof.GaussHermite

/-! The value of the best choice as a function of the shock: it has finitely many jumps and grows at most
exponentially; hence sums over Gauss-Hermite nodes converge to its expectation. -/

set_option linter.unusedSectionVars false

namespace Soepy
open MeasureTheory ProbabilityTheory Polynomial Filter Topology

/-! ## Piecewise polynomial functions -/

/-- Near every point outside a finite set the function is one of finitely many polynomials. -/
def PP (f : ℝ → ℝ) : Prop :=
  ∃ (D : Finset ℝ) (P : Finset ℝ[X]), ∀ x ∉ D, ∃ p ∈ P, f =ᶠ[𝓝 x] fun y => p.eval y

theorem PP.const (c : ℝ) : PP fun _ => c :=
  ⟨∅, {C c}, fun x _ => ⟨C c, by simp, Eventually.of_forall fun y => by simp⟩⟩

theorem PP.id : PP fun x => x :=
  ⟨∅, {X}, fun x _ => ⟨X, by simp, Eventually.of_forall fun y => by simp⟩⟩

theorem PP.op {f g : ℝ → ℝ} (hf : PP f) (hg : PP g) (o : ℝ[X] → ℝ[X] → ℝ[X]) (o' : ℝ → ℝ → ℝ)
    (h : ∀ p q x, (o p q).eval x = o' (p.eval x) (q.eval x)) : PP fun x => o' (f x) (g x) := by
  classical
  obtain ⟨D, P, h1⟩ := hf
  obtain ⟨D', P', h2⟩ := hg
  refine ⟨D ∪ D', (P ×ˢ P').image fun q => o q.1 q.2, fun x hx => ?_⟩
  rw [Finset.mem_union, not_or] at hx
  obtain ⟨p, hp, e1⟩ := h1 x hx.1
  obtain ⟨q, hq, e2⟩ := h2 x hx.2
  refine ⟨o p q, Finset.mem_image.2 ⟨(p, q), Finset.mem_product.2 ⟨hp, hq⟩, rfl⟩, ?_⟩
  filter_upwards [e1, e2] with y h1 h2
  rw [h, h1, h2]

theorem PP.add {f g : ℝ → ℝ} (hf : PP f) (hg : PP g) : PP fun x => f x + g x :=
  hf.op hg (· + ·) (· + ·) fun _ _ _ => eval_add

theorem PP.sub {f g : ℝ → ℝ} (hf : PP f) (hg : PP g) : PP fun x => f x - g x :=
  hf.op hg (· - ·) (· - ·) fun _ _ _ => by simp

theorem PP.mul {f g : ℝ → ℝ} (hf : PP f) (hg : PP g) : PP fun x => f x * g x :=
  hf.op hg (· * ·) (· * ·) fun _ _ _ => eval_mul

theorem PP.pow {f : ℝ → ℝ} (hf : PP f) : ∀ n : ℕ, PP fun x => f x ^ n
  | 0 => by simpa using PP.const 1
  | n + 1 => by simpa only [pow_succ] using (hf.pow n).mul hf

theorem PP.ite {f g a b : ℝ → ℝ} [∀ x, Decidable (f x < g x)] (hf : PP f) (hg : PP g) (ha : PP a) (hb : PP b) :
    PP fun x => if f x < g x then a x else b x := by
  classical
  obtain ⟨D1, P1, h1⟩ := hf.sub hg
  obtain ⟨D2, P2, h2⟩ := ha
  obtain ⟨D3, P3, h3⟩ := hb
  refine ⟨D1 ∪ D2 ∪ D3 ∪ P1.biUnion fun p => p.roots.toFinset, P2 ∪ P3, fun x hx => ?_⟩
  simp only [Finset.mem_union, not_or, Finset.mem_biUnion, not_exists, not_and] at hx
  obtain ⟨⟨⟨x1, x2⟩, x3⟩, x4⟩ := hx
  obtain ⟨p, hp, e1⟩ := h1 x x1
  obtain ⟨q, hq, e2⟩ := h2 x x2
  obtain ⟨r, hr, e3⟩ := h3 x x3
  have hcase : (∀ᶠ y in 𝓝 x, f y < g y) ∨ ∀ᶠ y in 𝓝 x, ¬ f y < g y := by
    rcases eq_or_ne p 0 with rfl | hp0
    · right
      filter_upwards [e1] with y hy
      simp only [eval_zero] at hy
      linarith
    · have hne : p.eval x ≠ 0 := fun h0 => x4 p hp (by simp [hp0, h0])
      have hc : ContinuousAt (fun y => p.eval y) x := p.continuous.continuousAt
      rcases lt_or_gt_of_ne hne with h | h
      · left
        filter_upwards [e1, hc.eventually (gt_mem_nhds h)] with y h1 h2
        linarith
      · right
        filter_upwards [e1, hc.eventually (lt_mem_nhds h)] with y h1 h2
        linarith
  rcases hcase with h | h
  · refine ⟨q, Finset.mem_union_left _ hq, ?_⟩
    filter_upwards [h, e2] with y h1 h2
    rw [if_pos h1, h2]
  · refine ⟨r, Finset.mem_union_right _ hr, ?_⟩
    filter_upwards [h, e3] with y h1 h2
    rw [if_neg h1, h2]

theorem PP.max {f g : ℝ → ℝ} (hf : PP f) (hg : PP g) : PP fun x => max (f x) (g x) := by
  classical
  have h := hf.ite hg hg hf
  refine (congrArg PP (funext fun x => ?_)).mp h
  split_ifs with hx
  · exact (max_eq_right hx.le).symm
  · exact (max_eq_left (not_lt.1 hx)).symm

theorem PP.min {f g : ℝ → ℝ} (hf : PP f) (hg : PP g) : PP fun x => min (f x) (g x) := by
  classical
  have h := hf.ite hg hf hg
  refine (congrArg PP (funext fun x => ?_)).mp h
  split_ifs with hx
  · exact (min_eq_left hx.le).symm
  · exact (min_eq_right (not_lt.1 hx)).symm

theorem PP.continuousAt {f : ℝ → ℝ} (hf : PP f) : ∃ D : Finset ℝ, ∀ x ∉ D, ContinuousAt f x := by
  obtain ⟨D, P, h⟩ := hf
  refine ⟨D, fun x hx => ?_⟩
  obtain ⟨p, -, e⟩ := h x hx
  exact p.continuous.continuousAt.congr e.symm

theorem PP.schedule (tp : TaxParams ℝ) {f : ℝ → ℝ} (hf : PP f) : PP fun w => Spec.schedule tp (f w) := by
  have piece : ∀ i : Fin 4, PP fun w =>
      tp.base i + tp.linear i * (f w - tp.thresholds i) + tp.quad i * (f w - tp.thresholds i) ^ 2 := fun i =>
    ((PP.const _).add ((PP.const _).mul (hf.sub (PP.const _)))).add
      ((PP.const _).mul ((hf.sub (PP.const _)).pow 2))
  unfold Spec.schedule
  exact hf.ite (PP.const _) (PP.const 0) (hf.ite (PP.const _) (piece 0) (hf.ite (PP.const _) (piece 1)
    (hf.ite (PP.const _) (piece 2) (piece 3))))

theorem PP.taxable (d : SscSpec ℝ) {f : ℝ → ℝ} (hf : PP f) : PP fun w => Spec.taxable d (f w) :=
  hf.sub ((PP.const _).mul (hf.min (PP.const _)))

theorem PP.householdNet (spec : ModelSpec ℝ) (male : ℝ) {f : ℝ → ℝ} (hf : PP f) :
    PP fun w => Spec.householdNet spec (f w) male := by
  have h1 := hf.taxable spec.ssc_deductions
  unfold Spec.householdNet
  dsimp only
  split
  · split
    · refine (h1.add (PP.const _)).sub ((PP.const _).mul ((PP.const _).mul (PP.schedule _ ?_)))
      simpa only [div_eq_mul_inv] using (h1.add (PP.const _)).mul (PP.const _)
    · exact (h1.add (PP.const _)).sub ((PP.const _).mul ((h1.schedule _).add (PP.const _)))
  · exact h1.sub ((PP.const _).mul (h1.schedule _))

theorem PP.partTimeBenefit (e : Spec.Economy ℝ) (s : State) : PP fun w => Spec.partTimeBenefit e s (18 * w) := by
  classical
  by_cases h : e.elterngeldRegime = false ∧ 0 < Spec.kindergeld e.spec s ∧ (s.age = 0 ∨ s.age = 1)
  · have h1 := (PP.const (Spec.erzThreshold e.spec (0 < Spec.partnerWage e.spec s))).ite
      ((PP.const (Spec.partnerWage e.spec s)).add ((PP.const 18).mul PP.id)) (PP.const 0)
      (PP.const e.spec.erziehungsgeld)
    refine (congrArg PP (funext fun w => ?_)).mp h1
    unfold Spec.partTimeBenefit
    by_cases hw : Spec.erzThreshold e.spec (0 < Spec.partnerWage e.spec s) < Spec.partnerWage e.spec s + 18 * w
    · rw [if_pos hw, if_neg fun hc => absurd hc.2.2.2 (not_le.2 hw)]
    · rw [if_neg hw, if_pos ⟨h.1, h.2.1, h.2.2, not_lt.1 hw⟩]
  · refine (congrArg PP (funext fun w => ?_)).mp (PP.const 0)
    unfold Spec.partTimeBenefit
    rw [if_neg fun hc => h ⟨hc.1, hc.2.1, hc.2.2.1⟩]

/-! ## Flow utility -/

theorem workFlow_jumps (e : Spec.Economy ℝ) (s : State) (hours cost mult : ℝ) {extra : ℝ → ℝ} (h1 : PP extra) :
    ∃ D : Finset ℝ, ∀ w ∉ D, ContinuousAt (workFlow e s hours cost mult extra) w := by
  have hs := scale_pos s
  have p1 : PP fun w => hours * w := (PP.const _).mul PP.id
  have p2 : PP fun w => max (Spec.householdNet e.spec (hours * w) (Spec.partnerWage e.spec s) + extra w
        + Spec.kindergeld e.spec s - cost) 1e-14 / Spec.scale s := by
    simpa only [div_eq_mul_inv] using
      (((((p1.householdNet e.spec (Spec.partnerWage e.spec s)).add h1).add (PP.const _)).sub (PP.const _)).max
        (PP.const 1e-14)).mul (PP.const (Spec.scale s)⁻¹)
  obtain ⟨D, hD⟩ := p2.continuousAt
  refine ⟨D, fun w hw => ?_⟩
  unfold workFlow
  refine (((hD w hw).rpow_const (Or.inl ?_)).div_const _).mul continuousAt_const
  have : (0 : ℝ) < max (Spec.householdNet e.spec (hours * w) (Spec.partnerWage e.spec s) + extra w
        + Spec.kindergeld e.spec s - cost) 1e-14 := lt_max_of_lt_right (by norm_num)
  exact (div_pos this hs).ne'

/-- Finitely many jumps in the wage are finitely many jumps in the shock. -/
theorem jumps_shock {F : ℝ → ℝ} (h : ∃ D : Finset ℝ, ∀ w ∉ D, ContinuousAt F w) (l σ : ℝ) :
    ∃ D : Finset ℝ, ∀ z ∉ D, ContinuousAt (fun z => F (Real.exp (l + z * σ))) z := by
  obtain ⟨D, hD⟩ := h
  rcases eq_or_ne σ 0 with rfl | hσ
  · exact ⟨∅, fun z _ => by simpa using continuousAt_const⟩
  · have hinj : Function.Injective fun z : ℝ => Real.exp (l + z * σ) := fun a b hab => by
      have := Real.exp_injective hab
      exact mul_right_cancel₀ hσ (by linarith)
    refine ⟨D.preimage _ hinj.injOn, fun z hz => ?_⟩
    have hz' : Real.exp (l + z * σ) ∉ D := fun h => hz (Finset.mem_preimage.2 h)
    exact ContinuousAt.comp (f := fun z : ℝ => Real.exp (l + z * σ)) (hD _ hz') (by fun_prop)

theorem flow_jumps (e : Spec.Economy ℝ) (s : State) (x : ℝ) (c : Fin 3) (σ : ℝ) :
    ∃ D : Finset ℝ, ∀ z ∉ D, ContinuousAt (fun z => Spec.flow e s x c (z * σ)) z := by
  fin_cases c
  · exact ⟨∅, fun z _ => continuousAt_const⟩
  · exact jumps_shock (workFlow_jumps e s 18 _ _ (PP.partTimeBenefit e s)) _ σ
  · exact jumps_shock (workFlow_jumps e s 38 _ _ (PP.const 0)) _ σ

/-- At most exponential growth in the shock. -/
def Growth (f : ℝ → ℝ) : Prop := ∃ C a : ℝ, 0 ≤ C ∧ 0 ≤ a ∧ ∀ z, |f z| ≤ C * Real.exp (a * |z|)

theorem Growth.const (c : ℝ) : Growth fun _ => c := ⟨|c|, 0, abs_nonneg _, le_rfl, fun z => by simp⟩

theorem Growth.of_le {f g h : ℝ → ℝ} (hf : Growth f) (hg : Growth g) (hle : ∀ z, |h z| ≤ |f z| + |g z|) :
    Growth h := by
  obtain ⟨C, a, hC, ha, h1⟩ := hf
  obtain ⟨D, b, hD, hb, h2⟩ := hg
  refine ⟨C + D, a + b, add_nonneg hC hD, add_nonneg ha hb, fun z => (hle z).trans ?_⟩
  have e1 : Real.exp (a * |z|) ≤ Real.exp ((a + b) * |z|) :=
    Real.exp_le_exp.2 (mul_le_mul_of_nonneg_right (by linarith) (abs_nonneg z))
  have e2 : Real.exp (b * |z|) ≤ Real.exp ((a + b) * |z|) :=
    Real.exp_le_exp.2 (mul_le_mul_of_nonneg_right (by linarith) (abs_nonneg z))
  have := mul_le_mul_of_nonneg_left e1 hC
  have := mul_le_mul_of_nonneg_left e2 hD
  linarith [h1 z, h2 z]

theorem Growth.add {f g : ℝ → ℝ} (hf : Growth f) (hg : Growth g) : Growth fun z => f z + g z :=
  hf.of_le hg fun _ => abs_add_le _ _

theorem Growth.max {f g : ℝ → ℝ} (hf : Growth f) (hg : Growth g) : Growth fun z => max (f z) (g z) :=
  hf.of_le hg fun z => abs_max_le_max_abs_abs.trans (max_le (by linarith [abs_nonneg (g z)])
    (by linarith [abs_nonneg (f z)]))

theorem Poly.growth {F : ℝ → ℝ} (hF : Poly F) (l σ : ℝ) : Growth fun z => F (Real.exp (l + z * σ)) := by
  obtain ⟨C, N, hC, h⟩ := hF
  refine ⟨C * (1 + Real.exp l) ^ N, N * |σ|, by positivity, by positivity, fun z => (h _ (Real.exp_pos _).le).trans ?_⟩
  rw [mul_assoc, mul_assoc (N : ℝ), Real.exp_nat_mul, ← mul_pow]
  refine mul_le_mul_of_nonneg_left (pow_le_pow_left₀ (by positivity) ?_ _) hC
  have h1 : Real.exp (z * σ) ≤ Real.exp (|σ| * |z|) := Real.exp_le_exp.2 (by
    rw [← abs_mul, mul_comm σ]; exact le_abs_self _)
  have h2 : 1 ≤ Real.exp (|σ| * |z|) := Real.one_le_exp (by positivity)
  rw [Real.exp_add]
  nlinarith [Real.exp_pos l, mul_le_mul_of_nonneg_left h1 (Real.exp_pos l).le]

theorem flow_growth (e : Spec.Economy ℝ) (s : State) (x : ℝ) (c : Fin 3) (σ : ℝ) :
    Growth fun z => Spec.flow e s x c (z * σ) := by
  fin_cases c
  · exact Growth.const (Spec.flow e s x 0 0)
  · exact (workFlow_poly e s 18 _ _ (partTimeBenefit_poly e s)).growth _ σ
  · exact (workFlow_poly e s 38 _ _ (Poly.const 0)).growth _ σ

theorem best_growth (e : Spec.Economy ℝ) (V : State → ℝ → ℝ) (s : State) (x σ : ℝ) :
    Growth fun z => Spec.best e V s x (z * σ) := by
  have h : ∀ c, Growth fun z => Spec.flow e s x c (z * σ) + e.par.delta * Spec.continuation e V s x c :=
    fun c => (flow_growth e s x c σ).add (Growth.const _)
  unfold Spec.best
  exact ((h 0).max (h 1)).max (h 2)

theorem best_jumps (e : Spec.Economy ℝ) (V : State → ℝ → ℝ) (s : State) (x σ : ℝ) :
    ∃ D : Finset ℝ, ∀ z ∉ D, ContinuousAt (fun z => Spec.best e V s x (z * σ)) z := by
  classical
  choose D hD using fun c => flow_jumps e s x c σ
  refine ⟨D 0 ∪ D 1 ∪ D 2, fun z hz => ?_⟩
  simp only [Finset.mem_union, not_or] at hz
  unfold Spec.best
  exact (((hD 0 z hz.1.1).add continuousAt_const).max ((hD 1 z hz.1.2).add continuousAt_const)).max
    ((hD 2 z hz.2).add continuousAt_const)

/-! ## Rules as distributions -/

/-- The discrete distribution with the given nodes and weights. -/
noncomputable def ruleMeasure (nodes weights : List ℝ) : Measure ℝ :=
  (List.zipWith (fun d w => ENNReal.ofReal w • Measure.dirac d) nodes weights).sum

theorem ruleMeasure_integral {f : ℝ → ℝ} (hf : Measurable f) : ∀ ds ws : List ℝ, (∀ w ∈ ws, 0 ≤ w) →
    Integrable f (ruleMeasure ds ws) ∧
    ∫ x, f x ∂ruleMeasure ds ws = (List.zipWith (fun d w => w * f d) ds ws).sum
  | [], ws, _ => by simp [ruleMeasure]
  | d :: ds, [], _ => by simp [ruleMeasure]
  | d :: ds, w :: ws, hw => by
    obtain ⟨h1, h2⟩ := ruleMeasure_integral hf ds ws fun v hv => hw v (List.mem_cons_of_mem _ hv)
    have heq : ruleMeasure (d :: ds) (w :: ws) = ENNReal.ofReal w • Measure.dirac d + ruleMeasure ds ws := rfl
    have h3 : Integrable f (ENNReal.ofReal w • Measure.dirac d) :=
      (integrable_dirac' hf.stronglyMeasurable (by simp)).smul_measure ENNReal.ofReal_ne_top
    rw [heq]
    refine ⟨h3.add_measure h1, ?_⟩
    rw [integral_add_measure h3 h1, h2, integral_smul_measure, integral_dirac]
    simp only [List.zipWith_cons_cons, List.sum_cons, smul_eq_mul,
      ENNReal.toReal_ofReal (hw w List.mem_cons_self)]

theorem ruleMeasure_nodes : ∀ ds ws : List ℝ, ∀ᵐ x ∂ruleMeasure ds ws, x ∈ ds
  | [], ws => by simp [ruleMeasure]
  | d :: ds, [] => by simp [ruleMeasure]
  | d :: ds, w :: ws => by
    have heq : ruleMeasure (d :: ds) (w :: ws) = ENNReal.ofReal w • Measure.dirac d + ruleMeasure ds ws := rfl
    rw [heq, ae_add_measure_iff]
    refine ⟨Measure.ae_smul_measure (by rw [ae_dirac_eq]; exact List.mem_cons_self) _, ?_⟩
    filter_upwards [ruleMeasure_nodes ds ws] with x hx
    exact List.mem_cons_of_mem _ hx

/-- The rescaled rule of the solver. -/
theorem gaussHermite_gauss {n : ℕ} (hn : 1 ≤ n) {rule : List ℝ × List ℝ} (h : Spec.GaussHermite n rule) :
    Gauss n (ruleMeasure (rule.1.map (· * √2)) (rule.2.map (· * (1 / √Real.pi)))) := by
  have hpi : 0 < √Real.pi := Real.sqrt_pos.2 Real.pi_pos
  have hw : ∀ w ∈ rule.2.map (· * (1 / √Real.pi)), 0 ≤ w := fun w hw => by
    obtain ⟨v, hv, rfl⟩ := List.mem_map.1 hw
    exact mul_nonneg (h.nonneg v hv) (by positivity)
  have hexact : ∀ p : ℝ[X], p.degree < (2 * n : ℕ) →
      ∫ x, p.eval x ∂ruleMeasure (rule.1.map (· * √2)) (rule.2.map (· * (1 / √Real.pi)))
        = ∫ x, p.eval x ∂gaussianReal 0 1 := fun p hp => by
    have hq : (p.comp (X * C √2)).degree < (2 * n : ℕ) := by
      refine lt_of_le_of_lt ?_ hp
      rcases eq_or_ne p 0 with rfl | hp0
      · simp
      · rw [degree_eq_natDegree hp0]
        refine degree_le_of_natDegree_le ?_
        rw [natDegree_comp]
        refine (Nat.mul_le_mul_left _ (?_ : (X * C √2 : ℝ[X]).natDegree ≤ 1)).trans (by simp)
        exact natDegree_mul_C_le _ _ |>.trans natDegree_X_le
    have h1 := h.exact _ hq
    rw [hermite_integral] at h1
    simp only [eval_comp, eval_mul, eval_X, eval_C] at h1
    rw [(ruleMeasure_integral p.continuous.measurable _ _ hw).2, List.zipWith_map]
    have h2 : (List.zipWith (fun d w => w * (1 / √Real.pi) * p.eval (d * √2)) rule.1 rule.2).sum
        = (1 / √Real.pi) * (List.zipWith (fun d w => w * p.eval (d * √2)) rule.1 rule.2).sum := by
      generalize rule.1 = l
      generalize rule.2 = m
      induction l generalizing m with
      | nil => simp
      | cons a l ih =>
        cases m with
        | nil => simp
        | cons b m =>
          simp only [List.zipWith_cons_cons, List.sum_cons, ih m]
          ring
    rw [h2, h1, ← mul_assoc, one_div_mul_cancel hpi.ne', one_mul]
    unfold hermiteNormal
    have h3 := gaussianReal_map_mul_const (μ := 0) (v := 1 / 2) (√2)
    have h4 : gaussianReal 0 1 = (gaussianReal 0 (1 / 2)).map (· * √2) := by
      rw [h3]
      congr 1
      · simp
      · ext; simp
    rw [h4, integral_map (by fun_prop) (by fun_prop)]
  have hfin : ruleMeasure (rule.1.map (· * √2)) (rule.2.map (· * (1 / √Real.pi))) Set.univ ≠ ⊤ := by
    have := (ruleMeasure_integral (f := fun _ => (1 : ℝ)) measurable_const (rule.1.map (· * √2))
      (rule.2.map (· * (1 / √Real.pi))) hw).1
    have := (integrable_const_iff.1 this).resolve_left one_ne_zero
    exact measure_ne_top _ _
  refine ⟨⟨?_⟩, ⟨rule.1.map (· * √2), by simp [h.nodes], ruleMeasure_nodes _ _⟩, hexact⟩
  have h1 := hexact (C 1) (by rw [degree_C one_ne_zero]; exact_mod_cast (by omega))
  simp only [eval_C, integral_const, smul_eq_mul, mul_one, probReal_univ] at h1
  rwa [measureReal_def, ENNReal.toReal_eq_one_iff] at h1

end Soepy
