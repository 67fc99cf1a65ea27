import Verif.Spec.Truth
import Verif.Proof.Normal
import Verif.Proof.Slopes
import Mathlib.Analysis.Calculus.MeanValue
import Mathlib.Analysis.SpecialFunctions.Pow.Deriv

/-! How far the values on a grid are from the values without one, if the expectation over the shock is exact. -/

set_option linter.unusedSectionVars false

namespace Soepy
open MeasureTheory ProbabilityTheory Set

variable {e : Spec.Economy ℝ} {s : State}

theorem Slopes.abs_bounded {f : ℝ → ℝ} (hf : Slopes f) : ∃ B, ∀ x, 0 ≤ x → x ≤ 1 → |f x| ≤ B := by
  obtain ⟨L, h0, h⟩ := hf
  refine ⟨|f 0| + L, fun x hx hx1 => ?_⟩
  have h1 := h x 0 hx hx1 le_rfl zero_le_one
  rw [sub_zero, abs_of_nonneg hx] at h1
  have h2 := mul_le_mul_of_nonneg_left hx1 h0
  have h3 := abs_add_le (f x - f 0) (f 0)
  rw [sub_add_cancel] at h3
  linarith

/-! ## Slopes that grow at most polynomially -/

/-- The slopes of a function grow at most polynomially on the nonnegative numbers. -/
def PolySlope (f : ℝ → ℝ) : Prop :=
  ∃ (C : ℝ) (N : ℕ), 0 ≤ C ∧ ∀ a b, 0 ≤ a → a ≤ b → |f a - f b| ≤ C * (1 + b) ^ N * |a - b|

theorem PolySlope.of_le {f g h : ℝ → ℝ} (hf : PolySlope f) (hg : PolySlope g)
    (hle : ∀ a b, 0 ≤ a → a ≤ b → |h a - h b| ≤ |f a - f b| + |g a - g b|) : PolySlope h := by
  obtain ⟨C, N, hC, h1⟩ := hf
  obtain ⟨D, M, hD, h2⟩ := hg
  refine ⟨C + D, N + M, add_nonneg hC hD, fun a b ha hab => (hle a b ha hab).trans ?_⟩
  have hb : 0 ≤ b := ha.trans hab
  have e1 : (1 + b) ^ N ≤ (1 + b) ^ (N + M) := pow_le_pow_right₀ (by linarith) (Nat.le_add_right _ _)
  have e2 : (1 + b) ^ M ≤ (1 + b) ^ (N + M) := pow_le_pow_right₀ (by linarith) (Nat.le_add_left _ _)
  have k1 := mul_le_mul_of_nonneg_right (mul_le_mul_of_nonneg_left e1 hC) (abs_nonneg (a - b))
  have k2 := mul_le_mul_of_nonneg_right (mul_le_mul_of_nonneg_left e2 hD) (abs_nonneg (a - b))
  have e3 : (C + D) * (1 + b) ^ (N + M) * |a - b|
      = C * (1 + b) ^ (N + M) * |a - b| + D * (1 + b) ^ (N + M) * |a - b| := by ring
  rw [e3]
  exact add_le_add ((h1 a b ha hab).trans k1) ((h2 a b ha hab).trans k2)

theorem PolySlope.const (v : ℝ) : PolySlope fun _ => v := ⟨0, 0, le_rfl, fun a b _ _ => by simp⟩

theorem PolySlope.id : PolySlope fun w => w := ⟨1, 0, zero_le_one, fun a b _ _ => by simp⟩

theorem PolySlope.add {f g : ℝ → ℝ} (hf : PolySlope f) (hg : PolySlope g) : PolySlope fun w => f w + g w :=
  hf.of_le hg fun a b _ _ => by rw [add_sub_add_comm]; exact abs_add_le _ _

theorem PolySlope.sub {f g : ℝ → ℝ} (hf : PolySlope f) (hg : PolySlope g) : PolySlope fun w => f w - g w :=
  hf.of_le hg fun a b _ _ => by rw [sub_sub_sub_comm]; exact abs_sub _ _

theorem PolySlope.max {f g : ℝ → ℝ} (hf : PolySlope f) (hg : PolySlope g) : PolySlope fun w => max (f w) (g w) :=
  hf.of_le hg fun a b _ _ => (abs_max_sub_max_le_max _ _ _ _).trans
    (max_le (by linarith [abs_nonneg (g a - g b)]) (by linarith [abs_nonneg (f a - f b)]))

theorem PolySlope.min {f g : ℝ → ℝ} (hf : PolySlope f) (hg : PolySlope g) : PolySlope fun w => min (f w) (g w) :=
  hf.of_le hg fun a b _ _ => (abs_min_sub_min_le_max _ _ _ _).trans
    (max_le (by linarith [abs_nonneg (g a - g b)]) (by linarith [abs_nonneg (f a - f b)]))

/-- Composition with a function whose slopes are bounded. -/
theorem PolySlope.comp {f g : ℝ → ℝ} (hf : PolySlope f) {M : ℝ} (hM : 0 ≤ M) (hg : ∀ u v, |g u - g v| ≤ M * |u - v|) :
    PolySlope fun w => g (f w) := by
  obtain ⟨C, N, hC, h⟩ := hf
  refine ⟨M * C, N, mul_nonneg hM hC, fun a b ha hab => (hg _ _).trans ?_⟩
  rw [mul_assoc, mul_assoc, ← mul_assoc C]
  exact mul_le_mul_of_nonneg_left (h a b ha hab) hM

theorem PolySlope.mul_left {f : ℝ → ℝ} (hf : PolySlope f) (v : ℝ) : PolySlope fun w => v * f w :=
  hf.comp (g := fun u => v * u) (abs_nonneg v) fun u w => by rw [← mul_sub, abs_mul]

theorem PolySlope.mul_right {f : ℝ → ℝ} (hf : PolySlope f) (v : ℝ) : PolySlope fun w => f w * v := by
  simpa only [mul_comm] using hf.mul_left v

theorem PolySlope.div_right {f : ℝ → ℝ} (hf : PolySlope f) (v : ℝ) : PolySlope fun w => f w / v := by
  simpa only [div_eq_mul_inv] using hf.mul_right v⁻¹

theorem PolySlope.householdNet {spec : ModelSpec ℝ} (h : Rules2007 spec) {f : ℝ → ℝ} (hf : PolySlope f) (male : ℝ) :
    PolySlope fun w => Spec.householdNet spec (f w) male := by
  have ht : PolySlope fun w => Spec.taxable spec.ssc_deductions (f w) :=
    hf.sub ((hf.min (.const _)).mul_left _)
  have hsch : ∀ {k : ℝ → ℝ}, PolySlope k → PolySlope fun w => Spec.schedule spec.tax_params (k w) := fun hk =>
    hk.comp (M := 0.45) (by norm_num) fun a b => schedule_abs h a b
  unfold Spec.householdNet
  dsimp only
  split
  · split
    · exact (ht.add (.const _)).sub ((((hsch ((ht.add (.const _)).div_right _))).mul_left _).mul_left _)
    · exact (ht.add (.const _)).sub (((hsch ht).add (.const _)).mul_left _)
  · exact ht.sub ((hsch ht).mul_left _)

/-- Slopes of a power between two positive bounds. -/
theorem rpow_slope {m F μ c d : ℝ} (hm : 0 < m) (hc : m ≤ c) (hcF : c ≤ F) (hd : m ≤ d) (hdF : d ≤ F) :
    |c ^ μ - d ^ μ| ≤ |μ| * (m ^ (μ - 1) + (1 + F) ^ ⌈μ⌉₊) * |c - d| := by
  have hF : 0 < F := hm.trans_le (hc.trans hcF)
  have hder : ∀ t ∈ Icc m F, HasDerivWithinAt (fun t : ℝ => t ^ μ) (μ * t ^ (μ - 1)) (Icc m F) t := fun t ht =>
    (Real.hasDerivAt_rpow_const (Or.inl (hm.trans_le ht.1).ne')).hasDerivWithinAt
  have hbound : ∀ t ∈ Icc m F, ‖μ * t ^ (μ - 1)‖ ≤ |μ| * (m ^ (μ - 1) + (1 + F) ^ ⌈μ⌉₊) := by
    intro t ht
    have t0 : 0 < t := hm.trans_le ht.1
    rw [Real.norm_eq_abs, abs_mul, abs_of_nonneg (Real.rpow_nonneg t0.le _)]
    refine mul_le_mul_of_nonneg_left ?_ (abs_nonneg _)
    have p1 : 0 ≤ m ^ (μ - 1) := Real.rpow_nonneg hm.le _
    have p2 : 0 ≤ (1 + F) ^ ⌈μ⌉₊ := by positivity
    rcases le_total (μ - 1) 0 with h | h
    · exact (Real.rpow_le_rpow_of_nonpos hm ht.1 h).trans (by linarith)
    · have h1 : t ^ (μ - 1) ≤ (1 + F) ^ ⌈μ⌉₊ := by
        calc t ^ (μ - 1) ≤ (1 + F) ^ (μ - 1) := Real.rpow_le_rpow t0.le (by linarith [ht.2]) h
          _ ≤ (1 + F) ^ (⌈μ⌉₊ : ℝ) := Real.rpow_le_rpow_of_exponent_le (by linarith) (by linarith [Nat.le_ceil μ])
          _ = (1 + F) ^ ⌈μ⌉₊ := Real.rpow_natCast _ _
      linarith
  have := Convex.norm_image_sub_le_of_norm_hasDerivWithin_le hder hbound (convex_Icc m F) ⟨hd, hdF⟩ ⟨hc, hcF⟩
  simpa only [Real.norm_eq_abs] using this

/-- A power of a function bounded away from zero. -/
theorem PolySlope.rpow {f : ℝ → ℝ} (hf : PolySlope f) (hp : Poly f) {m : ℝ} (hm : 0 < m) (hb : ∀ w, 0 ≤ w → m ≤ f w)
    (μ : ℝ) : PolySlope fun w => f w ^ μ := by
  obtain ⟨C, N, hC, h1⟩ := hf
  obtain ⟨D, M, hD, h2⟩ := hp
  -- the bound of the slope, as a function of the larger argument
  have hk : Poly fun b => |μ| * (m ^ (μ - 1) + (1 + D * (1 + b) ^ M) ^ ⌈μ⌉₊) * (C * (1 + b) ^ N) :=
    ((Poly.const _).mul ((Poly.const _).add (((Poly.const 1).add ((Poly.const D).mul
      (((Poly.const 1).add Poly.id).pow M))).pow _))).mul ((Poly.const C).mul (((Poly.const 1).add Poly.id).pow N))
  obtain ⟨E, L, hE, h3⟩ := hk
  refine ⟨E, L, hE, fun a b ha hab => ?_⟩
  have hb0 : 0 ≤ b := ha.trans hab
  have fa : f a ≤ D * (1 + b) ^ M := (le_abs_self _).trans ((h2 a ha).trans
    (mul_le_mul_of_nonneg_left (pow_le_pow_left₀ (by linarith) (by linarith) M) hD))
  have fb : f b ≤ D * (1 + b) ^ M := (le_abs_self _).trans (h2 b hb0)
  refine (rpow_slope hm (hb a ha) fa (hb b hb0) fb).trans ?_
  have q : 0 ≤ |μ| * (m ^ (μ - 1) + (1 + D * (1 + b) ^ M) ^ ⌈μ⌉₊) := by
    have := Real.rpow_nonneg hm.le (μ - 1)
    positivity
  refine (mul_le_mul_of_nonneg_left (h1 a b ha hab) q).trans ?_
  rw [← mul_assoc]
  exact mul_le_mul_of_nonneg_right ((le_abs_self _).trans (h3 b hb0)) (abs_nonneg _)

theorem workFlow_slope {e : Spec.Economy ℝ} (hrules : Rules2007 e.spec) (s : State) (hours cost mult v : ℝ) :
    PolySlope (workFlow e s hours cost mult fun _ => v) := by
  have hs := scale_pos s
  have p1 : PolySlope fun w => hours * w := PolySlope.id.mul_left hours
  have q1 : Poly fun w => hours * w := (Poly.const _).mul Poly.id
  have p2 : PolySlope fun w => max (Spec.householdNet e.spec (hours * w) (Spec.partnerWage e.spec s) + v
        + Spec.kindergeld e.spec s - cost) 1e-14 / Spec.scale s :=
    (((((p1.householdNet hrules (Spec.partnerWage e.spec s)).add (.const _)).add (.const _)).sub (.const _)).max
      (.const _)).div_right _
  have q2 : Poly fun w => max (Spec.householdNet e.spec (hours * w) (Spec.partnerWage e.spec s) + v
        + Spec.kindergeld e.spec s - cost) 1e-14 / Spec.scale s := by
    simpa only [div_eq_mul_inv] using
      (((((q1.householdNet e.spec (Spec.partnerWage e.spec s)).add (Poly.const v)).add (Poly.const _)).sub
        (Poly.const _)).max (Poly.const 1e-14)).mul (Poly.const (Spec.scale s)⁻¹)
  have p3 := p2.rpow q2 (m := 1e-14 / Spec.scale s) (by positivity)
    (fun w _ => div_le_div_of_nonneg_right (le_max_right _ _) hs.le) e.par.mu
  exact (p3.div_right _).mul_right _

/-- Flow utility has slopes in experience that are bounded by an integrable function of the shock. -/
theorem flow_dominated (hr : e.elterngeldRegime = true) (hsolv : Props.Solvent e.spec) (s : State) (σ : ℝ) (c : Fin 3) :
    ∃ H : ℝ → ℝ, Integrable H (gaussianReal 0 1) ∧ (∀ z, 0 ≤ H z) ∧ ∀ x y, 0 ≤ x → x ≤ 1 → 0 ≤ y → y ≤ 1 → ∀ z,
      |Spec.flow e s x c (z * σ) - Spec.flow e s y c (z * σ)| ≤ H z * |x - y| := by
  obtain ⟨B, hB⟩ := (Slopes.logWage (realTame e.par.mu) e s).abs_bounded
  obtain ⟨L, hL, hlw⟩ := Slopes.logWage (realTame e.par.mu) e s
  have work : ∀ f : ℝ → ℝ, PolySlope f → ∃ H : ℝ → ℝ, Integrable H (gaussianReal 0 1) ∧ (∀ z, 0 ≤ H z) ∧
      ∀ x y, 0 ≤ x → x ≤ 1 → 0 ≤ y → y ≤ 1 → ∀ z,
      |f (Real.exp (Spec.logWage e s x + z * σ)) - f (Real.exp (Spec.logWage e s y + z * σ))| ≤ H z * |x - y| := by
    rintro f ⟨C, N, hC, hf⟩
    have hp : Poly fun w => C * (1 + w) ^ N * (w * L) :=
      ((Poly.const C).mul (((Poly.const 1).add Poly.id).pow N)).mul (Poly.id.mul (Poly.const L))
    refine ⟨_, hp.integrable_normal (by fun_prop) B σ, fun z => by positivity, ?_⟩
    -- without loss of generality the wage at `x` is lower
    have key : ∀ x y, 0 ≤ x → x ≤ 1 → 0 ≤ y → y ≤ 1 → ∀ z, Spec.logWage e s x ≤ Spec.logWage e s y →
        |f (Real.exp (Spec.logWage e s x + z * σ)) - f (Real.exp (Spec.logWage e s y + z * σ))|
          ≤ C * (1 + Real.exp (B + z * σ)) ^ N * (Real.exp (B + z * σ) * L) * |x - y| := by
      intro x y hx hx1 hy hy1 z hxy
      refine (hf _ _ (Real.exp_pos _).le (Real.exp_le_exp.2 (by linarith))).trans ?_
      have hBy : Spec.logWage e s y + z * σ ≤ B + z * σ := by linarith [le_of_abs_le (hB y hy hy1)]
      have hBx : Spec.logWage e s x + z * σ ≤ B + z * σ := by linarith [le_of_abs_le (hB x hx hx1)]
      have h1 : |Real.exp (Spec.logWage e s x + z * σ) - Real.exp (Spec.logWage e s y + z * σ)|
          ≤ Real.exp (B + z * σ) * (L * |x - y|) := by
        refine (exp_slope hBx hBy).trans (mul_le_mul_of_nonneg_left ?_ (Real.exp_pos _).le)
        rw [add_sub_add_right_eq_sub]
        exact hlw x y hx hx1 hy hy1
      have h2 : C * (1 + Real.exp (Spec.logWage e s y + z * σ)) ^ N ≤ C * (1 + Real.exp (B + z * σ)) ^ N :=
        mul_le_mul_of_nonneg_left (pow_le_pow_left₀ (by positivity) (by linarith [Real.exp_le_exp.2 hBy]) N) hC
      refine (mul_le_mul h2 h1 (abs_nonneg _) (by positivity)).trans_eq ?_
      ring
    intro x y hx hx1 hy hy1 z
    rcases le_total (Spec.logWage e s x) (Spec.logWage e s y) with h | h
    · exact key x y hx hx1 hy hy1 z h
    · rw [abs_sub_comm, abs_sub_comm x y]; exact key y x hy hy1 hx hx1 z h
  fin_cases c
  · obtain ⟨D, hD, h⟩ := Slopes.flow (realTame e.par.mu) hr hsolv s 0 0
    exact ⟨fun _ => D, integrable_const _, fun _ => hD, fun x y hx hx1 hy hy1 z => h x y hx hx1 hy hy1⟩
  · have hz : (fun w => Spec.partTimeBenefit e s (18 * w)) = fun _ => 0 := by
      funext w; simp [Spec.partTimeBenefit, hr]
    have := work _ (workFlow_slope hsolv.rules s 18 (e.spec.child_care_costs (Spec.careRow s) 0)
      (Spec.multiplier e.par s 1) 0)
    rw [← hz] at this
    exact this
  · exact work _ (workFlow_slope hsolv.rules s 38 _ _ 0)

/-- Expectation over a standard normal shock. -/
noncomputable abbrev normalE (f : ℝ → ℝ) : ℝ := ∫ z, f z ∂gaussianReal 0 1

theorem exactBest_measurable (e : Spec.Economy ℝ) (V : State → ℝ → ℝ) (s : State) (x σ : ℝ) :
    Measurable fun z => Spec.exactBest e V s x (z * σ) := by
  have h : ∀ c, Measurable fun z : ℝ => Spec.flow e s x c (z * σ) :=
    fun c => (flow_measurable e s x c).comp (measurable_id.mul_const σ)
  unfold Spec.exactBest
  exact (((h 0).add_const _).max ((h 1).add_const _)).max ((h 2).add_const _)

theorem exactBest_integrable (e : Spec.Economy ℝ) (V : State → ℝ → ℝ) (s : State) (x σ : ℝ) :
    Integrable (fun z => Spec.exactBest e V s x (z * σ)) (gaussianReal 0 1) := by
  unfold Spec.exactBest
  have h' : ∀ c, Integrable (fun z => Spec.flow e s x c (z * σ) + e.par.delta * Spec.exactContinuation e V s x c)
      (gaussianReal 0 1) :=
    fun c => (flow_integrable e s x c σ).add (integrable_const (μ := gaussianReal 0 1) _)
  exact ((h' 0).sup (h' 1)).sup (h' 2)

/-- A bound of the expected slope, for finitely many states. -/
theorem expected_slope (hr : e.elterngeldRegime = true) (hsolv : Props.Solvent e.spec) (states : List State) :
    ∃ L, 0 ≤ L ∧ ∀ s ∈ states, ∃ H : ℝ → ℝ, Integrable H (gaussianReal 0 1) ∧ normalE H ≤ L ∧
      ∀ c x y, 0 ≤ x → x ≤ 1 → 0 ≤ y → y ≤ 1 → ∀ z,
        |Spec.flow e s x c (z * e.par.shock_sd) - Spec.flow e s y c (z * e.par.shock_sd)| ≤ H z * |x - y| := by
  induction states with
  | nil => exact ⟨0, le_rfl, by simp⟩
  | cons s l ih =>
    obtain ⟨L, hL, h⟩ := ih
    choose H hH h0 hle using flow_dominated hr hsolv s e.par.shock_sd
    refine ⟨max L (normalE fun z => H 0 z + H 1 z + H 2 z), hL.trans (le_max_left _ _), fun t ht => ?_⟩
    rcases List.mem_cons.1 ht with rfl | ht
    · refine ⟨_, ((hH 0).add (hH 1)).add (hH 2), le_max_right _ _, fun c x y hx hx1 hy hy1 z => ?_⟩
      refine (hle c x y hx hx1 hy hy1 z).trans (mul_le_mul_of_nonneg_right ?_ (abs_nonneg _))
      have a0 := h0 0 z
      have a1 := h0 1 z
      have a2 := h0 2 z
      show H c z ≤ H 0 z + H 1 z + H 2 z
      fin_cases c
      · show H 0 z ≤ _; linarith
      · show H 1 z ≤ _; linarith
      · show H 2 z ≤ _; linarith
    · obtain ⟨k, k1, k2, k3⟩ := h t ht
      exact ⟨k, k1, k2.trans (le_max_left _ _), k3⟩

/-- Slopes of the values without approximation. -/
theorem trueW_lipschitz (hv : ValidBeliefs e) (hp : ProperBeliefs e) {L : ℝ} (hL : 0 ≤ L)
    (hflow : ∀ s : State, Spec.InRange e.spec s → ∃ H : ℝ → ℝ, Integrable H (gaussianReal 0 1) ∧ normalE H ≤ L ∧
      ∀ c x y, 0 ≤ x → x ≤ 1 → 0 ≤ y → y ≤ 1 → ∀ z,
        |Spec.flow e s x c (z * e.par.shock_sd) - Spec.flow e s y c (z * e.par.shock_sd)| ≤ H z * |x - y|) :
    ∀ (r : Nat) (s : State), (0 < r → Spec.InRange e.spec s) → s.period + r = e.spec.num_periods →
      ∀ x y, 0 ≤ x → x ≤ 1 → 0 ≤ y → y ≤ 1 →
      |Spec.trueW normalE e r s x - Spec.trueW normalE e r s y| ≤ Spec.geometric e.par.delta r * L * |x - y|
  | 0, _, _, _, _, _, _, _, _, _ => by simp [Spec.trueW, Spec.geometric]
  | r + 1, s, hs, ht, x, y, hx, hx1, hy, hy1 => by
    have hs := hs (Nat.succ_pos r)
    have hn : ∀ (c : Fin 3) b q, q < 2 → 0 < r →
        Spec.InRange e.spec (Spec.successor e.spec.child_age_max s c b q) :=
      fun c _ _ hq hr => successor_inRange hs (by omega) c.isLt hq fun _ => hp.ages
    have hc : ∀ c : Fin 3, |Spec.exactContinuation e (Spec.trueW normalE e r) s x c
        - Spec.exactContinuation e (Spec.trueW normalE e r) s y c| ≤ Spec.geometric e.par.delta r * L * |x - y| := by
      intro c
      unfold Spec.exactContinuation
      refine abs_mix (hv.birth0 _ _) (hv.birth1 _ _) (hv.partner _ _ _ _) (hv.partner _ _ _ _)
        (hp.partners _ _ _ hs.period hs.educ hs.partner)
        (u := fun b q => Spec.trueW normalE e r (Spec.successor e.spec.child_age_max s c b q) (Spec.stockNext e s x c))
        (v := fun b q => Spec.trueW normalE e r (Spec.successor e.spec.child_age_max s c b q)
          (Spec.stockNext e s y c)) ?_
      intro b q hq
      have m1 := stockNext_mem e s x c
      have m2 := stockNext_mem e s y c
      refine (trueW_lipschitz hv hp hL hflow r _ (hn c b q hq) (by show s.period + 1 + r = _; omega) _ _ m1.1
        m1.2 m2.1 m2.2).trans ?_
      exact mul_le_mul_of_nonneg_left (stockNext_lipschitz e s c x y) (mul_nonneg (geometric_nonneg hv.delta r) hL)
    obtain ⟨H, hH, hHL, hle⟩ := hflow s hs
    rw [Spec.trueW, Spec.trueW]
    unfold normalE
    rw [← integral_sub (exactBest_integrable e _ s x _) (exactBest_integrable e _ s y _)]
    set D := e.par.delta * (Spec.geometric e.par.delta r * L * |x - y|) with hD
    have hbd : ∀ z, ‖Spec.exactBest e (Spec.trueW normalE e r) s x (z * e.par.shock_sd)
        - Spec.exactBest e (Spec.trueW normalE e r) s y (z * e.par.shock_sd)‖ ≤ H z * |x - y| + D := by
      intro z
      rw [Real.norm_eq_abs]
      refine abs_max3 (a := fun c => Spec.flow e s x c (z * e.par.shock_sd)
          + e.par.delta * Spec.exactContinuation e (Spec.trueW normalE e r) s x c)
        (b := fun c => Spec.flow e s y c (z * e.par.shock_sd)
          + e.par.delta * Spec.exactContinuation e (Spec.trueW normalE e r) s y c) fun c => ?_
      rw [add_sub_add_comm, ← mul_sub]
      refine (abs_add_le _ _).trans (add_le_add (hle c x y hx hx1 hy hy1 z) ?_)
      rw [abs_mul, abs_of_nonneg hv.delta]
      exact mul_le_mul_of_nonneg_left (hc c) hv.delta
    have hint : Integrable (fun z => H z * |x - y| + D) (gaussianReal 0 1) :=
      (hH.mul_const _).add (integrable_const (μ := gaussianReal 0 1) _)
    refine (norm_integral_le_of_norm_le hint (Filter.Eventually.of_forall hbd)).trans ?_
    rw [integral_add (hH.mul_const _) (integrable_const (μ := gaussianReal 0 1) _), integral_mul_const, integral_const,
      probReal_univ, one_smul, geometric_step]
    have h1 : normalE H * |x - y| ≤ L * |x - y| := mul_le_mul_of_nonneg_right hHL (abs_nonneg _)
    refine (add_le_add_left h1 D).trans_eq ?_
    rw [hD]
    ring

theorem normalE_close {f g : ℝ → ℝ} (hf : Integrable f (gaussianReal 0 1)) (hg : Integrable g (gaussianReal 0 1)) {D : ℝ}
    (h : ∀ z, |f z - g z| ≤ D) : |normalE f - normalE g| ≤ D := by
  unfold normalE
  rw [← integral_sub hf hg]
  have := norm_integral_le_of_norm_le_const (f := fun z => f z - g z) (μ := gaussianReal 0 1)
    (Filter.Eventually.of_forall h)
  simpa using this

/-- Error of the values on the grid. -/
theorem true_errors (hv : ValidBeliefs e) (hg : UnitGrid e.spec.exp_grid) (hp : ProperBeliefs e) {ε : ℝ}
    (hε : ∀ r (s : State), Spec.InRange e.spec s → s.period + r = e.spec.num_periods → ∀ y, 0 ≤ y → y ≤ 1 →
      |Spec.interp e.spec.exp_grid (Spec.trueW normalE e r s) y - Spec.trueW normalE e r s y| ≤ ε) :
    ∀ (r : Nat) (s : State), Spec.InRange e.spec s → s.period + (r + 1) = e.spec.num_periods → ∀ x,
      (∀ c, |Spec.continuation e (Spec.valueW normalE e r) s x c
        - Spec.exactContinuation e (Spec.trueW normalE e r) s x c| ≤ Spec.geometric e.par.delta r * ε) ∧
      |Spec.valueW normalE e (r + 1) s x - Spec.trueW normalE e (r + 1) s x|
        ≤ e.par.delta * (Spec.geometric e.par.delta r * ε) := by
  have step : ∀ (r : Nat) (s : State) (x D : ℝ), (∀ c, |Spec.continuation e (Spec.valueW normalE e r) s x c
        - Spec.exactContinuation e (Spec.trueW normalE e r) s x c| ≤ D) →
      |Spec.valueW normalE e (r + 1) s x - Spec.trueW normalE e (r + 1) s x| ≤ e.par.delta * D := by
    intro r s x D h
    rw [Spec.valueW, Spec.trueW]
    refine normalE_close (best_integrable _ fun c => flow_integrable e s x c _) (exactBest_integrable e _ s x _)
      fun z => abs_max3
      (a := fun c => Spec.flow e s x c (z * e.par.shock_sd)
        + e.par.delta * Spec.continuation e (Spec.valueW normalE e r) s x c)
      (b := fun c => Spec.flow e s x c (z * e.par.shock_sd)
        + e.par.delta * Spec.exactContinuation e (Spec.trueW normalE e r) s x c) ?_
    intro c
    rw [add_sub_add_left_eq_sub, ← mul_sub, abs_mul, abs_of_nonneg hv.delta]
    exact mul_le_mul_of_nonneg_left (h c) hv.delta
  intro r
  induction r with
  | zero =>
    intro s hs _ x
    have h : ∀ c, |Spec.continuation e (Spec.valueW normalE e 0) s x c
        - Spec.exactContinuation e (Spec.trueW normalE e 0) s x c| ≤ Spec.geometric e.par.delta 0 * ε := by
      intro c
      have h0 : Spec.valueW normalE e 0 = Spec.W e 0 := rfl
      rw [h0, W_zero, continuation_zero]
      simp [Spec.exactContinuation, Spec.trueW, Spec.geometric]
    exact ⟨h, step 0 s x _ h⟩
  | succ r ih =>
    intro s hs ht x
    have hn : ∀ (c : Fin 3) b q, q < 2 → Spec.InRange e.spec (Spec.successor e.spec.child_age_max s c b q) :=
      fun c _ _ hq => successor_inRange hs (by omega) c.isLt hq fun _ => hp.ages
    have ht' : s.period + 1 + (r + 1) = e.spec.num_periods := by omega
    have h : ∀ c, |Spec.continuation e (Spec.valueW normalE e (r + 1)) s x c
        - Spec.exactContinuation e (Spec.trueW normalE e (r + 1)) s x c| ≤ Spec.geometric e.par.delta (r + 1) * ε := by
      intro c
      have := continuation_error (x := x) (c := c) hv hg hp hs
        (D := e.par.delta * (Spec.geometric e.par.delta r * ε)) (ε := ε)
        (V := Spec.valueW normalE e (r + 1)) (V' := Spec.trueW normalE e (r + 1))
        (fun b q hq a _ => (ih _ (hn c b q hq) ht' a).2) (fun b q hq => hε _ _ (hn c b q hq) ht')
      refine this.trans_eq ?_
      rw [geometric_step]; ring
    exact ⟨h, step (r + 1) s x _ h⟩

end Soepy
