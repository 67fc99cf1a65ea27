import Verif.Spec.Accuracy
import Verif.Model.RoundedFlow
import Verif.Props.RoundedTax
import Mathlib.Analysis.SpecialFunctions.Pow.Deriv
import Mathlib.Analysis.SpecialFunctions.ExpDeriv
import Mathlib.Analysis.SpecialFunctions.Log.Deriv

/-! # First order errors: numbers of a machine that are near exact numbers -/

set_option linter.unusedSectionVars false

namespace Soepy
open Filter Topology Asymptotics Spec

/-- A machine: number of digits, functions with their accuracy, and a stored tax schedule near `tp`. -/
structure Machine (tp : TaxParams ℝ) (κ : ℝ) where
  digits : ℕ
  enough : 5 ≤ digits
  lib : Library ℝ
  tau : ℝ
  accurate : Accurate lib tau
  tax : TaxParams ℝ
  stored : ScheduleWithin (κ * (1 / 2 ^ digits + tau)) tax tp

namespace Machine
variable {tp : TaxParams ℝ} {κ : ℝ}

/-- The unit of accuracy. -/
noncomputable def eps (m : Machine tp κ) : ℝ := 1 / 2 ^ m.digits + m.tau

/-- Rounding. -/
noncomputable def r (m : Machine tp κ) : ℝ → ℝ := binary m.digits

theorem unit_le_eps (m : Machine tp κ) : 1 / 2 ^ m.digits ≤ m.eps := by
  have := m.accurate.nonneg; unfold eps; linarith

theorem tau_le_eps (m : Machine tp κ) : m.tau ≤ m.eps := by
  have : (0 : ℝ) ≤ 1 / 2 ^ m.digits := by positivity
  unfold eps; linarith

theorem eps_nonneg (m : Machine tp κ) : 0 ≤ m.eps := m.accurate.nonneg.trans m.tau_le_eps

/-- More and more accurate machines. -/
noncomputable def better (tp : TaxParams ℝ) (κ : ℝ) : Filter (Machine tp κ) := comap eps (𝓝 0)

end Machine
open Machine
variable {tp : TaxParams ℝ} {κ : ℝ}

/-- `a` is `b` up to an error of the order of the accuracy of the machine. -/
def Near (a : Machine tp κ → ℝ) (b : ℝ) : Prop := (fun m => a m - b) =O[better tp κ] eps

namespace Near
variable {a a' : Machine tp κ → ℝ} {b b' : ℝ}

theorem eps_tendsto : Tendsto (eps : Machine tp κ → ℝ) (better tp κ) (𝓝 0) := tendsto_comap

theorem lim (h : Near a b) : Tendsto a (better tp κ) (𝓝 b) := by
  have := h.trans_tendsto eps_tendsto
  have h2 := this.add_const b
  simpa using h2

theorem const (b : ℝ) : Near (tp := tp) (κ := κ) (fun _ => b) b := by
  unfold Near; simp only [sub_self]; exact isBigO_zero _ _

theorem add (h : Near a b) (h' : Near a' b') : Near (fun m => a m + a' m) (b + b') := by
  refine (IsBigO.add h h').congr_left fun m => ?_; ring

theorem sub (h : Near a b) (h' : Near a' b') : Near (fun m => a m - a' m) (b - b') := by
  refine (IsBigO.sub h h').congr_left fun m => ?_; ring

theorem mul (h : Near a b) (h' : Near a' b') : Near (fun m => a m * a' m) (b * b') := by
  have h1 : (fun m => (a m - b) * a' m) =O[better tp κ] eps := by
    have := IsBigO.mul h (h'.lim.isBigO_one ℝ)
    simpa using this
  have h2 : (fun m => b * (a' m - b')) =O[better tp κ] eps := h'.const_mul_left b
  refine (h1.add h2).congr_left fun m => ?_; ring

theorem smooth {f : ℝ → ℝ} {f' : ℝ} (hf : HasDerivAt f f' b) (h : Near a b) : Near (fun m => f (a m)) (f b) :=
  (hf.isBigO_sub.comp_tendsto h.lim).trans h

theorem div (h : Near a b) (h' : Near a' b') (hb : b' ≠ 0) : Near (fun m => a m / a' m) (b / b') := by
  have := h.mul (smooth (hasDerivAt_inv hb) h')
  simpa [div_eq_mul_inv] using this

theorem pow_two (h : Near a b) : Near (fun m => a m ^ 2) (b ^ 2) := by
  simpa [sq] using h.mul h

theorem bounded_by {c c' : Machine tp κ → ℝ} {b : ℝ} (h : Near a b) (h' : Near a' b')
    (hle : ∀ m, |c m - c' m| ≤ |a m - b| + |a' m - b'|) : (fun m => c m - c' m) =O[better tp κ] eps := by
  refine IsBigO.trans (isBigO_of_le _ fun m => ?_) ((IsBigO.norm_left h).add (IsBigO.norm_left h'))
  rw [Real.norm_eq_abs, Real.norm_eq_abs]
  exact (hle m).trans (le_abs_self _)

theorem max (h : Near a b) (h' : Near a' b') : Near (fun m => max (a m) (a' m)) (max b b') :=
  bounded_by (c' := fun _ => Max.max b b') h h' fun m =>
    (abs_max_sub_max_le_max _ _ _ _).trans (max_le_add_of_nonneg (abs_nonneg _) (abs_nonneg _))

theorem min (h : Near a b) (h' : Near a' b') : Near (fun m => min (a m) (a' m)) (min b b') :=
  bounded_by (c' := fun _ => Min.min b b') h h' fun m =>
    (abs_min_sub_min_le_max _ _ _ _).trans (max_le_add_of_nonneg (abs_nonneg _) (abs_nonneg _))

/-- A relative error of the order of the accuracy does no harm. -/
theorem relative {f : Machine tp κ → ℝ} (h : Near a b) (hle : ∀ᶠ m in better tp κ, |f m - a m| ≤ |a m| * eps m) :
    Near f b := by
  have h1 : (fun m => f m - a m) =O[better tp κ] eps := by
    have h2 : (fun m => a m * eps m) =O[better tp κ] eps := by
      have := (h.lim.isBigO_one ℝ).mul (isBigO_refl (eps : Machine tp κ → ℝ) (better tp κ))
      simpa using this
    refine IsBigO.trans (IsBigO.of_bound 1 ?_) h2
    filter_upwards [hle] with m hm
    rw [one_mul, norm_mul, Real.norm_eq_abs, Real.norm_eq_abs, Real.norm_eq_abs, abs_of_nonneg m.eps_nonneg]
    exact hm
  refine (h1.add h).congr_left fun m => ?_; ring

theorem round (h : Near a b) : Near (fun m => m.r (a m)) b := by
  refine h.relative (Eventually.of_forall fun m => ?_)
  refine (binary_error m.digits (a m)).trans ?_
  rw [div_eq_mul_one_div]
  exact mul_le_mul_of_nonneg_left m.unit_le_eps (abs_nonneg _)

theorem exp (h : Near a b) : Near (fun m => m.lib.exp (a m)) (Real.exp b) := by
  refine (smooth (Real.hasDerivAt_exp b) h).relative (Eventually.of_forall fun m => ?_)
  refine (m.accurate.exp _).trans ?_
  rw [abs_of_pos (Real.exp_pos _), mul_comm]
  exact mul_le_mul_of_nonneg_left m.tau_le_eps (Real.exp_pos _).le

theorem log (hb : 0 < b) (h : Near a b) : Near (fun m => m.lib.log (a m)) (Real.log b) := by
  refine (smooth (Real.hasDerivAt_log hb.ne') h).relative ?_
  filter_upwards [h.lim.eventually (lt_mem_nhds hb)] with m hm
  refine (m.accurate.log _ hm).trans ?_
  rw [mul_comm]
  exact mul_le_mul_of_nonneg_left m.tau_le_eps (abs_nonneg _)

theorem pow (hb : 0 < b) (mu : ℝ) (h : Near a b) : Near (fun m => m.lib.pow (a m) mu) (b ^ mu) := by
  refine (smooth (Real.hasDerivAt_rpow_const (p := mu) (Or.inl hb.ne')) h).relative ?_
  filter_upwards [h.lim.eventually (lt_mem_nhds hb)] with m hm
  refine (m.accurate.pow _ _ hm).trans ?_
  rw [abs_of_pos (Real.rpow_pos_of_pos hm _), mul_comm]
  exact mul_le_mul_of_nonneg_left m.tau_le_eps (Real.rpow_pos_of_pos hm _).le

/-- A comparison that may go either way where both sides coincide. -/
theorem ite {x t : Machine tp κ → ℝ} {ξ θ : ℝ} (hx : Near x ξ) (ht : Near t θ) (h : ξ ≤ θ → Near a b)
    (h' : θ ≤ ξ → Near a' b) : Near (fun m => if x m < t m then a m else a' m) b := by
  rcases lt_trichotomy ξ θ with hlt | heq | hgt
  · refine IsBigO.congr' (h hlt.le) ?_ EventuallyEq.rfl
    filter_upwards [hx.lim.eventually_lt ht.lim hlt] with m hm
    simp [hm]
  · refine bounded_by (c' := fun _ => b) (h heq.le) (h' heq.ge) fun m => ?_
    split_ifs
    · have := abs_nonneg (a' m - b); linarith
    · have := abs_nonneg (a m - b); linarith
  · refine IsBigO.congr' (h' hgt.le) ?_ EventuallyEq.rfl
    filter_upwards [ht.lim.eventually_lt hx.lim hgt] with m hm
    simp [not_lt.2 hm.le]

theorem congr_ev {f : Machine tp κ → ℝ} (h : Near a b) (he : ∀ᶠ m in better tp κ, a m = f m) : Near f b :=
  IsBigO.congr' h (he.mono fun m hm => by simp only [hm]) EventuallyEq.rfl

end Near
end Soepy
