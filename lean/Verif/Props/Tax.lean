import Verif.Proof.Tax
import Verif.Model.RealInst
import Mathlib.Topology.MetricSpace.Lipschitz

/-!
# Properties C18-C22: taxes and contributions
-/

set_option linter.unusedSectionVars false

namespace Soepy.Props
open Soepy
variable {K : Type} [Field K] [LinearOrder K] [IsStrictOrderedRing K]

/-- **C18**  The vectorised tax code equals the scalar reference, for every schedule with
nondecreasing thresholds, all incomes and both filing modes. -/
theorem C18_vectorised_tax_equals_reference {tp : TaxParams K}
    (h01 : tp.thresholds 0 ≤ tp.thresholds 1) (h12 : tp.thresholds 1 ≤ tp.thresholds 2)
    (h23 : tp.thresholds 2 ≤ tp.thresholds 3) (d : SscSpec K) :
    (∀ x, incTax tp x = pyIncTax tp x) ∧
    (∀ x, sscDeductions d x = pySscDeductions d x) ∧
    (∀ female male splitting,
      netIncome tp d female male splitting = pyNetIncome tp d female male splitting) := by
  have h : SortedThresholds tp := ⟨h01, h12, h23⟩
  refine ⟨incTax_eq_pyIncTax h, fun _ => rfl, ?_⟩
  intro f m sp
  rcases lt_or_ge 0 m with hm | hm
  · rw [netIncome_couple hm]
    simp only [incTax_eq_pyIncTax h]
    unfold pyNetIncome
    simp only [gt_iff_lt, hm, if_true]
    rfl
  · rw [netIncome_single hm]
    simp only [incTax_eq_pyIncTax h]
    unfold pyNetIncome
    simp only [gt_iff_lt, not_lt.2 hm, if_false]
    rfl

example : (createTaxParameters : TaxParams ℚ).thresholds 0 ≤ (createTaxParameters : TaxParams ℚ).thresholds 1 ∧
    (createTaxParameters : TaxParams ℚ).thresholds 1 ≤ (createTaxParameters : TaxParams ℚ).thresholds 2 ∧
    (createTaxParameters : TaxParams ℚ).thresholds 2 ≤ (createTaxParameters : TaxParams ℚ).thresholds 3 :=
  proper2007.sorted

/-- The scalar reference and the masks disagree when thresholds are not sorted, so the hypothesis of
C18 is needed. -/
theorem C18_sorted_needed : ∃ (tp : TaxParams ℚ) (x : ℚ), incTax tp x ≠ pyIncTax tp x :=
  ⟨⟨![0, 1, 0, 1], ![0, 0, 0, 0], ![1, 1, 1, 1], ![0, 0, 0, 0]⟩, 1/2, by decide +kernel⟩

/-- **C19**  The schedule built for 2007: its marginal rate is the one of the law; no tax up to the
allowance; nondecreasing with marginal rate at most 45 percent (hence no jumps); convex. -/
theorem C19_schedule_2007 :
    let T : K → K := incTax createTaxParameters
    Spec.HasMarginal T Spec.marginal2007 ∧
    (∀ x, x ≤ Spec.weekly 7664 → T x = 0) ∧
    (∀ a b, a ≤ b → 0 ≤ T b - T a ∧ T b - T a ≤ 0.45 * (b - a)) ∧
    (∀ a b w, 0 ≤ w → w ≤ 1 → T ((1 - w) * a + w * b) ≤ (1 - w) * T a + w * T b) :=
  ⟨incTax2007_marginal, fun _ h => incTax2007_zero h, fun _ _ h => incTax2007_slope h,
    fun _ _ _ h0 h1 => HasMarginal.convex incTax2007_marginal h0 h1⟩

/-- **C19** (continuity, over the reals). -/
theorem C19_schedule_2007_continuous : Continuous (incTax (createTaxParameters : TaxParams ℝ)) := by
  have h : LipschitzWith (Real.toNNReal 0.45) (incTax (createTaxParameters : TaxParams ℝ)) := by
    apply LipschitzWith.of_dist_le_mul
    have main : ∀ a b : ℝ, a ≤ b → dist (incTax createTaxParameters a) (incTax createTaxParameters b)
        ≤ (Real.toNNReal 0.45 : ℝ) * dist a b := by
      intro a b hab
      obtain ⟨h0, h1⟩ := incTax2007_slope hab
      rw [Real.coe_toNNReal _ (by norm_num), dist_comm, Real.dist_eq, abs_of_nonneg h0, dist_comm,
        Real.dist_eq, abs_of_nonneg (sub_nonneg.2 hab)]
      exact h1
    intro a b
    rcases le_total a b with hab | hab
    · exact main a b hab
    · rw [dist_comm, dist_comm a b]; exact main b a hab
  exact h.continuous

/-- The statement is not about a constant function. -/
example : incTax (createTaxParameters : TaxParams ℚ) 200 ≠ incTax createTaxParameters 300 := by
  decide +kernel

/-- **C20**  Joint filing never costs a couple money; the filing mode does not matter for singles. -/
theorem C20_splitting_never_hurts (d : SscSpec K) (female male : K) :
    netIncome createTaxParameters d female male false
      ≤ netIncome createTaxParameters d female male true ∧
    (male ≤ 0 → netIncome createTaxParameters d female male true
      = netIncome createTaxParameters d female male false) := by
  rcases lt_or_ge 0 male with hm | hm
  · refine ⟨?_, fun h => absurd hm (not_lt.2 h)⟩
    rw [netIncome_couple hm, netIncome_couple hm]
    have hc := HasMarginal.convex (incTax2007_marginal (K := K))
      (a := female - sscDeductions d female) (b := male - sscDeductions d male) (w := 1 / 2)
      (by norm_num) (by norm_num)
    have e : (1 - 1 / 2) * (female - sscDeductions d female) + 1 / 2 * (male - sscDeductions d male)
        = (male + female - sscDeductions d male - sscDeductions d female) / 2 := by ring
    rw [e] at hc
    simp only [if_true]
    norm_num at hc ⊢
    nlinarith
  · rw [netIncome_single hm, netIncome_single hm]
    exact ⟨le_rfl, fun _ => rfl⟩

/-- Splitting is strictly better for some couple. -/
example : netIncome (createTaxParameters : TaxParams ℚ) ⟨1/5, 1000⟩ 100 900 false
    < netIncome createTaxParameters ⟨1/5, 1000⟩ 100 900 true := by decide +kernel

/-- **C21**  With a contribution rate in [0,1) net household income is strictly increasing in the
female wage, and strictly positive as soon as one of two non-negative wages is positive. -/
theorem C21_net_income_increasing {d : SscSpec K} (hr0 : 0 ≤ d.rate) (hr1 : d.rate < 1)
    (splitting : Bool) :
    (∀ male f f' : K, f < f' → netIncome createTaxParameters d f male splitting
      < netIncome createTaxParameters d f' male splitting) ∧
    (∀ female male : K, 0 ≤ female → 0 ≤ male → (0 < female ∨ 0 < male) →
      0 < netIncome createTaxParameters d female male splitting) := by
  have taxable : ∀ f f' : K, f < f' → f - sscDeductions d f < f' - sscDeductions d f' := by
    intro f f' h
    have := (sscDeductions_mono hr0 h.le).2
    nlinarith [mul_pos (sub_pos.2 hr1) (sub_pos.2 h)]
  have h0 : sscDeductions d (0 : K) ≤ 0 := by
    unfold sscDeductions
    exact mul_nonpos_of_nonneg_of_nonpos hr0 (min_le_left _ _)
  have nonneg : ∀ f : K, 0 ≤ f → 0 ≤ f - sscDeductions d f := by
    intro f hf
    rcases eq_or_lt_of_le hf with rfl | hlt
    · linarith
    · linarith [taxable 0 f hlt]
  have T0 : incTax (createTaxParameters : TaxParams K) 0 = 0 :=
    incTax2007_zero (by unfold Spec.weekly; norm_num)
  have lip : ∀ x y : K, x ≤ y → incTax createTaxParameters y - incTax createTaxParameters x ≤ 0.45 * (y - x) :=
    fun x y h => (incTax2007_slope h).2
  constructor
  · intro male f f' hf
    have ht := taxable f f' hf
    rcases lt_or_ge 0 male with hm | hm
    · rw [netIncome_couple hm, netIncome_couple hm]
      cases splitting
      · simp only [Bool.false_eq_true, if_false]
        have := lip _ _ ht.le
        norm_num at this ⊢
        nlinarith
      · simp only [if_true]
        have := lip ((male + f - sscDeductions d male - sscDeductions d f) / 2)
          ((male + f' - sscDeductions d male - sscDeductions d f') / 2) (by linarith)
        norm_num at this ⊢
        nlinarith
    · rw [netIncome_single hm, netIncome_single hm]
      have := lip _ _ ht.le
      norm_num at this ⊢
      nlinarith
  · intro female male hf hm hpos
    have hf' := nonneg female hf
    have hm' := nonneg male hm
    have pos : ∀ f : K, 0 < f → 0 < f - sscDeductions d f := by
      intro f h
      linarith [taxable 0 f h]
    rcases eq_or_lt_of_le hm with hm0 | hmpos
    · have hfpos : 0 < female := by
        rcases hpos with h | h
        · exact h
        · exact absurd hm0 h.ne
      rw [netIncome_single hm0.symm.le]
      have := lip 0 _ hf'
      rw [T0] at this
      have p := pos female hfpos
      norm_num at this ⊢
      nlinarith
    · rw [netIncome_couple hmpos]
      have p := pos male hmpos
      cases splitting
      · simp only [Bool.false_eq_true, if_false]
        have a := lip 0 _ hf'
        have b := lip 0 _ hm'
        rw [T0] at a b
        norm_num at a b ⊢
        nlinarith
      · simp only [if_true]
        have a := lip 0 ((male + female - sscDeductions d male - sscDeductions d female) / 2)
          (by linarith)
        rw [T0] at a
        norm_num at a ⊢
        nlinarith

example : (0 : ℚ) ≤ (SscSpec.mk (1/5) 1000 : SscSpec ℚ).rate ∧
    (SscSpec.mk (1/5) 1000 : SscSpec ℚ).rate < 1 ∧
    0 < netIncome (createTaxParameters : TaxParams ℚ) ⟨1/5, 1000⟩ 300 0 true := by decide +kernel

/-- **C22**  Contributions: proportional up to the cap, constant beyond, nondecreasing, never above
rate times cap. -/
theorem C22_contributions_capped {d : SscSpec K} (hr : 0 ≤ d.rate) :
    (∀ w, w ≤ d.cap → sscDeductions d w = d.rate * w) ∧
    (∀ w, d.cap ≤ w → sscDeductions d w = d.rate * d.cap) ∧
    (∀ w w', w ≤ w' → sscDeductions d w ≤ sscDeductions d w') ∧
    (∀ w, sscDeductions d w ≤ d.rate * d.cap) := by
  refine ⟨?_, ?_, ?_, ?_⟩
  · intro w h; unfold sscDeductions; rw [min_eq_left h]
  · intro w h; unfold sscDeductions; rw [min_eq_right h]
  · intro w w' h; exact (sscDeductions_mono hr h).1
  · intro w; unfold sscDeductions; exact mul_le_mul_of_nonneg_left (min_le_right _ _) hr

example : sscDeductions (⟨1/5, 1000⟩ : SscSpec ℚ) 500 = 100 ∧
    sscDeductions (⟨1/5, 1000⟩ : SscSpec ℚ) 5000 = 200 := by decide +kernel

end Soepy.Props
