import Verif.Proof.Tax
import Verif.Model.Gettsim

/-!
# Property C85: the tax code and the independent tax function it is tested against
-/

set_option linter.unusedSectionVars false

namespace Soepy.Props
open Soepy
variable {K : Type} [Field K] [LinearOrder K] [IsStrictOrderedRing K]

/-- The independent tax function at the tax parameters of the model. -/
private theorem gettsim_eq (tp : TaxParams K) (h01 : tp.thresholds 0 < tp.thresholds 1)
    (h12 : tp.thresholds 1 < tp.thresholds 2) (h23 : tp.thresholds 2 < tp.thresholds 3) (x : K) :
    Gettsim.piecewisePolynomial x (Gettsim.ofTaxParams tp).1 (Gettsim.ofTaxParams tp).2.1
      (Gettsim.ofTaxParams tp).2.2 = .ok (incTax tp x) := by
  rw [incTax_cases ⟨h01.le, h12.le, h23.le⟩]
  have hc : (List.ofFn tp.thresholds).IsChain (· < ·) := by
    simp [List.ofFn_succ, h01, h12, h23]
  unfold Gettsim.piecewisePolynomial Gettsim.cutRight Gettsim.ofTaxParams calcIntervalTax
  simp only [hc, not_true_eq_false, if_false]
  by_cases c0 : x < tp.thresholds 0
  · have c1 := c0.trans h01
    have c2 := c1.trans h12
    have c3 := c2.trans h23
    simp [List.ofFn_succ, List.countP_cons, not_le.2 c0, not_le.2 c1, not_le.2 c2, not_le.2 c3, c0,
      pure, Except.pure, bind, Except.bind]
  · have d0 := not_lt.1 c0
    by_cases c1 : x < tp.thresholds 1
    · have c2 := c1.trans h12
      have c3 := c2.trans h23
      simp [List.ofFn_succ, List.countP_cons, d0, not_le.2 c1, not_le.2 c2, not_le.2 c3, c0, c1,
        pure, Except.pure, bind, Except.bind, add_assoc]
    · have d1 := not_lt.1 c1
      by_cases c2 : x < tp.thresholds 2
      · have c3 := c2.trans h23
        simp [List.ofFn_succ, List.countP_cons, d0, d1, not_le.2 c2, not_le.2 c3, c0, c1, c2,
          pure, Except.pure, bind, Except.bind, add_assoc]
      · have d2 := not_lt.1 c2
        by_cases c3 : x < tp.thresholds 3
        · simp [List.ofFn_succ, List.countP_cons, d0, d1, d2, not_le.2 c3, c0, c1, c2, c3,
            pure, Except.pure, bind, Except.bind, add_assoc]
        · have d3 := not_lt.1 c3
          simp [List.ofFn_succ, List.countP_cons, d0, d1, d2, d3, c0, c1, c2, c3,
            pure, Except.pure, bind, Except.bind, add_assoc]

/-- **C85**  For every schedule with increasing thresholds and every income, positive or not, both
implementations of the income tax agree with the independent tax function. -/
theorem C85_income_tax_equals_gettsim {tp : TaxParams K} (h01 : tp.thresholds 0 < tp.thresholds 1)
    (h12 : tp.thresholds 1 < tp.thresholds 2) (h23 : tp.thresholds 2 < tp.thresholds 3) (x : K) :
    Gettsim.piecewisePolynomial x (Gettsim.ofTaxParams tp).1 (Gettsim.ofTaxParams tp).2.1
      (Gettsim.ofTaxParams tp).2.2 = .ok (incTax tp x) ∧
    Gettsim.piecewisePolynomial x (Gettsim.ofTaxParams tp).1 (Gettsim.ofTaxParams tp).2.1
      (Gettsim.ofTaxParams tp).2.2 = .ok (pyIncTax tp x) := by
  refine ⟨gettsim_eq tp h01 h12 h23 x, ?_⟩
  rw [gettsim_eq tp h01 h12 h23 x, incTax_eq_pyIncTax ⟨h01.le, h12.le, h23.le⟩]

/-- **C85**  (the hypothesis is exact) The independent function returns a tax if and only if the
thresholds increase strictly. -/
theorem C85_gettsim_returns_iff (tp : TaxParams K) (x : K) :
    (∃ t, Gettsim.piecewisePolynomial x (Gettsim.ofTaxParams tp).1 (Gettsim.ofTaxParams tp).2.1
      (Gettsim.ofTaxParams tp).2.2 = .ok t) ↔
    tp.thresholds 0 < tp.thresholds 1 ∧ tp.thresholds 1 < tp.thresholds 2 ∧
      tp.thresholds 2 < tp.thresholds 3 := by
  constructor
  · rintro ⟨t, ht⟩
    by_contra hn
    have hc : ¬ (List.ofFn tp.thresholds).IsChain (· < ·) := by
      intro hc
      apply hn
      simpa [List.ofFn_succ] using hc
    unfold Gettsim.piecewisePolynomial Gettsim.cutRight Gettsim.ofTaxParams at ht
    simp only [hc, not_false_eq_true, if_true, bind, Except.bind] at ht
    cases ht
  · rintro ⟨h01, h12, h23⟩
    exact ⟨_, gettsim_eq tp h01 h12 h23 x⟩

/-- **C85**  Household net income from the independent function: a single keeps taxable income less
the tax with its 5 percent surcharge; a couple earning the same wage keeps twice that, in either filing
mode; a couple filing jointly is taxed as two individuals who each have half of the joint taxable
income. -/
theorem C85_net_income_equals_gettsim {tp : TaxParams K} (h01 : tp.thresholds 0 < tp.thresholds 1)
    (h12 : tp.thresholds 1 < tp.thresholds 2) (h23 : tp.thresholds 2 < tp.thresholds 3)
    (d : SscSpec K) :
    (∀ income : K, ∃ tax taxable, Gettsim.solIndividual tp d income 1.05 = .ok (tax, taxable) ∧
      (∀ male splitting, male ≤ 0 → netIncome tp d income male splitting = taxable - tax) ∧
      (∀ splitting, 0 < income → netIncome tp d income income splitting = (taxable - tax) * 2)) ∧
    (∀ female male : K, 0 < male → ∃ tax,
      Gettsim.piecewisePolynomial
        ((female - d.rate * min female d.cap + (male - d.rate * min male d.cap)) / 2)
        (Gettsim.ofTaxParams tp).1 (Gettsim.ofTaxParams tp).2.1 (Gettsim.ofTaxParams tp).2.2
        = .ok tax ∧
      netIncome tp d female male true =
        female - d.rate * min female d.cap + (male - d.rate * min male d.cap) - 2 * (tax * 1.05)) := by
  constructor
  · intro income
    refine ⟨incTax tp (income - pySscDeductions d income) * 1.05, income - pySscDeductions d income,
      ?_, ?_, ?_⟩
    · unfold Gettsim.solIndividual
      have := gettsim_eq tp h01 h12 h23 (income - pySscDeductions d income)
      simp only [this, bind, Except.bind, pure, Except.pure]
    · intro male sp hm
      rw [netIncome_single hm]
      rfl
    · intro sp hpos
      rw [netIncome_couple hpos]
      have e : (income + income - sscDeductions d income - sscDeductions d income) / 2
          = income - pySscDeductions d income := by
        change _ = income - sscDeductions d income
        ring
      rw [e]
      change _ - (if sp then _ else incTax tp (income - sscDeductions d income)
        + incTax tp (income - sscDeductions d income)) * _ = (income - sscDeductions d income
        - incTax tp (income - sscDeductions d income) * _) * 2
      change _ - (if sp then incTax tp (income - sscDeductions d income) * 2 else _) * _ = _
      cases sp <;> simp only [Bool.false_eq_true, if_true, if_false] <;> ring
  · intro female male hm
    refine ⟨_, gettsim_eq tp h01 h12 h23 _, ?_⟩
    rw [netIncome_couple hm]
    unfold sscDeductions
    simp only [if_true]
    have e : male + female - d.rate * min male d.cap - d.rate * min female d.cap
        = female - d.rate * min female d.cap + (male - d.rate * min male d.cap) := by ring
    rw [e]
    ring

/-- The schedule of 2007 meets the hypotheses, and the taxes are not zero. -/
example : (createTaxParameters : TaxParams ℚ).thresholds 0 < (createTaxParameters : TaxParams ℚ).thresholds 1 ∧
    (createTaxParameters : TaxParams ℚ).thresholds 1 < (createTaxParameters : TaxParams ℚ).thresholds 2 ∧
    (createTaxParameters : TaxParams ℚ).thresholds 2 < (createTaxParameters : TaxParams ℚ).thresholds 3 ∧
    0 < incTax (createTaxParameters : TaxParams ℚ) 300 := by decide +kernel

end Soepy.Props
