import Verif.Proof.Experience

/-!
# Properties C08-C12: experience stock

Statements about the public helpers of soepy/shared/experience_stock.py.
-/

set_option linter.unusedSectionVars false

namespace Soepy.Props
open Soepy
variable {K : Type} [Field K] [LinearOrder K] [IsStrictOrderedRing K]

/-- **C08**  `next_stock` returns a value in [0,1] for every input whatsoever. -/
theorem C08_next_stock_in_unit_interval (stock : K) (period : Nat) (initExpMax pt : K)
    (choice : Nat) :
    nextStock stock period initExpMax pt choice ∈ Set.Icc (0 : K) 1 :=
  nextStock_mem _ _ _ _ _

/-- No hypotheses; a case where the clip does work. -/
example : nextStock (5 : ℚ) 3 2 (1/2) 2 = 1 := by
  norm_num [nextStock, stockToExpYears, nextExpYears, expYearsToStock, maxExpYears, clip, ind]

/-- **C09**  Experience measured in years grows by exactly the gain of the choice. -/
theorem C09_experience_accounting_exact {stock : K} {period : Nat} {initExpMax pt : K} {choice : Nat}
    (h0 : 0 ≤ stock) (h1 : stock ≤ 1) (hm : 0 ≤ initExpMax) (hpt : 0 ≤ pt) :
    stockToExpYears (nextStock stock period initExpMax pt choice) (period + 1) initExpMax pt
      = stockToExpYears stock period initExpMax pt + Spec.gain pt choice := by
  rw [nextStock_eq_div h0 h1 hm hpt]
  unfold stockToExpYears
  exact div_mul_cancel₀ _ (maxExpYears_succ_pos hm).ne'

/-- **C09** (what "years" means)  The scale used for the stock is the experience of someone who
started with the maximum and gained as much as possible in each period. -/
theorem C09_scale_is_most_years (stock : K) (period : Nat) (initExpMax pt : K) :
    stockToExpYears stock period initExpMax pt = stock * Spec.mostYears initExpMax pt period := by
  unfold stockToExpYears
  rw [maxExpYears_eq_mostYears]

example : (0 : ℚ) ≤ 1/3 ∧ (1/3 : ℚ) ≤ 1 ∧ (0 : ℚ) ≤ 4 ∧ (0 : ℚ) ≤ 1/2 ∧
    stockToExpYears (nextStock (1/3 : ℚ) 2 4 (1/2) 1) 3 4 (1/2) = 2 + 1/2 := by
  norm_num [nextStock, stockToExpYears, nextExpYears, expYearsToStock, maxExpYears, clip, ind]

/-- **C10**  Stock to years and back. -/
theorem C10_stock_years_roundtrip {period : Nat} {initExpMax pt : K}
    (h : 0 < Spec.mostYears initExpMax pt period) (stock years : K) :
    expYearsToStock (stockToExpYears stock period initExpMax pt) period initExpMax pt = stock ∧
    stockToExpYears (expYearsToStock years period initExpMax pt) period initExpMax pt = years := by
  rw [← maxExpYears_eq_mostYears] at h
  unfold expYearsToStock stockToExpYears
  simp only [gt_iff_lt, h, if_true]
  exact ⟨mul_div_cancel_right₀ _ h.ne', div_mul_cancel₀ _ h.ne'⟩

/-- **C10** (corner case)  With no maximal years the conversion divides by one: zero years are stock
zero, and converting back gives zero years. -/
theorem C10_zero_scale {period : Nat} {initExpMax pt : K}
    (h : Spec.mostYears initExpMax pt period = 0) (years : K) :
    expYearsToStock years period initExpMax pt = years ∧
    expYearsToStock 0 period initExpMax pt = 0 ∧
    stockToExpYears (expYearsToStock 0 period initExpMax pt) period initExpMax pt = 0 := by
  rw [← maxExpYears_eq_mostYears] at h
  unfold expYearsToStock stockToExpYears
  simp [h]

example : 0 < Spec.mostYears (4 : ℚ) (1/2) 3 := by norm_num [Spec.mostYears]
example : Spec.mostYears (0 : ℚ) (1/2) 0 = 0 := by norm_num [Spec.mostYears]

/-- **C11**  More work never yields less experience, and more experience today never yields less
tomorrow.  (No assumption on the stock is needed.) -/
theorem C11_next_stock_monotone {initExpMax pt : K} (hm : 0 ≤ initExpMax) (hpt0 : 0 ≤ pt)
    (hpt1 : pt ≤ 1) (period : Nat) :
    (∀ stock : K,
      nextStock stock period initExpMax pt 0 ≤ nextStock stock period initExpMax pt 1 ∧
      nextStock stock period initExpMax pt 1 ≤ nextStock stock period initExpMax pt 2) ∧
    (∀ (choice : Nat) (s s' : K), s ≤ s' →
      nextStock s period initExpMax pt choice ≤ nextStock s' period initExpMax pt choice) := by
  have hpos := maxExpYears_succ_pos (t := period) (pt := pt) hm
  have hnn := maxExpYears_nonneg (t := period) (pt := pt) hm
  have key : ∀ (a b : K), a ≤ b →
      clip (expYearsToStock a (period + 1) initExpMax pt) 0 1
        ≤ clip (expYearsToStock b (period + 1) initExpMax pt) 0 1 := by
    intro a b hab
    apply clip_mono
    unfold expYearsToStock
    simp only [gt_iff_lt, hpos, if_true]
    exact div_le_div_of_nonneg_right hab hpos.le
  constructor
  · intro stock
    unfold nextStock
    simp only [nextExpYears_eq]
    refine ⟨key _ _ ?_, key _ _ ?_⟩ <;> simp [Spec.gain, hpt0, hpt1]
  · intro choice s s' h
    unfold nextStock
    simp only [nextExpYears_eq]
    apply key
    unfold stockToExpYears
    exact add_le_add (mul_le_mul_of_nonneg_right h hnn) le_rfl

example : (0 : ℚ) ≤ 4 ∧ (0 : ℚ) ≤ 1/2 ∧ (1/2 : ℚ) ≤ 1 ∧
    nextStock (1/2 : ℚ) 1 4 (1/2) 0 < nextStock (1/2 : ℚ) 1 4 (1/2) 1 ∧
    nextStock (1/2 : ℚ) 1 4 (1/2) 1 < nextStock (1/2 : ℚ) 1 4 (1/2) 2 := by
  norm_num [nextStock, stockToExpYears, nextExpYears, expYearsToStock, maxExpYears, clip, ind]

omit [IsStrictOrderedRing K] in
/-- **C12**  Part-time increment rule. -/
theorem C12_pt_increment_rule (par : ModelParams K) (educ : Nat) (childAge : Int) :
    getPtIncrement par educ childAge true = 1 ∧
    (∀ γ, par.gamma_p[educ]? = some γ →
      getPtIncrement par educ childAge false =
        if childAge = 0 ∨ childAge = 1 ∨ childAge = 2 then γ + par.gamma_p_mom else γ) := by
  constructor
  · rfl
  · intro γ hγ
    have hlen : educ < par.gamma_p.length := (List.getElem?_eq_some_iff.1 hγ).1
    have hix : jaxIndex par.gamma_p.length (educ : Int) = educ := by
      unfold jaxIndex
      have : ¬ ((educ : Int) < 0) := by omega
      simp only [this, if_false]
      omega
    have hget : jget 0 par.gamma_p (educ : Int) = γ := by
      unfold jget
      rw [hix, List.getD_eq_getElem?_getD, hγ]
      rfl
    unfold getPtIncrement
    simp only [hget]
    by_cases h : childAge = 0 ∨ childAge = 1 ∨ childAge = 2
    · have h' : 0 ≤ childAge ∧ childAge ≤ 2 := by omega
      simp [h, h', ind]
    · have h' : ¬ (0 ≤ childAge ∧ childAge ≤ 2) := by omega
      rw [if_neg h]
      have : (decide (0 ≤ childAge) && decide (childAge ≤ 2)) = false := by
        rw [Bool.eq_false_iff]
        simpa using h'
      simp [this, ind]

example : ([1/2, 1/3, 1/4] : List ℚ)[(1 : Nat)]? = some (1/3) := by norm_num

end Soepy.Props
