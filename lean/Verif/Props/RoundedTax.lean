import Verif.Proof.Rounded

/-! # C97: the tax schedule in rounded arithmetic -/

set_option linter.unusedSectionVars false

namespace Soepy.Props
variable {K : Type} [Field K] [LinearOrder K] [IsStrictOrderedRing K] [FloorRing K]
variable {p : ℕ}

open Spec (IsNumber)

/-- C97 (link to the rest of the model): without rounding the functions are those of the model. -/
theorem C97_without_rounding :
    (∀ (tp : TaxParams K) x, incTaxR id tp x = incTax tp x) ∧
    (∀ (tp : TaxParams K) x, pyIncTaxR id tp x = pyIncTax tp x) ∧
    (∀ (tp : TaxParams K) d female male splitting,
      netIncomeR id tp d female male splitting = netIncome tp d female male splitting) ∧
    createTaxParametersR id = (createTaxParameters : TaxParams K) :=
  ⟨fun _ _ => rfl, fun _ _ => rfl, fun _ _ _ _ _ => rfl, rfl⟩

/-- The formula of a bracket does not fall. -/
private theorem interval_mono (hp : 1 ≤ p) (tp : TaxParams K) (i : Fin 4) (hl : 0 ≤ tp.linear i)
    (hq : 0 ≤ tp.quad i) {x y : K} (hx : tp.thresholds i ≤ x) (hxy : x ≤ y) :
    calcIntervalTaxR (binary p) tp x i ≤ calcIntervalTaxR (binary p) tp y i := by
  have m := binary_mono (K := K) p hp
  have h0 : 0 ≤ binary p (x - tp.thresholds i) := binary_nonneg p (by linarith)
  have h1 : binary p (x - tp.thresholds i) ≤ binary p (y - tp.thresholds i) := m (by linarith)
  unfold calcIntervalTaxR
  exact m (add_le_add le_rfl (m (add_le_add (m (mul_le_mul_of_nonneg_left h1 hl))
    (m (mul_le_mul_of_nonneg_left (m (pow_le_pow_left₀ h0 h1 2)) hq)))))

private theorem base_le_interval (hp : 1 ≤ p) (tp : TaxParams K) (i : Fin 4) (hl : 0 ≤ tp.linear i)
    (hq : 0 ≤ tp.quad i) (hb : IsNumber p (tp.base i)) {x : K} (hx : tp.thresholds i ≤ x) :
    tp.base i ≤ calcIntervalTaxR (binary p) tp x i := by
  have h0 : 0 ≤ binary p (x - tp.thresholds i) := binary_nonneg p (by linarith)
  have h1 : 0 ≤ binary p (tp.linear i * binary p (x - tp.thresholds i)) := binary_nonneg p (mul_nonneg hl h0)
  have h2 : 0 ≤ binary p (tp.quad i * binary p (binary p (x - tp.thresholds i) ^ 2)) :=
    binary_nonneg p (mul_nonneg hq (binary_nonneg p (by positivity)))
  have h3 := binary_nonneg p (add_nonneg h1 h2)
  unfold calcIntervalTaxR
  exact le_binary_of_le hp hb (by linarith)

/-- Which formula is used. -/
theorem incTaxR_eq (hp : 1 ≤ p) (tp : TaxParams K) (h01 : tp.thresholds 0 ≤ tp.thresholds 1)
    (h12 : tp.thresholds 1 ≤ tp.thresholds 2) (h23 : tp.thresholds 2 ≤ tp.thresholds 3) (x : K) :
    incTaxR (binary p) tp x =
      if x < tp.thresholds 0 then 0
      else if x < tp.thresholds 1 then calcIntervalTaxR (binary p) tp x 0
      else if x < tp.thresholds 2 then calcIntervalTaxR (binary p) tp x 1
      else if x < tp.thresholds 3 then calcIntervalTaxR (binary p) tp x 2
      else calcIntervalTaxR (binary p) tp x 3 := by
  have hfix : ∀ i, binary p (calcIntervalTaxR (binary p) tp x i) = calcIntervalTaxR (binary p) tp x i := by
    intro i; unfold calcIntervalTaxR; exact binary_idem p hp _
  have t1 : ∀ b : Bool, b = true → (ind b : K) = 1 := by rintro _ rfl; rfl
  have t0 : ∀ b : Bool, b = false → (ind b : K) = 0 := by rintro _ rfl; rfl
  unfold incTaxR
  dsimp only
  split_ifs with c0 c1 c2 c3
  · rw [t0 (decide (x ≥ tp.thresholds 0)) (by simpa using c0), zero_mul]
  · rw [t1 (decide (x ≥ tp.thresholds 0)) (by simpa using c0),
      t1 (decide (x ≥ tp.thresholds 0) && decide (x < tp.thresholds 1)) (by simpa using ⟨not_lt.1 c0, c1⟩),
      t0 (decide (x ≥ tp.thresholds 1) && decide (x < tp.thresholds 2))
        (by simp only [Bool.and_eq_false_iff, decide_eq_false_iff_not]; left; exact not_le.2 c1),
      t0 (decide (x ≥ tp.thresholds 2) && decide (x < tp.thresholds 3))
        (by simp only [Bool.and_eq_false_iff, decide_eq_false_iff_not]; left; exact not_le.2 (by linarith)),
      t0 (decide (x ≥ tp.thresholds 3)) (by simpa using (by linarith : x < tp.thresholds 3))]
    simp only [one_mul, zero_mul, add_zero, hfix]
  · rw [t1 (decide (x ≥ tp.thresholds 0)) (by simpa using c0),
      t0 (decide (x ≥ tp.thresholds 0) && decide (x < tp.thresholds 1))
        (by simp only [Bool.and_eq_false_iff, decide_eq_false_iff_not]; right; exact c1),
      t1 (decide (x ≥ tp.thresholds 1) && decide (x < tp.thresholds 2)) (by simpa using ⟨not_lt.1 c1, c2⟩),
      t0 (decide (x ≥ tp.thresholds 2) && decide (x < tp.thresholds 3))
        (by simp only [Bool.and_eq_false_iff, decide_eq_false_iff_not]; left; exact not_le.2 c2),
      t0 (decide (x ≥ tp.thresholds 3)) (by simpa using (by linarith : x < tp.thresholds 3))]
    simp only [one_mul, zero_mul, add_zero, zero_add, hfix]
  · rw [t1 (decide (x ≥ tp.thresholds 0)) (by simpa using c0),
      t0 (decide (x ≥ tp.thresholds 0) && decide (x < tp.thresholds 1))
        (by simp only [Bool.and_eq_false_iff, decide_eq_false_iff_not]; right; exact c1),
      t0 (decide (x ≥ tp.thresholds 1) && decide (x < tp.thresholds 2))
        (by simp only [Bool.and_eq_false_iff, decide_eq_false_iff_not]; right; exact c2),
      t1 (decide (x ≥ tp.thresholds 2) && decide (x < tp.thresholds 3)) (by simpa using ⟨not_lt.1 c2, c3⟩),
      t0 (decide (x ≥ tp.thresholds 3)) (by simpa using c3)]
    simp only [one_mul, zero_mul, add_zero, zero_add, hfix, binary_zero]
  · rw [t1 (decide (x ≥ tp.thresholds 0)) (by simpa using c0),
      t0 (decide (x ≥ tp.thresholds 0) && decide (x < tp.thresholds 1))
        (by simp only [Bool.and_eq_false_iff, decide_eq_false_iff_not]; right; exact c1),
      t0 (decide (x ≥ tp.thresholds 1) && decide (x < tp.thresholds 2))
        (by simp only [Bool.and_eq_false_iff, decide_eq_false_iff_not]; right; exact c2),
      t0 (decide (x ≥ tp.thresholds 2) && decide (x < tp.thresholds 3))
        (by simp only [Bool.and_eq_false_iff, decide_eq_false_iff_not]; right; exact c3),
      t1 (decide (x ≥ tp.thresholds 3)) (by simpa using c3)]
    simp only [one_mul, zero_mul, add_zero, zero_add, hfix, binary_zero]

/-- C97: both implementations of the income tax give the same number, digit by digit, for ordered
thresholds. -/
theorem C97_implementations_agree (hp : 1 ≤ p) (tp : TaxParams K)
    (h01 : tp.thresholds 0 ≤ tp.thresholds 1) (h12 : tp.thresholds 1 ≤ tp.thresholds 2)
    (h23 : tp.thresholds 2 ≤ tp.thresholds 3) (x : K) :
    pyIncTaxR (binary p) tp x = incTaxR (binary p) tp x := by
  have key : ∀ i, binary p (binary p (binary p (tp.linear i * binary p (x - tp.thresholds i)) +
      binary p (tp.quad i * binary p (binary p (x - tp.thresholds i) ^ 2))) + tp.base i) =
      calcIntervalTaxR (binary p) tp x i := by
    intro i; unfold calcIntervalTaxR; dsimp only; rw [add_comm]
  rw [incTaxR_eq hp tp h01 h12 h23]
  unfold pyIncTaxR
  dsimp only
  rw [key]
  rcases lt_or_ge x (tp.thresholds 0) with c0 | c0
  · simp only [if_pos c0]
  rcases lt_or_ge x (tp.thresholds 1) with c1 | c1
  · simp only [if_neg (not_lt.2 c0), if_pos c1, ge_iff_le, c0, c1, and_self, if_true]
  rcases lt_or_ge x (tp.thresholds 2) with c2 | c2
  · simp only [if_neg (not_lt.2 c0), if_neg (not_lt.2 c1), if_pos c2, ge_iff_le, c1, c2,
      not_lt.2 c1, and_false, and_self, if_true, if_false]
  rcases lt_or_ge x (tp.thresholds 3) with c3 | c3
  · simp only [if_neg (not_lt.2 c0), if_neg (not_lt.2 c1), if_neg (not_lt.2 c2), if_pos c3, ge_iff_le,
      c2, c3, not_lt.2 c1, not_lt.2 c2, and_false, and_self, if_true, if_false]
  · simp only [if_neg (not_lt.2 c0), if_neg (not_lt.2 c1), if_neg (not_lt.2 c2), if_neg (not_lt.2 c3),
      ge_iff_le, not_lt.2 c1, not_lt.2 c2, not_lt.2 c3, and_false, if_false]

/-- The conditions under which a schedule does not fall: ordered thresholds, coefficients that are not
negative, and no drop at the end of a bracket. -/
private theorem tax_mono (hp : 1 ≤ p) (tp : TaxParams K) (h01 : tp.thresholds 0 ≤ tp.thresholds 1)
    (h12 : tp.thresholds 1 ≤ tp.thresholds 2) (h23 : tp.thresholds 2 ≤ tp.thresholds 3)
    (hl : ∀ i, 0 ≤ tp.linear i) (hq : ∀ i, 0 ≤ tp.quad i) (hb : ∀ i, IsNumber p (tp.base i))
    (hb0 : 0 ≤ tp.base 0) (hb1 : tp.base 0 ≤ tp.base 1) (hb2 : tp.base 1 ≤ tp.base 2)
    (hb3 : tp.base 2 ≤ tp.base 3)
    (j0 : ∀ x, IsNumber p x → tp.thresholds 0 ≤ x → x < tp.thresholds 1 →
      calcIntervalTaxR (binary p) tp x 0 ≤ tp.base 1)
    (j1 : ∀ x, IsNumber p x → tp.thresholds 1 ≤ x → x < tp.thresholds 2 →
      calcIntervalTaxR (binary p) tp x 1 ≤ tp.base 2)
    (j2 : ∀ x, IsNumber p x → tp.thresholds 2 ≤ x → x < tp.thresholds 3 →
      calcIntervalTaxR (binary p) tp x 2 ≤ tp.base 3)
    {x y : K} (hx : IsNumber p x) (hy : IsNumber p y) (hxy : x ≤ y) :
    0 ≤ incTaxR (binary p) tp x ∧ incTaxR (binary p) tp x ≤ incTaxR (binary p) tp y := by
  have m := fun i {x y : K} => interval_mono (x := x) (y := y) hp tp i (hl i) (hq i)
  have b := fun i {x : K} => base_le_interval (x := x) hp tp i (hl i) (hq i) (hb i)
  rw [incTaxR_eq hp tp h01 h12 h23, incTaxR_eq hp tp h01 h12 h23]
  rcases lt_or_ge x (tp.thresholds 0) with c0 | c0
  · rw [if_pos c0]
    refine ⟨le_rfl, ?_⟩
    split_ifs with d0 d1 d2 d3
    · exact le_rfl
    · exact hb0.trans (b 0 (not_lt.1 d0))
    · exact (hb0.trans hb1).trans (b 1 (not_lt.1 d1))
    · exact ((hb0.trans hb1).trans hb2).trans (b 2 (not_lt.1 d2))
    · exact (((hb0.trans hb1).trans hb2).trans hb3).trans (b 3 (not_lt.1 d3))
  rw [if_neg (not_lt.2 c0), if_neg (not_lt.2 (c0.trans hxy))]
  rcases lt_or_ge x (tp.thresholds 1) with c1 | c1
  · rw [if_pos c1]
    refine ⟨hb0.trans (b 0 c0), ?_⟩
    split_ifs with d1 d2 d3
    · exact m 0 c0 hxy
    · exact (j0 x hx c0 c1).trans (b 1 (not_lt.1 d1))
    · exact ((j0 x hx c0 c1).trans hb2).trans (b 2 (not_lt.1 d2))
    · exact (((j0 x hx c0 c1).trans hb2).trans hb3).trans (b 3 (not_lt.1 d3))
  rw [if_neg (not_lt.2 c1), if_neg (not_lt.2 (c1.trans hxy))]
  rcases lt_or_ge x (tp.thresholds 2) with c2 | c2
  · rw [if_pos c2]
    refine ⟨(hb0.trans hb1).trans (b 1 c1), ?_⟩
    split_ifs with d2 d3
    · exact m 1 c1 hxy
    · exact (j1 x hx c1 c2).trans (b 2 (not_lt.1 d2))
    · exact ((j1 x hx c1 c2).trans hb3).trans (b 3 (not_lt.1 d3))
  rw [if_neg (not_lt.2 c2), if_neg (not_lt.2 (c2.trans hxy))]
  rcases lt_or_ge x (tp.thresholds 3) with c3 | c3
  · rw [if_pos c3]
    refine ⟨((hb0.trans hb1).trans hb2).trans (b 2 c2), ?_⟩
    split_ifs with d3
    · exact m 2 c2 hxy
    · exact (j2 x hx c2 c3).trans (b 3 (not_lt.1 d3))
  rw [if_neg (not_lt.2 c3), if_neg (not_lt.2 (c3.trans hxy))]
  exact ⟨(((hb0.trans hb1).trans hb2).trans hb3).trans (b 3 c3), m 3 c3 hxy⟩

/-- A number below `k 2^e` is at most `(k - 1) 2^e` when `k` uses all the digits. -/
private theorem pred_bound (hp : 1 ≤ p) {x : K} (hx : IsNumber p x) (k e : ℤ) (hk : (2 : ℤ) ^ (p - 1) < k)
    (h : x < (k : K) * 2 ^ e) : x ≤ ((k - 1 : ℤ) : K) * 2 ^ e := by
  have hE : (0 : K) < 2 ^ e := zpow_pos (by norm_num) e
  rcases lt_or_ge x (2 ^ (e + (p - 1 : ℤ))) with c | c
  · refine c.le.trans ?_
    rw [zpow_add₀ (by norm_num : (2 : K) ≠ 0), mul_comm]
    refine mul_le_mul_of_nonneg_right ?_ hE.le
    have h1 : ((2 : ℤ) ^ (p - 1) : ℤ) ≤ k - 1 := by omega
    have h2 : (((2 : ℤ) ^ (p - 1) : ℤ) : K) ≤ ((k - 1 : ℤ) : K) := by exact_mod_cast h1
    have h3 : ((p : ℤ) - 1) = ((p - 1 : ℕ) : ℤ) := by omega
    rw [h3, zpow_natCast]
    push_cast at h2 ⊢
    exact h2
  · obtain ⟨n, rfl⟩ := Spec.IsNumber.multiple hx c hp
    have he : e + (p - 1 : ℤ) - (p - 1) = e := by ring
    rw [he] at h ⊢
    have h1 : (n : K) < k := lt_of_mul_lt_mul_right h hE.le
    have h2 : n ≤ k - 1 := by have : n < k := by exact_mod_cast h1
                              omega
    exact mul_le_mul_of_nonneg_right (by exact_mod_cast h2) hE.le

/-- The schedule as Python computes it. -/
def schedule64 : TaxParams ℚ := createTaxParametersR (binary 53)

/-- The schedule as JAX reads it by default. -/
def schedule32 : TaxParams ℚ := convertTax (binary 24) schedule64

private theorem all4 {P : Fin 4 → Prop} (h0 : P 0) (h1 : P 1) (h2 : P 2) (h3 : P 3) : ∀ i, P i := by
  intro i; fin_cases i <;> assumption

private theorem mono64 {x y : ℚ} (hx : IsNumber 53 x) (hy : IsNumber 53 y) (hxy : x ≤ y) :
    0 ≤ incTaxR (binary 53) schedule64 x ∧
      incTaxR (binary 53) schedule64 x ≤ incTaxR (binary 53) schedule64 y := by
  refine tax_mono (by norm_num) schedule64 (by decide +kernel) (by decide +kernel) (by decide +kernel)
    (all4 (by decide +kernel) (by decide +kernel) (by decide +kernel) (by decide +kernel))
    (all4 (by decide +kernel) (by decide +kernel) (by decide +kernel) (by decide +kernel))
    (all4 ?_ ?_ ?_ ?_)
    (by decide +kernel) (by decide +kernel) (by decide +kernel) (by decide +kernel) ?_ ?_ ?_ hx hy hxy
  iterate 4 exact isNumber_of_fixed (by decide +kernel)
  · intro z hz h0 h1
    have ht : schedule64.thresholds 1 = ((8686312326349436 : ℤ) : ℚ) * 2 ^ (-45 : ℤ) := by decide +kernel
    rw [ht] at h1
    exact (interval_mono (by norm_num) _ 0 (by decide +kernel) (by decide +kernel) h0
      (pred_bound (by norm_num) hz _ _ (by norm_num) h1)).trans (by decide +kernel)
  · intro z hz h0 h1
    have ht : schedule64.thresholds 2 = ((8890020294596307 : ℤ) : ℚ) * 2 ^ (-43 : ℤ) := by decide +kernel
    rw [ht] at h1
    exact (interval_mono (by norm_num) _ 1 (by decide +kernel) (by decide +kernel) h0
      (pred_bound (by norm_num) hz _ _ (by norm_num) h1)).trans (by decide +kernel)
  · intro z hz h0 h1
    have ht : schedule64.thresholds 3 = ((5327091219844962 : ℤ) : ℚ) * 2 ^ (-40 : ℤ) := by decide +kernel
    rw [ht] at h1
    exact (interval_mono (by norm_num) _ 2 (by decide +kernel) (by decide +kernel) h0
      (pred_bound (by norm_num) hz _ _ (by norm_num) h1)).trans (by decide +kernel)

private theorem mono32 {x y : ℚ} (hx : IsNumber 24 x) (hy : IsNumber 24 y) (hxy : x ≤ y) :
    0 ≤ incTaxR (binary 24) schedule32 x ∧
      incTaxR (binary 24) schedule32 x ≤ incTaxR (binary 24) schedule32 y := by
  refine tax_mono (by norm_num) schedule32 (by decide +kernel) (by decide +kernel) (by decide +kernel)
    (all4 (by decide +kernel) (by decide +kernel) (by decide +kernel) (by decide +kernel))
    (all4 (by decide +kernel) (by decide +kernel) (by decide +kernel) (by decide +kernel))
    (all4 ?_ ?_ ?_ ?_)
    (by decide +kernel) (by decide +kernel) (by decide +kernel) (by decide +kernel) ?_ ?_ ?_ hx hy hxy
  iterate 4 exact isNumber_of_fixed (by decide +kernel)
  · intro z hz h0 h1
    have ht : schedule32.thresholds 1 = ((16179518 : ℤ) : ℚ) * 2 ^ (-16 : ℤ) := by decide +kernel
    rw [ht] at h1
    exact (interval_mono (by norm_num) _ 0 (by decide +kernel) (by decide +kernel) h0
      (pred_bound (by norm_num) hz _ _ (by norm_num) h1)).trans (by decide +kernel)
  · intro z hz h0 h1
    have ht : schedule32.thresholds 2 = ((16558953 : ℤ) : ℚ) * 2 ^ (-14 : ℤ) := by decide +kernel
    rw [ht] at h1
    exact (interval_mono (by norm_num) _ 1 (by decide +kernel) (by decide +kernel) h0
      (pred_bound (by norm_num) hz _ _ (by norm_num) h1)).trans (by decide +kernel)
  · intro z hz h0 h1
    have ht : schedule32.thresholds 3 = ((9922481 : ℤ) : ℚ) * 2 ^ (-11 : ℤ) := by decide +kernel
    rw [ht] at h1
    exact (interval_mono (by norm_num) _ 2 (by decide +kernel) (by decide +kernel) h0
      (pred_bound (by norm_num) hz _ _ (by norm_num) h1)).trans (by decide +kernel)

/-- C97: in double precision the income tax is not negative and does not fall with income — for all
pairs of representable incomes, across bracket limits too. -/
theorem C97_double (x y : ℚ) (hx : IsNumber 53 x) (hy : IsNumber 53 y) (hxy : x ≤ y) :
    0 ≤ incTaxR (binary 53) (createTaxParametersR (binary 53)) x ∧
      incTaxR (binary 53) (createTaxParametersR (binary 53)) x ≤
        incTaxR (binary 53) (createTaxParametersR (binary 53)) y :=
  mono64 hx hy hxy

/-- C97: the same in single precision, JAX's default, with the schedule converted from the double
precision one. -/
theorem C97_single (x y : ℚ) (hx : IsNumber 24 x) (hy : IsNumber 24 y) (hxy : x ≤ y) :
    0 ≤ incTaxR (binary 24) (convertTax (binary 24) (createTaxParametersR (binary 53))) x ∧
      incTaxR (binary 24) (convertTax (binary 24) (createTaxParametersR (binary 53))) x ≤
        incTaxR (binary 24) (convertTax (binary 24) (createTaxParametersR (binary 53))) y :=
  mono32 hx hy hxy

/-- C97: no tax is due below the first threshold, exactly. -/
theorem C97_allowance (r : K → K) (tp : TaxParams K) {x : K} (h : x < tp.thresholds 0) :
    incTaxR r tp x = 0 := by
  have : (ind (decide (x ≥ tp.thresholds 0)) : K) = 0 := by
    rw [decide_eq_false (not_le.2 h)]; rfl
  unfold incTaxR
  dsimp only
  rw [this, zero_mul]

/-- C97: contributions do not fall with the wage, are never negative and never above the rounded
product of rate and ceiling. -/
theorem C97_contributions (hp : 1 ≤ p) (d : SscSpec K) (hr : 0 ≤ d.rate) (hc : 0 ≤ d.cap) {x y : K}
    (hx : 0 ≤ x) (hxy : x ≤ y) :
    0 ≤ sscDeductionsR (binary p) d x ∧
      sscDeductionsR (binary p) d x ≤ sscDeductionsR (binary p) d y ∧
      sscDeductionsR (binary p) d y ≤ binary p (d.rate * d.cap) := by
  have m := binary_mono (K := K) p hp
  refine ⟨binary_nonneg p (mul_nonneg hr (le_min hx hc)), m ?_, m ?_⟩
  · exact mul_le_mul_of_nonneg_left (min_le_min_right _ hxy) hr
  · exact mul_le_mul_of_nonneg_left (min_le_right _ _) hr

/-- C97 (what fails): in double precision net income *can* fall when the wage rises. A single woman
without contributions gets less at the next number above 3158 than at 3158. Without rounding this is
impossible (C21). -/
theorem C97_net_income_can_fall :
    ∃ (d : SscSpec ℚ) (x y : ℚ), IsNumber 53 x ∧ IsNumber 53 y ∧ 0 ≤ d.rate ∧ 0 ≤ d.cap ∧ 0 < x ∧ x < y ∧
      netIncomeR (binary 53) (createTaxParametersR (binary 53)) d y 0 false <
        netIncomeR (binary 53) (createTaxParametersR (binary 53)) d x 0 false := by
  refine ⟨⟨0, 0⟩, 3158, 3158 + 2 ^ (-41 : ℤ), isNumber_of_fixed (by decide +kernel),
    isNumber_of_fixed (by decide +kernel), by decide +kernel, by decide +kernel, by decide +kernel,
    by decide +kernel, by decide +kernel⟩

/-- C97: an instance: 200 and 1000 Euro a week are representable, the first is taxed with a positive amount and the
second with more. -/
example : Spec.IsNumber 53 (200 : ℚ) ∧ Spec.IsNumber 53 (1000 : ℚ) ∧
    0 < incTaxR (binary 53) (createTaxParametersR (binary 53)) (200 : ℚ) ∧
    incTaxR (binary 53) (createTaxParametersR (binary 53)) (200 : ℚ) <
      incTaxR (binary 53) (createTaxParametersR (binary 53)) 1000 :=
  ⟨isNumber_of_fixed (by decide +kernel), isNumber_of_fixed (by decide +kernel), by decide +kernel, by decide +kernel⟩

/-- C97: an instance in single precision, on the two sides of a bracket limit. -/
example : Spec.IsNumber 24 ((16179517 : ℚ) * 2 ^ (-16 : ℤ)) ∧ Spec.IsNumber 24 ((16179518 : ℚ) * 2 ^ (-16 : ℤ)) ∧
    (convertTax (binary 24) (createTaxParametersR (binary 53))).thresholds 1 = (16179518 : ℚ) * 2 ^ (-16 : ℤ) ∧
    0 < incTaxR (binary 24) (convertTax (binary 24) (createTaxParametersR (binary 53)))
      ((16179517 : ℚ) * 2 ^ (-16 : ℤ)) :=
  ⟨isNumber_of_fixed (by decide +kernel), isNumber_of_fixed (by decide +kernel), by decide +kernel, by decide +kernel⟩

/-- C97: the thresholds of the schedule are ordered in both formats. -/
example (x : ℚ) : pyIncTaxR (binary 53) (createTaxParametersR (binary 53)) x =
    incTaxR (binary 53) (createTaxParametersR (binary 53)) x :=
  C97_implementations_agree (by norm_num) _ (by decide +kernel) (by decide +kernel) (by decide +kernel) x

/-- C97: contributions of a fifth up to a ceiling of 1000. -/
example : 0 ≤ sscDeductionsR (binary 53) ⟨1 / 5, 1000⟩ (500 : ℚ) ∧
    sscDeductionsR (binary 53) ⟨1 / 5, 1000⟩ (500 : ℚ) ≤ sscDeductionsR (binary 53) ⟨1 / 5, 1000⟩ 2000 ∧
    sscDeductionsR (binary 53) ⟨1 / 5, 1000⟩ (2000 : ℚ) ≤ binary 53 (1 / 5 * 1000) :=
  C97_contributions (by norm_num) ⟨1 / 5, 1000⟩ (by norm_num) (by norm_num) (by norm_num) (by norm_num)

end Soepy.Props
