import Verif.Proof.Near
import Verif.Proof.Solve

/-! # Today's utilities on more and more accurate machines -/

set_option linter.unusedSectionVars false

namespace Soepy
open Filter Topology Asymptotics Spec Machine
variable {tp : TaxParams ℝ} {κ : ℝ}

/-- Reduce nearness of an expression to nearness of its parts. -/
macro "near" : tactic => `(tactic|
  repeat' first
    | assumption
    | exact Near.const _
    | with_reducible apply Near.round
    | with_reducible apply Near.add
    | with_reducible apply Near.sub
    | with_reducible apply Near.mul
    | with_reducible apply Near.pow_two
    | with_reducible apply Near.max
    | with_reducible apply Near.min)

namespace Near

theorem of_stored {f : Machine tp κ → ℝ} {b : ℝ} (h : ∀ m, |f m - b| ≤ κ * m.eps) : Near f b :=
  IsBigO.of_bound κ (Eventually.of_forall fun m => by
    rw [Real.norm_eq_abs, Real.norm_eq_abs, abs_of_nonneg m.eps_nonneg]; exact h m)

theorem thresholds (i : Fin 4) : Near (fun m : Machine tp κ => m.tax.thresholds i) (tp.thresholds i) :=
  of_stored fun m => (m.stored i).1
theorem base (i : Fin 4) : Near (fun m : Machine tp κ => m.tax.base i) (tp.base i) :=
  of_stored fun m => (m.stored i).2.1
theorem linear (i : Fin 4) : Near (fun m : Machine tp κ => m.tax.linear i) (tp.linear i) :=
  of_stored fun m => (m.stored i).2.2.1
theorem quad (i : Fin 4) : Near (fun m : Machine tp κ => m.tax.quad i) (tp.quad i) :=
  of_stored fun m => (m.stored i).2.2.2

variable {x : Machine tp κ → ℝ} {ξ : ℝ}

theorem interval (hx : Near x ξ) (i : Fin 4) :
    Near (fun m => calcIntervalTaxR m.r m.tax (x m) i) (calcIntervalTax tp ξ i) := by
  have h1 := thresholds (tp := tp) (κ := κ) i
  have h2 := base (tp := tp) (κ := κ) i
  have h3 := linear (tp := tp) (κ := κ) i
  have h4 := quad (tp := tp) (κ := κ) i
  unfold calcIntervalTaxR calcIntervalTax
  dsimp only
  near

theorem tax (hs : Seamless tp) (hx : Near x ξ) : Near (fun m => incTaxR m.r m.tax (x m)) (incTax tp ξ) := by
  have hmono : SortedThresholds tp := ⟨hs.order.1.le, hs.order.2.1.le, hs.order.2.2.le⟩
  have hev : ∀ᶠ m in better tp κ, m.tax.thresholds 0 ≤ m.tax.thresholds 1 ∧ m.tax.thresholds 1 ≤ m.tax.thresholds 2 ∧
      m.tax.thresholds 2 ≤ m.tax.thresholds 3 := by
    filter_upwards [(thresholds 0).lim.eventually_lt (thresholds 1).lim hs.order.1,
      (thresholds 1).lim.eventually_lt (thresholds 2).lim hs.order.2.1,
      (thresholds 2).lim.eventually_lt (thresholds 3).lim hs.order.2.2] with m h1 h2 h3
    exact ⟨h1.le, h2.le, h3.le⟩
  have e0 : ξ = tp.thresholds 0 → calcIntervalTax tp ξ 0 = 0 := by
    rintro rfl; simp [calcIntervalTax, hs.start]
  have e : ∀ i j : Fin 4, (j : ℕ) = i + 1 → ξ = tp.thresholds j → calcIntervalTax tp ξ j = calcIntervalTax tp ξ i := by
    rintro i j hij rfl
    simp only [calcIntervalTax, sub_self, mul_zero, add_zero, ne_eq, OfNat.ofNat_ne_zero, not_false_eq_true, zero_pow]
    rw [hs.seam i j hij]; ring
  refine congr_ev (a := fun m => if x m < m.tax.thresholds 0 then 0
      else if x m < m.tax.thresholds 1 then calcIntervalTaxR m.r m.tax (x m) 0
      else if x m < m.tax.thresholds 2 then calcIntervalTaxR m.r m.tax (x m) 1
      else if x m < m.tax.thresholds 3 then calcIntervalTaxR m.r m.tax (x m) 2
      else calcIntervalTaxR m.r m.tax (x m) 3) ?_ ?_
  · obtain ⟨o1, o2, o3⟩ := hs.order
    have v0 : ξ ≤ tp.thresholds 0 → incTax tp ξ = 0 := by
      intro h
      rw [incTax_cases hmono]
      rcases h.lt_or_eq with h | h
      · rw [if_pos h]
      · rw [if_neg h.not_lt, if_pos (h ▸ o1), e0 h]
    have v1 : tp.thresholds 0 ≤ ξ → ξ ≤ tp.thresholds 1 → incTax tp ξ = calcIntervalTax tp ξ 0 := by
      intro h0 h
      rw [incTax_cases hmono, if_neg (not_lt.2 h0)]
      rcases h.lt_or_eq with h | h
      · rw [if_pos h]
      · rw [if_neg h.not_lt, if_pos (h ▸ o2), e 0 1 rfl h]
    have v2 : tp.thresholds 1 ≤ ξ → ξ ≤ tp.thresholds 2 → incTax tp ξ = calcIntervalTax tp ξ 1 := by
      intro h0 h
      rw [incTax_cases hmono, if_neg (not_lt.2 (o1.le.trans h0)), if_neg (not_lt.2 h0)]
      rcases h.lt_or_eq with h | h
      · rw [if_pos h]
      · rw [if_neg h.not_lt, if_pos (h ▸ o3), e 1 2 rfl h]
    have v3 : tp.thresholds 2 ≤ ξ → ξ ≤ tp.thresholds 3 → incTax tp ξ = calcIntervalTax tp ξ 2 := by
      intro h0 h
      rw [incTax_cases hmono, if_neg (not_lt.2 (o1.le.trans (o2.le.trans h0))), if_neg (not_lt.2 (o2.le.trans h0)),
        if_neg (not_lt.2 h0)]
      rcases h.lt_or_eq with h | h
      · rw [if_pos h]
      · rw [if_neg h.not_lt, e 2 3 rfl h]
    have v4 : tp.thresholds 3 ≤ ξ → incTax tp ξ = calcIntervalTax tp ξ 3 := by
      intro h0
      rw [incTax_cases hmono, if_neg (not_lt.2 (o1.le.trans (o2.le.trans (o3.le.trans h0)))),
        if_neg (not_lt.2 (o2.le.trans (o3.le.trans h0))), if_neg (not_lt.2 (o3.le.trans h0)), if_neg (not_lt.2 h0)]
    refine ite hx (thresholds 0) (fun h => by rw [v0 h]; exact const 0) fun h0 => ?_
    refine ite hx (thresholds 1) (fun h => v1 h0 h ▸ interval hx 0) fun h0 => ?_
    refine ite hx (thresholds 2) (fun h => v2 h0 h ▸ interval hx 1) fun h0 => ?_
    exact ite hx (thresholds 3) (fun h => v3 h0 h ▸ interval hx 2) fun h0 => v4 h0 ▸ interval hx 3
  · filter_upwards [hev] with m hm
    exact (Props.incTaxR_eq ((by norm_num : 1 ≤ 5).trans m.enough) m.tax hm.1 hm.2.1 hm.2.2 (x m)).symm

theorem netIncome (hs : Seamless tp) (d : SscSpec ℝ) (male : ℝ) (splitting : Bool) (hx : Near x ξ) :
    Near (fun m => netIncomeR m.r m.tax d (x m) male splitting) (netIncome tp d ξ male splitting) := by
  have hm := const (tp := tp) (κ := κ) male
  have ssc : ∀ {y : Machine tp κ → ℝ} {η : ℝ}, Near y η →
      Near (fun m => sscDeductionsR m.r d (y m)) (sscDeductions d η) := by
    intro y η hy; unfold sscDeductionsR sscDeductions; dsimp only; near
  have s1 := ssc hx
  have s2 := ssc hm
  have t1 : Near (fun m => m.r (x m - sscDeductionsR m.r d (x m))) (ξ - sscDeductions d ξ) := by near
  have t2 : Near (fun m : Machine tp κ => m.r (male - sscDeductionsR m.r d male)) (male - sscDeductions d male) := by near
  have t3 : Near (fun m => m.r (m.r (m.r (male + x m) - sscDeductionsR m.r d male) - sscDeductionsR m.r d (x m)))
      (male + ξ - sscDeductions d male - sscDeductions d ξ) := by near
  have t4 : Near (fun m => m.r (m.r (m.r (m.r (male + x m) - sscDeductionsR m.r d male) - sscDeductionsR m.r d (x m)) / 2))
      ((male + ξ - sscDeductions d male - sscDeductions d ξ) / 2) := (t3.div (const 2) (by norm_num)).round
  have u1 := tax hs t1
  have u2 := tax hs t2
  have u4 := tax hs t4
  unfold netIncomeR Soepy.netIncome
  dsimp only
  cases splitting
  · simp only [Bool.false_eq_true, if_false]
    near
  · simp only [if_true]
    near

theorem logWage (par : ModelParams ℝ) (educ : ℕ) (stock initExpMax : ℝ) (period : ℕ) {pt : Machine tp κ → ℝ} {ρ : ℝ}
    (hpt : Near pt ρ) (hpos : 0 < stockToExpYears stock period initExpMax ρ + 1) :
    Near (fun m => calculateLogWageR m.r m.lib par educ stock initExpMax (pt m) period)
      (calculateLogWage par educ stock initExpMax ρ period) := by
  have h1 : Near (fun m => m.r (stockToExpYearsR m.r stock period initExpMax (pt m) + 1))
      (stockToExpYears stock period initExpMax ρ + 1) := by
    unfold stockToExpYearsR maxExpYearsR stockToExpYears maxExpYears; near
  have h2 := log hpos h1
  unfold calculateLogWageR calculateLogWage
  dsimp only [transc_log]
  near

theorem increment (par : ModelParams ℝ) (educ : ℕ) (age : ℤ) (biased : Bool) :
    Near (fun m : Machine tp κ => getPtIncrementR m.r par educ age biased) (getPtIncrement par educ age biased) := by
  unfold getPtIncrementR getPtIncrement
  cases biased
  · simp only [Bool.false_eq_true, if_false]; near
  · simp only [if_true]; near

theorem solverLogWage (spec : ModelSpec ℝ) (par : ModelParams ℝ) (t : ℕ) (s : State) (stock : ℝ)
    {pt : Machine tp κ → ℝ} {ρ : ℝ} (hpt : Near pt ρ) (hpos : 0 < stockToExpYears stock t spec.init_exp_max ρ + 1)
    (hscale : 0 < spec.elasticity_scale) :
    Near (fun m => solverLogWageR m.r m.lib spec par (pt m) t s stock) (Soepy.solverLogWage spec par ρ t s stock) := by
  have h1 := logWage par s.educ stock spec.init_exp_max t hpt hpos
  have h2 := log hscale (const (tp := tp) (κ := κ) spec.elasticity_scale)
  unfold solverLogWageR Soepy.solverLogWage
  dsimp only [transc_log]
  near

theorem multiplier (par : ModelParams ℝ) (educ type bin : ℕ) (c : Fin 3) :
    Near (fun m : Machine tp κ => calculateNonConsumptionUtilityR m.r m.lib par educ type bin c)
      (calculateNonConsumptionUtility par educ type bin c) := by
  unfold calculateNonConsumptionUtilityR calculateNonConsumptionUtility
  dsimp only [transc_exp]
  fin_cases c
  · exact exp (const 0)
  · refine exp ?_; near
  · refine exp ?_; near

/-- The income test of the flat benefit, unless income is exactly at the limit. -/
theorem erziehungsgeld (male : ℝ) (married baby : Bool) (incS incM erz : ℝ) (hx : Near x ξ)
    (hne : baby = true → male + ξ ≠ incM * ind married + incS * (1 - ind married)) :
    Near (fun m => calcErziehungsgeldR m.r male (x m) married baby incS incM erz)
      (calcErziehungsgeld male ξ married baby incS incM erz) := by
  unfold calcErziehungsgeldR calcErziehungsgeld
  dsimp only
  cases baby
  · simp only [Bool.and_false]; near
  · have h1 : Near (fun m => m.r (male + x m)) (male + ξ) := by near
    have h2 : Near (fun m : Machine tp κ => m.r (incM * ind married + incS * (1 - ind married)))
        (incM * ind married + incS * (1 - ind married)) := by near
    simp only [Bool.and_true]
    rcases lt_or_gt_of_ne (hne rfl) with h | h
    · refine congr_ev (const _) ?_
      filter_upwards [h1.lim.eventually_lt h2.lim h] with m hm
      rw [decide_eq_true hm.le, decide_eq_true h.le]
    · refine congr_ev (const _) ?_
      filter_upwards [h2.lim.eventually_lt h1.lim h] with m hm
      rw [decide_eq_false (not_le.2 hm), decide_eq_false (not_le.2 h)]

theorem div_const (h : Near x ξ) (c : ℝ) : Near (fun m => x m / c) (ξ / c) := by
  simpa [div_eq_mul_inv] using h.mul (const c⁻¹)

theorem alg1 (hours : Fin 3 → ℝ) (ft pt noChild : Bool) (a b cb : ℝ) (hx : Near x ξ) :
    Near (fun m => calculateAlg1R m.r hours ft pt noChild (x m) a b cb) (calculateAlg1 hours ft pt noChild ξ a b cb) := by
  unfold calculateAlg1R calculateAlg1
  dsimp only
  near

theorem elterngeld (hours : Fin 3 → ℝ) (ft pt : Bool) (a b c cb : ℝ) (hx : Near x ξ) :
    Near (fun m => calculateElterngeldR m.r hours ft pt (x m) a b c cb) (calculateElterngeld hours ft pt ξ a b c cb) := by
  unfold calculateElterngeldR calculateElterngeld
  dsimp only
  near

theorem benefits (spec : ModelSpec ℝ) (s : State) (cb male : ℝ) (regime : Bool) (hx : Near x ξ)
    (hne : regime = false → (s.age = 0 ∨ s.age = 1) →
      male + Max.max (Spec.alg1 spec s (Real.exp ξ) cb) (Spec.floor spec s) ≠ Spec.erzThreshold spec (s.partner = 1)) :
    Near (fun m => calculateNonEmploymentBenefitsR m.r m.lib spec HOURS s (x m) cb male regime)
      (calculateNonEmploymentBenefits spec HOURS s ξ cb male regime) := by
  have hexp := exp hx
  have hprox : Near (fun m => m.r (m.r 0.65 * m.lib.exp (x m))) (0.65 * Real.exp ξ) := by near
  have ha2 : Near (fun m : Machine tp κ => calculateAlg2R m.r (decide (s.age = -1)) (decide (s.partner = 1))
      (m.r (spec.regelsatz_single + spec.housing_single)) (m.r (m.r (m.r (m.r (spec.regelsatz_single
        + spec.regelsatz_child) + spec.addition_child_single) + spec.housing_single) + spec.housing_addtion)))
      (calculateAlg2 (decide (s.age = -1)) (decide (s.partner = 1)) (spec.regelsatz_single + spec.housing_single)
        (spec.regelsatz_single + spec.regelsatz_child + spec.addition_child_single + spec.housing_single
          + spec.housing_addtion)) := by
    unfold calculateAlg2R calculateAlg2
    dsimp only
    near
  have h1 := alg1 HOURS (decide (s.lagged = 2)) (decide (s.lagged = 1)) (decide (s.age = -1))
    spec.alg1_replacement_no_child spec.alg1_replacement_child cb hprox
  have h2 := elterngeld HOURS (decide (s.lagged = 2)) (decide (s.lagged = 1)) spec.elterngeld_replacement
    spec.elterngeld_min spec.elterngeld_max cb hprox
  cases regime
  · have hb := h1.max ha2
    have h3 := erziehungsgeld male (decide (s.partner = 1)) (decide (s.age = 0) || decide (s.age = 1))
      spec.erziehungsgeld_income_threshold_single spec.erziehungsgeld_income_threshold_married spec.erziehungsgeld hb (by
        intro hbaby
        have h := hne rfl (by simpa using hbaby)
        rw [← transc_exp ξ, calculateAlg1_eq, calculateAlg2_eq]
        simp only [Spec.erzThreshold] at h
        by_cases hp : s.partner = 1 <;> simpa [hp, ind] using h)
    unfold calculateNonEmploymentBenefitsR calculateNonEmploymentBenefits
    simp only [Bool.false_eq_true, if_false, transc_exp]
    near
  · unfold calculateNonEmploymentBenefitsR calculateNonEmploymentBenefits
    simp only [if_true, transc_exp]
    near

theorem resources (hs : Seamless tp) (spec : ModelSpec ℝ) (htp : spec.tax_params = tp) (s : State) (cb male : ℝ)
    (splitting regime : Bool) (hx : Near x ξ)
    (hne : regime = false → (s.age = 0 ∨ s.age = 1) →
      male + Max.max (Spec.alg1 spec s (Real.exp ξ) cb) (Spec.floor spec s) ≠ Spec.erzThreshold spec (s.partner = 1)) :
    Near (fun m => calcResourcesR m.r m.lib m.tax spec HOURS s (x m) male cb splitting regime)
      (calcResources spec HOURS s ξ male cb splitting regime) := by
  have h1 := benefits spec s cb male regime hx hne
  have h2 := netIncome hs spec.ssc_deductions male splitting (const (tp := tp) (κ := κ) 0)
  unfold calcResourcesR calcResources
  rw [htp]
  dsimp only
  near

theorem rest (par : ModelParams ℝ) (cov : Covariate ℝ) {n : Machine tp κ → ℝ} {ν : ℝ} (hn : Near n ν) (hx : Near x ξ)
    (hpos : 0 < ξ / cov.equivScale) :
    Near (fun m => restUtilityR m.r m.lib par (n m) (x m) cov) ((ξ / cov.equivScale) ^ par.mu / par.mu * ν) := by
  have h1 := ((pow hpos par.mu (hx.div_const cov.equivScale).round).div_const par.mu).round
  unfold restUtilityR
  dsimp only
  near

theorem work (hs : Seamless tp) (spec : ModelSpec ℝ) (htp : spec.tax_params = tp) (par : ModelParams ℝ)
    (cov : Covariate ℝ) (hscale : 0 < cov.equivScale) {n : Machine tp κ → ℝ} {ν δ : ℝ} {d : Machine tp κ → ℝ}
    (hn : Near n ν) (hx : Near x ξ) (hd : Near d δ) (j : Fin 3) (col : Fin 2) (ncu : Fin 3 → ℝ) (hν : ncu j = ν) :
    Near (fun m => workUtilityR m.r m.lib m.tax spec par HOURS none (x m) (d m) (n m) cov j col)
      (emaxWorkValue spec par HOURS ξ δ ncu 0 cov j col) := by
  have h1 := (exp (hx.add hd).round)
  have h2 : Near (fun m => m.r (HOURS j * m.lib.exp (m.r (x m + d m)))) (HOURS j * Real.exp (ξ + δ)) := by near
  have h3 := netIncome hs spec.ssc_deductions cov.maleWage spec.tax_splitting h2
  have h4 : Near (fun m => Max.max (m.r (m.r (netIncomeR m.r m.tax spec.ssc_deductions
      (m.r (HOURS j * m.lib.exp (m.r (x m + d m)))) cov.maleWage spec.tax_splitting + cov.childBenefits)
        - spec.child_care_costs (childCareBin cov.bin) col)) (m.r 1e-14))
      (Max.max (Soepy.netIncome tp spec.ssc_deductions (HOURS j * Real.exp (ξ + δ)) cov.maleWage spec.tax_splitting
        + cov.childBenefits - spec.child_care_costs (childCareBin cov.bin) col) 1e-14) := by near
  have hpos := div_pos (lt_of_lt_of_le (by norm_num : (0 : ℝ) < 1e-14) (le_max_right
    (Soepy.netIncome tp spec.ssc_deductions (HOURS j * Real.exp (ξ + δ)) cov.maleWage spec.tax_splitting
        + cov.childBenefits - spec.child_care_costs (childCareBin cov.bin) col) 1e-14)) hscale
  have h5 := ((pow hpos par.mu (h4.div_const cov.equivScale).round).div_const par.mu).round
  unfold workUtilityR emaxWorkValue
  simp only [htp, transc_exp, transc_pow, hν, Pi.zero_apply, mul_zero, add_zero]
  near

theorem workOther (hs : Seamless tp) (spec : ModelSpec ℝ) (htp : spec.tax_params = tp) (par : ModelParams ℝ)
    (cov : Covariate ℝ) (hscale : 0 < cov.equivScale) {n : Machine tp κ → ℝ} {ν δ : ℝ} {d : Machine tp κ → ℝ}
    (hn : Near n ν) (hx : Near x ξ) (hd : Near d δ) (baby : Bool) (j : Fin 3) (col : Fin 2) (ncu : Fin 3 → ℝ)
    (hν : ncu j = ν) (hne : j = 1 → baby = true →
      cov.maleWage + HOURS j * Real.exp (ξ + δ) ≠ spec.erziehungsgeld_income_threshold_married *
        ind (decide (cov.maleWage > 0)) + spec.erziehungsgeld_income_threshold_single * (1 - ind (decide (cov.maleWage > 0)))) :
    Near (fun m => workUtilityR m.r m.lib m.tax spec par HOURS (some baby) (x m) (d m) (n m) cov j col)
      (emaxWorkValueValidation spec par HOURS baby ξ δ ncu 0 cov j col) := by
  have h1 := (exp (hx.add hd).round)
  have h2 : Near (fun m => m.r (HOURS j * m.lib.exp (m.r (x m + d m)))) (HOURS j * Real.exp (ξ + δ)) := by near
  have h3 := netIncome hs spec.ssc_deductions cov.maleWage spec.tax_splitting h2
  have h6 : Near (fun m => if cov.childBenefits > 0 ∧ j = 1 then calcErziehungsgeldR m.r cov.maleWage
      (m.r (HOURS j * m.lib.exp (m.r (x m + d m)))) (decide (cov.maleWage > 0)) baby
      spec.erziehungsgeld_income_threshold_single spec.erziehungsgeld_income_threshold_married spec.erziehungsgeld else 0)
      (solverErziehungsgeld spec baby (HOURS j * Real.exp (ξ + δ)) cov j) := by
    unfold solverErziehungsgeld
    dsimp only
    split_ifs with hc
    · exact erziehungsgeld _ _ _ _ _ _ h2 (hne hc.2)
    · exact const 0
  have h4 : Near (fun m => Max.max (m.r (m.r (m.r (netIncomeR m.r m.tax spec.ssc_deductions
      (m.r (HOURS j * m.lib.exp (m.r (x m + d m)))) cov.maleWage spec.tax_splitting +
      (if cov.childBenefits > 0 ∧ j = 1 then calcErziehungsgeldR m.r cov.maleWage
      (m.r (HOURS j * m.lib.exp (m.r (x m + d m)))) (decide (cov.maleWage > 0)) baby
      spec.erziehungsgeld_income_threshold_single spec.erziehungsgeld_income_threshold_married spec.erziehungsgeld else 0))
        + cov.childBenefits)
        - spec.child_care_costs (childCareBin cov.bin) col)) (m.r 1e-14))
      (Max.max (Soepy.netIncome tp spec.ssc_deductions (HOURS j * Real.exp (ξ + δ)) cov.maleWage spec.tax_splitting
        + solverErziehungsgeld spec baby (HOURS j * Real.exp (ξ + δ)) cov j
        + cov.childBenefits - spec.child_care_costs (childCareBin cov.bin) col) 1e-14) := by near
  have hpos := div_pos (lt_of_lt_of_le (by norm_num : (0 : ℝ) < 1e-14) (le_max_right
    (Soepy.netIncome tp spec.ssc_deductions (HOURS j * Real.exp (ξ + δ)) cov.maleWage spec.tax_splitting
        + solverErziehungsgeld spec baby (HOURS j * Real.exp (ξ + δ)) cov j
        + cov.childBenefits - spec.child_care_costs (childCareBin cov.bin) col) 1e-14)) hscale
  have h5 := ((pow hpos par.mu (h4.div_const cov.equivScale).round).div_const par.mu).round
  unfold workUtilityR emaxWorkValueValidation
  simp only [htp, transc_exp, transc_pow, hν, Pi.zero_apply, mul_zero, add_zero]
  near

end Near

/-- Today's utilities: an error of the order of the accuracy. -/
theorem flow_near {spec : ModelSpec ℝ} {par : ModelParams ℝ} (hp : ParamsFit spec par)
    (hs : Seamless spec.tax_params) {e : Spec.Economy ℝ} (he : e.spec = spec) (hpar : e.par = par)
    (hscale : 0 < spec.elasticity_scale) {s : State} (hin : Spec.InRange spec s) {x d : ℝ} (hx : 0 ≤ x)
    (hcons : 0 < Spec.consumption e s x 0 (d * par.shock_sd)) (hoff : OffLimits e s x (d * par.shock_sd)) (c : Fin 3) :
    Near (fun m : Machine spec.tax_params κ => flowR m.r m.lib m.tax spec par e.biased e.elterngeldRegime s
      (covOf spec s) x d c) (Spec.flow e s x c (d * par.shock_sd)) := by
  subst he hpar
  have hsort : SortedThresholds e.spec.tax_params := ⟨hs.order.1.le, hs.order.2.1.le, hs.order.2.2.le⟩
  have hpt : Near (fun m : Machine e.spec.tax_params κ => getPtIncrementR m.r e.par s.educ s.age e.biased)
      (Spec.ptIncrement e.par e.biased s) := by
    rw [← getPtIncrement_eq hp hin.educ]; exact Near.increment _ _ _ _
  have hyears : 0 < stockToExpYears x s.period e.spec.init_exp_max (Spec.ptIncrement e.par e.biased s) + 1 := by
    unfold stockToExpYears maxExpYears
    have : (0 : ℝ) ≤ (e.spec.init_exp_max : ℝ) + max (s.period : ℝ) (s.period * Spec.ptIncrement e.par e.biased s) :=
      add_nonneg (Nat.cast_nonneg _) (le_max_of_le_left (Nat.cast_nonneg _))
    have := mul_nonneg hx this
    linarith
  have hlw : Near (fun m : Machine e.spec.tax_params κ => solverLogWageR m.r m.lib e.spec e.par
      (getPtIncrementR m.r e.par s.educ s.age e.biased) s.period s x) (Spec.logWage e s x) := by
    rw [← logWage_eq hp hin.educ]
    exact Near.solverLogWage e.spec e.par s.period s x hpt hyears hscale
  have hmul : ∀ c, Near (fun m : Machine e.spec.tax_params κ => calculateNonConsumptionUtilityR m.r m.lib e.par s.educ
      s.type (covOf e.spec s).bin c) (Spec.multiplier e.par s c) := by
    intro c
    rw [← multiplier_eq hp hin.educ hin.type]
    exact Near.multiplier _ _ _ _ _
  have hd : Near (fun m : Machine e.spec.tax_params κ => m.r (d * e.par.shock_sd)) (d * e.par.shock_sd) :=
    (Near.const _).round
  have hsc : 0 < (covOf e.spec s).equivScale := by
    rw [covOf_scale]; unfold Spec.scale; split_ifs <;> norm_num
  fin_cases c
  · have hres := Near.resources (κ := κ) hs e.spec rfl s (covOf e.spec s).childBenefits (covOf e.spec s).maleWage
      e.spec.tax_splitting e.elterngeldRegime hlw (fun h1 h2 => by
        rw [covOf_male, covOf_cb]; exact (hoff h1 h2).1)
    have hpos := hcons
    rw [consumption_zero e s x _ 0, ← nonEmp_eq hsort] at hpos
    have := Near.rest e.par (covOf e.spec s) (hmul 0) hres hpos
    have heq : Spec.flow e s x 0 (d * e.par.shock_sd) =
        (calcResources e.spec HOURS s (Spec.logWage e s x) (covOf e.spec s).maleWage (covOf e.spec s).childBenefits
          e.spec.tax_splitting e.elterngeldRegime / (covOf e.spec s).equivScale) ^ e.par.mu / e.par.mu *
          Spec.multiplier e.par s 0 := by
      unfold Spec.flow
      rw [consumption_zero e s x _ 0, ← nonEmp_eq hsort]; rfl
    show Near _ (Spec.flow e s x 0 (d * e.par.shock_sd))
    rw [heq]
    exact this
  all_goals cases hr : e.elterngeldRegime
  · have h := (emaxWorkValueValidation_eq hsort hr s x (d * e.par.shock_sd) 0).1
    simp only [Pi.zero_apply, mul_zero, add_zero] at h
    show Near _ (Spec.flow e s x 1 (d * e.par.shock_sd))
    rw [← h]
    exact Near.workOther hs e.spec rfl e.par (covOf e.spec s) hsc (hmul 1) hlw hd _ 1 0 _ rfl (fun _ hb => by
      have h2 := (hoff hr (by simpa using hb)).2
      rw [covOf_male]
      simp only [Spec.erzThreshold] at h2
      by_cases hm : 0 < Spec.partnerWage e.spec s <;> simpa [hm, ind, HOURS] using h2)
  · have h := (emaxWorkValue_eq hsort hr s x (d * e.par.shock_sd) 0).1
    simp only [Pi.zero_apply, mul_zero, add_zero] at h
    show Near _ (Spec.flow e s x 1 (d * e.par.shock_sd))
    rw [← h]
    exact Near.work hs e.spec rfl e.par (covOf e.spec s) hsc (hmul 1) hlw hd 1 0 _ rfl
  · have h := (emaxWorkValueValidation_eq hsort hr s x (d * e.par.shock_sd) 0).2
    simp only [Pi.zero_apply, mul_zero, add_zero] at h
    show Near _ (Spec.flow e s x 2 (d * e.par.shock_sd))
    rw [← h]
    exact Near.workOther hs e.spec rfl e.par (covOf e.spec s) hsc (hmul 2) hlw hd _ 2 1 _ rfl (fun h => by
      exact absurd h (by decide))
  · have h := (emaxWorkValue_eq hsort hr s x (d * e.par.shock_sd) 0).2
    simp only [Pi.zero_apply, mul_zero, add_zero] at h
    show Near _ (Spec.flow e s x 2 (d * e.par.shock_sd))
    rw [← h]
    exact Near.work hs e.spec rfl e.par (covOf e.spec s) hsc (hmul 2) hlw hd 2 1 _ rfl

end Soepy
