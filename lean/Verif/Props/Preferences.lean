import Verif.Model.RealInst
import Verif.Proof.SolveBounds
import Verif.Props.Tax
import Verif.Props.Wages
import Mathlib.Analysis.SpecialFunctions.Pow.Real
import Mathlib.Data.List.GetD

/-!
# Preferences and wages over the real numbers (C56, C57)
-/

set_option linter.unusedSectionVars false

namespace Soepy.Props
open Soepy

/-! ## C57 -/

/-- **C57**  With nonnegative returns the systematic log wage does not fall if the stock rises. -/
theorem C57_wage_rises_with_stock {par : ModelParams ℝ} (hg : ∀ g ∈ par.gamma_1, 0 ≤ g) (educ period : Nat)
    {m pt x y : ℝ} (hm : 0 ≤ m) (hx : 0 ≤ x) (hxy : x ≤ y) :
    calculateLogWage par educ x m pt period ≤ calculateLogWage par educ y m pt period := by
  have hY : 0 ≤ maxExpYears period m pt :=
    add_nonneg hm (le_max_of_le_left (Nat.cast_nonneg _))
  have hr : 0 ≤ jget 0 par.gamma_1 (educ : Int) := by
    by_cases h0 : par.gamma_1 = []
    · rw [h0]; simp [jget, jaxIndex]
    · exact hg _ (jget_mem 0 h0 _)
  unfold calculateLogWage stockToExpYears
  dsimp only
  have h1 : 0 ≤ x * maxExpYears period m pt := mul_nonneg hx hY
  have h2 : x * maxExpYears period m pt ≤ y * maxExpYears period m pt := mul_le_mul_of_nonneg_right hxy hY
  have : Real.log (x * maxExpYears period m pt + 1) ≤ Real.log (y * maxExpYears period m pt + 1) :=
    Real.log_le_log (by linarith) (by linarith)
  have := mul_le_mul_of_nonneg_left this hr
  simp only [transc_log]
  linarith

/-- **C57**  Who works full time rather than not at all, part time rather than not at all, or full time rather
than part time, does not earn less next year, if part-time work counts between nothing and a full year. -/
theorem C57_wage_rises_with_work {par : ModelParams ℝ} (hg : ∀ g ∈ par.gamma_1, 0 ≤ g)
    (educ period : Nat) {m pt pt' x : ℝ} (hm : 0 ≤ m) (hp0 : 0 ≤ pt) (hp1 : pt ≤ 1) :
    let next (choice : Nat) := calculateLogWage par educ (nextStock x period m pt choice) m pt' (period + 1)
    next 0 ≤ next 1 ∧ next 1 ≤ next 2 := by
  have hY : 0 ≤ maxExpYears (period + 1) m pt :=
    add_nonneg hm (le_max_of_le_left (Nat.cast_nonneg _))
  have key : ∀ c c' : Nat, nextExpYears (stockToExpYears x period m pt) c pt
      ≤ nextExpYears (stockToExpYears x period m pt) c' pt →
      nextStock x period m pt c ≤ nextStock x period m pt c' := by
    intro c c' h
    unfold nextStock expYearsToStock
    dsimp only
    have hd : 0 ≤ if maxExpYears (period + 1) m pt > 0 then maxExpYears (period + 1) m pt else 1 := by
      split_ifs <;> linarith
    exact min_le_min_right _ (max_le_max_right _ (div_le_div_of_nonneg_right h hd))
  refine ⟨C57_wage_rises_with_stock hg _ _ hm (clip_mem _ 0 1 zero_le_one).1 (key 0 1 ?_),
    C57_wage_rises_with_stock hg _ _ hm (clip_mem _ 0 1 zero_le_one).1 (key 1 2 ?_)⟩
  · unfold nextExpYears; simp [ind]; exact hp0
  · unfold nextExpYears; simp [ind]; linarith

/-- **C57**  Without experience the systematic log wage is the constant of the education level. -/
theorem C57_no_experience {par : ModelParams ℝ} {educ : Nat} (he : educ < par.gamma_0.length) (period : Nat)
    (m pt : ℝ) : calculateLogWage par educ 0 m pt period = par.gamma_0[educ] := by
  unfold calculateLogWage stockToExpYears
  dsimp only
  rw [zero_mul, zero_add, transc_log, Real.log_one, mul_zero, add_zero, jget_getD 0 he,
    List.getD_eq_getElem _ _ he]

/-- Parameters over the reals. -/
noncomputable def realPar : ModelParams ℝ :=
  { gamma_0 := [1, 3/2], gamma_1 := [1/5, 1/4], gamma_p := [1/4, 1/5], gamma_p_mom := 1/10,
    child_0_2_f := -2, child_0_2_p := 1, child_3_5_f := -1, child_3_5_p := 1/2, child_6_10_f := -1/2,
    child_6_10_p := 1/4, no_kids_f := [-1/10, -1/10], no_kids_p := [-1/10, -1/10],
    yes_kids_f := [-1/5, -1/5], yes_kids_p := [0, 0], shock_sd := 1/2, type_shares := [3/5, 2/5],
    delta := 49/50, mu := -1/2, theta_p := [0, -1/2], theta_f := [0, -1] }

example : (∀ g ∈ realPar.gamma_1, 0 ≤ g) ∧ 1 < realPar.gamma_0.length ∧
    0 ≤ (1 / 4 : ℝ) ∧ (1 / 4 : ℝ) ≤ 1 := by
  refine ⟨?_, by simp [realPar], by norm_num, by norm_num⟩
  intro g hg
  simp only [realPar, List.mem_cons, List.not_mem_nil, or_false] at hg
  rcases hg with rfl | rfl <;> norm_num

/-! ## C56 -/

/-- **C56**  The consumption component of utility is strictly increasing in positive consumption. -/
theorem C56_utility_increasing {mu c d : ℝ} (hmu : mu ≠ 0) (hc : 0 < c) (hcd : c < d) :
    (Transc.pow c mu / mu : ℝ) < Transc.pow d mu / mu := by
  simp only [transc_pow]
  rcases lt_or_gt_of_ne hmu with h | h
  · exact (div_lt_div_right_of_neg h).2 (Real.rpow_lt_rpow_of_neg hc hcd h)
  · exact div_lt_div_of_pos_right (Real.rpow_lt_rpow hc.le hcd h) h

/-- **C56**  The multipliers of consumption utility are positive, and one for non-employment. -/
theorem C56_multipliers (par : ModelParams ℝ) (educ type bin : Nat) :
    (∀ c, 0 < calculateNonConsumptionUtility par educ type bin c) ∧
      calculateNonConsumptionUtility par educ type bin 0 = 1 := by
  constructor
  · intro c
    unfold calculateNonConsumptionUtility
    fin_cases c <;> exact Real.exp_pos _
  · unfold calculateNonConsumptionUtility
    simp

section
variable {S K : Type} [Field K] [LinearOrder K] [IsStrictOrderedRing K] [FloorRing K] [Transc K]
  {env : Env S K} {frame : Frame K} {a : Nat} {biased : Bool} {w : World S K}
  {par : ModelParams K} {spec : ModelSpec K} {rows : List (OutRow K)}

theorem scale_pos (s : State) : (0 : K) < Spec.scale s := by
  unfold Spec.scale
  split_ifs <;> norm_num

/-- **C56**  In simulated data every flow utility is the utility of a positive consumption, times a positive
multiplier (for an exponential function with positive values). -/
theorem C56_simulator_positive_consumption (hexp : ∀ y : K, 0 < Transc.exp y)
    (h : Spec.Output env frame a biased false w par spec rows)
    (hu : Usable spec par) : ∀ r ∈ rows, ∃ d, r.detail = some d ∧ ∀ c, ∃ consumption, 0 < consumption ∧
      0 < d.ncu c ∧ d.flow c = Transc.pow consumption par.mu / par.mu * d.ncu c := by
  intro r hr
  obtain ⟨c, g1, sol, hc, hs, hreg, draws, weights, hint, hcol, hrow⟩ := output_content h hu
  obtain ⟨hin, his, o, ho, hd, -, -⟩ := hrow r hr
  refine ⟨_, hd, ?_⟩
  intro c
  refine ⟨Spec.simResources spec par (Spec.stateOf r) r.stock (Spec.shock env par spec r) c
    / Spec.scale (Spec.stateOf r), ?_, ?_, ?_⟩
  · refine div_pos ?_ (scale_pos _)
    have : (0 : K) < 1 / 2 ^ 52 := by positivity
    fin_cases c <;> exact lt_of_lt_of_le this (le_max_right _ _)
  · show 0 < o.ncu c
    rw [ho]
    show 0 < Spec.multiplier par (Spec.stateOf r) c
    fin_cases c <;> exact hexp _
  · show o.flow c = _
    rw [ho]
    rfl

/-- Income out of work, before any benefit that depends on the last wage, is positive. -/
theorem home_income_pos (hexp : ∀ y : K, 0 < Transc.exp y) (e : Spec.Economy K)
    (htax : e.spec.tax_params = createTaxParameters)
    (hr0 : 0 ≤ e.spec.ssc_deductions.rate) (hr1 : e.spec.ssc_deductions.rate < 1)
    (hcap : 0 ≤ e.spec.ssc_deductions.cap)
    (hfloor : ∀ s : State, s.partner ≠ 1 → 0 < Spec.floor e.spec s) (s : State) :
    0 < Spec.householdNet e.spec 0 (Spec.partnerWage e.spec s) + Spec.floor e.spec s := by
  have hnet : ∀ m, Spec.householdNet e.spec 0 m
      = netIncome createTaxParameters e.spec.ssc_deductions 0 m e.spec.tax_splitting := by
    intro m
    rw [← htax, netIncome_eq (by rw [htax]; exact proper2007.sorted)]
  by_cases hp : s.partner = 1
  · have hm : 0 < Spec.partnerWage e.spec s := by
      unfold Spec.partnerWage
      rw [if_pos hp]
      exact mul_pos (hexp _) (by norm_num)
    have := (C21_net_income_increasing hr0 hr1 e.spec.tax_splitting).2 0 _ le_rfl hm.le (Or.inr hm)
    have hfl0 : Spec.floor e.spec s = 0 := by unfold Spec.floor; simp [hp]
    rw [hnet]
    linarith
  · have hm : Spec.partnerWage e.spec s = 0 := by unfold Spec.partnerWage; rw [if_neg hp]
    have h0 : Spec.householdNet e.spec 0 0 = 0 := by
      rw [hnet, netIncome_single le_rfl]
      have : sscDeductions e.spec.ssc_deductions (0 : K) = 0 := by
        rw [(C22_contributions_capped hr0).1 0 hcap, mul_zero]
      rw [this, sub_zero, incTax2007_zero (by unfold Spec.weekly; norm_num)]
      norm_num
    rw [hm, h0]
    have := hfloor s hp
    linarith

/-- **C56**  Under the 2007 schedule with contribution rates below one and positive social assistance, the
solver evaluates utility only at positive consumption, for every state, stock, choice and wage shock. -/
theorem C56_solver_positive_consumption (hexp : ∀ y : K, 0 < Transc.exp y) (e : Spec.Economy K)
    (htax : e.spec.tax_params = createTaxParameters)
    (hr0 : 0 ≤ e.spec.ssc_deductions.rate) (hr1 : e.spec.ssc_deductions.rate < 1)
    (hcap : 0 ≤ e.spec.ssc_deductions.cap)
    (hfloor : ∀ s : State, s.partner ≠ 1 → 0 < Spec.floor e.spec s)
    (herz : 0 ≤ e.spec.erziehungsgeld) (s : State) (x shock : K) (c : Fin 3) :
    0 < Spec.consumption e s x c shock := by
  have hben : Spec.floor e.spec s ≤ Spec.benefits e s (Transc.exp (Spec.logWage e s x)) := by
    unfold Spec.benefits
    dsimp only
    split
    · exact le_max_right _ _
    · refine le_trans (le_max_right _ _) (le_add_of_nonneg_right ?_)
      split_ifs
      · exact herz
      · exact le_rfl
  have work : ∀ z : K, 0 < max z 1e-14 / Spec.scale s := fun z =>
    div_pos (lt_of_lt_of_le (by norm_num) (le_max_right _ _)) (scale_pos s)
  fin_cases c
  · show 0 < (Spec.householdNet e.spec 0 (Spec.partnerWage e.spec s) + _) / _
    have := home_income_pos hexp e htax hr0 hr1 hcap hfloor s
    exact div_pos (by linarith) (scale_pos s)
  · exact work _
  · exact work _

/-- The example simulation and the example specification satisfy the hypotheses. -/
example [Transc ℚ] (hermite : Nat → List ℚ × List ℚ) (g : Nat) :
    (∃ rows, Spec.Output (simEnv exFiles hermite) exFrame 0 false false (simWorld 4 g) exParams simSpec
      rows) ∧ Usable simSpec exParams := ⟨exOutput exFiles_ok hermite false false g, ex_usable⟩

example : exSpec.tax_params = createTaxParameters ∧ 0 ≤ exSpec.ssc_deductions.rate ∧
    exSpec.ssc_deductions.rate < 1 ∧ 0 ≤ exSpec.ssc_deductions.cap ∧
    (∀ s : State, s.partner ≠ 1 → 0 < Spec.floor exSpec s) ∧ 0 ≤ exSpec.erziehungsgeld := by
  refine ⟨rfl, by norm_num [exSpec], by norm_num [exSpec], by norm_num [exSpec], ?_, by norm_num [exSpec]⟩
  intro s hs
  unfold Spec.floor Spec.assistance
  rw [if_neg hs]
  split_ifs <;> norm_num [exSpec]

end

/-- The real exponential function has positive values. -/
example : ∀ y : ℝ, 0 < (Transc.exp y : ℝ) := Real.exp_pos

end Soepy.Props
