import Verif.Props.MachineCareer
import Verif.Props.Quadrature
import Verif.Props.GridError

/-! # C108: examples -/

set_option linter.unusedSectionVars false

namespace Soepy.Props
open Soepy.Spec

/-- The economy of the example. -/
noncomputable abbrev machineEconomy (regime : String) : Spec.Economy ℝ :=
  Spec.economy (realSpec 1 40 80 regime) realPar false [-1, 1] [1/2, 1/2] realChild realPartner

theorem machineBeliefs (regime : String) : ValidBeliefs (machineEconomy regime) ∧ ProperBeliefs (machineEconomy regime) := by
  have hv := (realBeliefs (tape fun _ => (0 : ℝ)) () 1 40 80 regime).valid (draws := _) (weights := _) rfl false
  refine ⟨⟨hv.birth0, hv.birth1, hv.partner, ?_, hv.delta⟩,
    properBeliefs (realOk 1 40 80 regime) (by norm_num) rfl realPartner_sum⟩
  intro w hw
  simp only [machineEconomy, Spec.economy, List.mem_cons, List.not_mem_nil, or_false] at hw
  rcases hw with rfl | rfl <;> norm_num

theorem machine_net0 (regime : String) : Spec.householdNet (realSpec 1 40 80 regime) 0 0 = 0 := by
  unfold Spec.householdNet Spec.taxable
  dsimp only
  rw [if_neg (lt_irrefl _)]
  have e1 : ((0 : ℝ) - (realSpec 1 40 80 regime).ssc_deductions.rate * min 0 (realSpec 1 40 80 regime).ssc_deductions.cap) = 0 := by
    simp only [realSpec]
    norm_num
  have h0 : Spec.schedule (realSpec 1 40 80 regime).tax_params 0 = 0 := by
    show Spec.schedule createTaxParameters 0 = 0
    rw [← incTax_eq_schedule (proper2007 (K := ℝ)).sorted]
    exact incTax2007_zero (by unfold Spec.weekly; norm_num)
  rw [e1, h0]
  norm_num

/-- Everybody can consume at least one unit a week without working. -/
theorem machine_home (regime : String) (s : State) (x shock : ℝ) :
    1 ≤ Spec.consumption (machineEconomy regime) s x 0 shock := by
  have hsolv := realSolvent 1 40 (assistance := 80) (by norm_num) regime
  have hben : Spec.floor (realSpec 1 40 80 regime) s ≤ Spec.benefits (machineEconomy regime) s
      (Transc.exp (Spec.logWage (machineEconomy regime) s x)) := by
    unfold Spec.benefits
    dsimp only
    split
    · exact le_max_right _ _
    · refine le_trans (le_max_right _ _) (le_add_of_nonneg_right ?_)
      split_ifs
      · exact hsolv.erz
      · exact le_rfl
  have hscale : Spec.scale (K := ℝ) s ≤ 1.8 ∧ 0 < Spec.scale (K := ℝ) s := by
    unfold Spec.scale
    split_ifs <;> norm_num
  show 1 ≤ (Spec.householdNet (realSpec 1 40 80 regime) 0 (Spec.partnerWage (realSpec 1 40 80 regime) s) + _) / _
  rw [le_div_iff₀ hscale.2, one_mul]
  by_cases hp : s.partner = 1
  · have hm : 38 ≤ Spec.partnerWage (realSpec 1 40 80 regime) s := by
      unfold Spec.partnerWage
      rw [if_pos hp]
      have h1 : (1 : ℝ) ≤ Real.exp 1 := Real.one_le_exp (by norm_num)
      have h2 : (Transc.exp ((realSpec 1 40 80 regime).partner_cf_const + (realSpec 1 40 80 regime).partner_cf_age * s.period
        + (realSpec 1 40 80 regime).partner_cf_age_sq * (s.period : ℝ) ^ 2
        + (realSpec 1 40 80 regime).partner_cf_educ * s.educ) : ℝ) = Real.exp 1 := by
        show Real.exp _ = _
        simp [realSpec]
      rw [h2]
      linarith
    have hmono := householdNet_mono hsolv.rules (le_refl (0 : ℝ)) hm
      ⟨fun _ => by linarith, fun _ => by norm_num⟩
    have h38 : (15 : ℝ) ≤ Spec.householdNet (realSpec 1 40 80 regime) 0 38 := by
      have hsl := schedule_slope hsolv.rules (a := 0) (b := 15.2) (by norm_num)
      have h0 : Spec.schedule (realSpec 1 40 80 regime).tax_params 0 = 0 := by
        show Spec.schedule createTaxParameters 0 = 0
        rw [← incTax_eq_schedule (proper2007 (K := ℝ)).sorted]
        exact incTax2007_zero (by unfold Spec.weekly; norm_num)
      rw [h0] at hsl
      unfold Spec.householdNet Spec.taxable
      dsimp only
      rw [if_pos (by norm_num)]
      have e1 : ((0 : ℝ) - (realSpec 1 40 80 regime).ssc_deductions.rate * min 0 (realSpec 1 40 80 regime).ssc_deductions.cap
        + (38 - (realSpec 1 40 80 regime).ssc_deductions.rate * min 38 (realSpec 1 40 80 regime).ssc_deductions.cap))
        = 30.4 := by
        simp only [realSpec]
        norm_num
      rw [e1]
      have e2 : (30.4 / 2 : ℝ) = 15.2 := by norm_num
      rw [e2]
      show _ ≤ _ - 1.05 * (if true = true then _ else _)
      rw [if_pos rfl]
      norm_num at hsl ⊢
      linarith
    have hfl : Spec.floor (realSpec 1 40 80 regime) s = 0 := by unfold Spec.floor; simp [hp]
    linarith [hscale.1]
  · have hfl : 160 ≤ Spec.floor (realSpec 1 40 80 regime) s := by
      unfold Spec.floor Spec.assistance
      rw [if_neg hp]
      split_ifs <;> norm_num [realSpec]
    have hn : Spec.householdNet (realSpec 1 40 80 regime) 0 (Spec.partnerWage (realSpec 1 40 80 regime) s) = 0 := by
      unfold Spec.partnerWage
      rw [if_neg hp]
      exact machine_net0 regime
    rw [hn]
    linarith [hscale.1]

theorem machine_flow (regime : String) (s : State) (x shock : ℝ) :
    (∀ c, Spec.flow (machineEconomy regime) s x c shock ≤ 0) ∧ -2 ≤ Spec.flow (machineEconomy regime) s x 0 shock := by
  have hsolv := realSolvent 1 40 (assistance := 80) (by norm_num) regime
  have hpos : ∀ c, 0 < Spec.consumption (machineEconomy regime) s x c shock := fun c =>
    C56_solver_positive_consumption Real.exp_pos _ hsolv.rules.tax hsolv.rules.rate0 hsolv.rules.rate1 hsolv.rules.cap
      hsolv.floor hsolv.erz s x shock c
  have hmu : (machineEconomy regime).par.mu = -1/2 := rfl
  have hm : ∀ c, 0 < Spec.multiplier (machineEconomy regime).par s c := by
    intro c
    fin_cases c <;> exact Real.exp_pos _
  constructor
  · intro c
    unfold Spec.flow
    rw [hmu]
    refine mul_nonpos_of_nonpos_of_nonneg (div_nonpos_of_nonneg_of_nonpos ?_ (by norm_num)) (hm c).le
    exact Real.rpow_nonneg (hpos c).le _
  · unfold Spec.flow
    rw [hmu]
    have h1 : Spec.multiplier (machineEconomy regime).par s 0 = 1 := Real.exp_zero
    have h2 : (Transc.pow (Spec.consumption (machineEconomy regime) s x 0 shock) (-1/2) : ℝ) ≤ 1 :=
      Real.rpow_le_one_of_one_le_of_nonpos (machine_home regime s x shock) (by norm_num)
    rw [h1, mul_one]
    rw [le_div_iff_of_neg (by norm_num)]
    linarith

theorem machine_W (regime : String) : ∀ (r : Nat) (s : State), (0 < r → Spec.InRange (machineEconomy regime).spec s) →
    s.period + r ≤ (machineEconomy regime).spec.num_periods → ∀ x ∈ (machineEconomy regime).spec.exp_grid,
    -2 * (r : ℝ) ≤ Spec.W (machineEconomy regime) r s x ∧ Spec.W (machineEconomy regime) r s x ≤ 0
  | 0, _, _, _, _, _ => by simp [Spec.W]
  | r + 1, s, hin, ht, x, hx => by
    obtain ⟨hv, hp⟩ := machineBeliefs regime
    have hs := hin (Nat.succ_pos r)
    have ih := machine_W regime r
    have hc := fun c => continuation_bounds hv (realInputs regime).grid hp ih hs (by omega) x c
    refine ⟨?_, W_nonpos hv (realInputs regime).grid (fun s x c shock => (machine_flow regime s x shock).1 c) _ _ _⟩
    have hconst : ∀ v : ℝ, (List.zipWith (fun _ w => w * v) (machineEconomy regime).draws
        (machineEconomy regime).weights).sum = v := by
      intro v; rw [zipWith_sum_const v hp.draws, hp.weights, one_mul]
    unfold Spec.W
    refine (hconst _).symm.trans_le (expect_le_mem (f := fun _ => _) hv.weights fun d hd => ?_)
    refine le_max_of_le_left (le_max_of_le_left ?_)
    have h1 := (machine_flow regime s x (d * (machineEconomy regime).par.shock_sd)).2
    have h2 := (hc 0).1
    have h3 : (machineEconomy regime).par.delta = 49/50 := rfl
    rw [h3]
    push_cast
    have : (0 : ℝ) ≤ r := Nat.cast_nonneg r
    linarith

/-- Earnings of next to nothing are worth next to nothing. -/
theorem net_le (regime : String) {y : ℝ} (h0 : 0 ≤ y) : Spec.householdNet (realSpec 1 40 80 regime) y 0 ≤ y := by
  unfold Spec.householdNet Spec.taxable
  dsimp only
  rw [if_neg (lt_irrefl _)]
  have h1 : 0 ≤ (realSpec 1 40 80 regime).ssc_deductions.rate * min y (realSpec 1 40 80 regime).ssc_deductions.cap := by
    simp only [realSpec]
    have : 0 ≤ min y (1000 : ℝ) := le_min h0 (by norm_num)
    positivity
  have h2 : ∀ z, 0 ≤ Spec.schedule (realSpec 1 40 80 regime).tax_params z := by
    intro z
    show 0 ≤ Spec.schedule createTaxParameters z
    rw [← incTax_eq_schedule (proper2007 (K := ℝ)).sorted]
    rcases le_total z 0 with hz | hz
    · exact (incTax2007_zero (hz.trans (by unfold Spec.weekly; norm_num))).ge
    · have := (incTax2007_slope hz).1
      rwa [incTax2007_zero (x := (0 : ℝ)) (by unfold Spec.weekly; norm_num), sub_zero] at this
  have := h2 (y - (realSpec 1 40 80 regime).ssc_deductions.rate * min y (realSpec 1 40 80 regime).ssc_deductions.cap)
  linarith

/-- After a very bad shock a childless single without experience is better off without work. -/
theorem machine_worth (regime : String) {a : Agent ℝ} (hin : Spec.InRange (realSpec 1 40 80 regime) a.state)
    (h0 : a.stock = 0) (hage : a.age = -1) (hp : a.partner = 0) (he : a.educ = 0) (ht : a.type = 0) {c : Fin 3} (hc : c ≠ 0) :
    worthOf (realSpec 1 40 80 regime) realPar (machineEconomy regime) a (-60) c
      < worthOf (realSpec 1 40 80 regime) realPar (machineEconomy regime) a (-60) 0 := by
  obtain ⟨hv, hpb⟩ := machineBeliefs regime
  have hper : a.period < 3 := hin.period
  -- the future
  have hfut : ∀ c, -6 ≤ onUnitInterval ((realSpec 1 40 80 regime).exp_grid.map fun y => continuation (machineEconomy regime)
        (Spec.W (machineEconomy regime) ((realSpec 1 40 80 regime).num_periods - (a.period + 1))) a.state y c) a.stock ∧
      onUnitInterval ((realSpec 1 40 80 regime).exp_grid.map fun y => continuation (machineEconomy regime)
        (Spec.W (machineEconomy regime) ((realSpec 1 40 80 regime).num_periods - (a.period + 1))) a.state y c) a.stock ≤ 0 := by
    intro c
    have hb := continuation_bounds hv (realInputs regime).grid hpb
      (fun s hs ht => machine_W regime ((realSpec 1 40 80 regime).num_periods - (a.period + 1)) s hs ht) hin
      (by show a.period + 1 + (3 - (a.period + 1)) ≤ 3; omega) 0 c
    have hr : -6 ≤ -2 * (((realSpec 1 40 80 regime).num_periods - (a.period + 1) : ℕ) : ℝ) := by
      have : (((realSpec 1 40 80 regime).num_periods - (a.period + 1) : ℕ) : ℝ) ≤ 3 := by
        exact_mod_cast (by show 3 - (a.period + 1) ≤ 3; omega)
      linarith
    have hval : ∀ f : ℝ → ℝ, onUnitInterval ((realSpec 1 40 80 regime).exp_grid.map f) a.stock = f 0 := by
      intro f
      unfold onUnitInterval line
      simp [realSpec, h0]
    rw [hval]
    exact ⟨hr.trans hb.1, hb.2⟩
  -- today
  have hscale : Spec.scale (K := ℝ) a.state = 1 := by
    unfold Spec.scale
    have h1 : a.state.age = -1 := hage
    have h2 : a.state.partner ≠ 1 := by show a.partner ≠ 1; omega
    rw [if_pos h1, if_neg h2]
  have hpw : Spec.partnerWage (realSpec 1 40 80 regime) a.state = 0 := by
    unfold Spec.partnerWage
    rw [if_neg (by show a.partner ≠ 1; omega)]
  have hkg : Spec.kindergeld (realSpec 1 40 80 regime) a.state = 0 := by
    unfold Spec.kindergeld
    rw [if_pos (show a.state.age = -1 from hage)]
  have hlw : trueLogWage (realSpec 1 40 80 regime) realPar a.state a.stock = 1 := by
    unfold trueLogWage
    have h1 : a.state.educ = 0 := he
    rw [h0, h1, zero_mul, zero_add]
    have h2 : (Transc.log 1 : ℝ) = 0 := Real.log_one
    rw [h2, mul_zero, add_zero]
    rfl
  have hwage : trueWage (realSpec 1 40 80 regime) realPar a.state a.stock (-60) ≤ 1 / 2 ^ 58 ∧
      0 ≤ trueWage (realSpec 1 40 80 regime) realPar a.state a.stock (-60) := by
    unfold trueWage
    rw [hlw]
    have h1 : (Transc.exp (1 + -60) : ℝ) = (Real.exp 1 ^ 59)⁻¹ := by
      show Real.exp _ = _
      rw [← Real.exp_nat_mul, ← Real.exp_neg]
      norm_num
    have h2 : (realSpec 1 40 80 regime).elasticity_scale = 1 := rfl
    rw [h1, h2, mul_one]
    have h3 : (2 : ℝ) ≤ Real.exp 1 := by have := Real.exp_one_gt_d9; linarith
    have h4 : (2 : ℝ) ^ 59 ≤ Real.exp 1 ^ 59 := pow_le_pow_left₀ (by norm_num) h3 59
    refine ⟨?_, by positivity⟩
    rw [one_div]
    exact inv_anti₀ (by positivity) ((by norm_num : (2 : ℝ) ^ 58 ≤ 2 ^ 59).trans h4)
  have hres : simResources (realSpec 1 40 80 regime) realPar a.state a.stock (-60) c = 1 / 2 ^ 52 := by
    fin_cases c
    · exact absurd rfl hc
    · show max (householdNet _ (trueWage (realSpec 1 40 80 regime) realPar a.state a.stock (-60) * 18) _
        + simPartTimeBenefit _ _ _ + _ - (0 : ℝ)) _ = _
      have hb : simPartTimeBenefit (realSpec 1 40 80 regime) a.state
          (trueWage (realSpec 1 40 80 regime) realPar a.state a.stock (-60) * 18) = 0 := by
        unfold simPartTimeBenefit
        rw [if_neg]
        rintro ⟨-, h, -⟩
        have : a.state.age = -1 := hage
        omega
      rw [hb, hpw, hkg]
      refine max_eq_right ?_
      have := net_le regime (mul_nonneg hwage.2 (by norm_num : (0 : ℝ) ≤ 18))
      have h1 := mul_le_mul_of_nonneg_right hwage.1 (by norm_num : (0 : ℝ) ≤ 18)
      norm_num at h1 ⊢
      linarith
    · show max (householdNet _ (trueWage (realSpec 1 40 80 regime) realPar a.state a.stock (-60) * 38) _
        + _ - (0 : ℝ)) _ = _
      rw [hpw, hkg]
      refine max_eq_right ?_
      have := net_le regime (mul_nonneg hwage.2 (by norm_num : (0 : ℝ) ≤ 38))
      have h1 := mul_le_mul_of_nonneg_right hwage.1 (by norm_num : (0 : ℝ) ≤ 38)
      norm_num at h1 ⊢
      linarith
  have hmult : 1 / 4 ≤ multiplier realPar a.state c := by
    have hg : ageGroup a.state.age = 0 := by
      have : a.state.age = -1 := hage
      rw [this]; rfl
    have h1 : a.state.educ = 0 := he
    have h2 : a.state.type = 0 := ht
    have key : ∀ y : ℝ, -1 ≤ y → 1 / 4 ≤ Real.exp y := by
      intro y hy
      have h3 := Real.exp_le_exp.2 hy
      have h4 : Real.exp (-1) = (Real.exp 1)⁻¹ := Real.exp_neg 1
      have h5 : (1 / 4 : ℝ) ≤ (Real.exp 1)⁻¹ := by
        rw [one_div]
        have := Real.exp_one_lt_d9
        exact inv_anti₀ (Real.exp_pos 1) (by linarith)
      linarith
    fin_cases c
    · exact absurd rfl hc
    · refine key _ ?_
      unfold kidsF kidsP
      rw [hg, h1, h2]
      norm_num [realPar]
    · refine key _ ?_
      unfold kidsF
      rw [hg, h1, h2]
      norm_num [realPar]
  have hwork : simFlow (realSpec 1 40 80 regime) realPar a.state a.stock (-60) c ≤ -2 ^ 20 := by
    unfold simFlow
    rw [hres, hscale, div_one]
    have h1 : (Transc.pow (1 / 2 ^ 52) realPar.mu : ℝ) = 2 ^ 26 := by
      show ((1 : ℝ) / 2 ^ 52) ^ (-1/2 : ℝ) = _
      rw [one_div, ← Real.rpow_natCast, ← Real.rpow_neg (by norm_num), ← Real.rpow_mul (by norm_num), ← Real.rpow_natCast]
      norm_num
    rw [h1]
    have h2 : realPar.mu = -1/2 := rfl
    rw [h2]
    norm_num
    linarith
  have hhome : -2 ≤ simFlow (realSpec 1 40 80 regime) realPar a.state a.stock (-60) 0 := by
    unfold simFlow
    have h1 : multiplier realPar a.state 0 = 1 := Real.exp_zero
    have h2 : realPar.mu = -1/2 := rfl
    have h3 : 1 ≤ simResources (realSpec 1 40 80 regime) realPar a.state a.stock (-60) 0 / Spec.scale a.state := by
      rw [hscale, div_one]
      refine le_max_of_le_left ?_
      have h5 : Spec.floor (realSpec 1 40 80 regime) a.state ≤ Spec.benefits (plain (realSpec 1 40 80 regime) realPar) a.state
          (Transc.exp (trueLogWage (realSpec 1 40 80 regime) realPar a.state a.stock)) := by
        unfold Spec.benefits
        dsimp only
        split
        · exact le_max_right _ _
        · refine le_trans (le_max_right _ _) (le_add_of_nonneg_right ?_)
          split_ifs
          · exact (realSolvent 1 40 (assistance := 80) (by norm_num) regime).erz
          · exact le_rfl
      have h6 : 160 ≤ Spec.floor (realSpec 1 40 80 regime) a.state := by
        unfold Spec.floor Spec.assistance
        rw [if_neg (by show a.partner ≠ 1; omega)]
        split_ifs <;> norm_num [realSpec]
      have h7 : 0 ≤ Spec.householdNet (realSpec 1 40 80 regime) 0 (Spec.partnerWage (realSpec 1 40 80 regime) a.state) := by
        rw [hpw, machine_net0]
      linarith
    have h4 : (Transc.pow (simResources (realSpec 1 40 80 regime) realPar a.state a.stock (-60) 0 / Spec.scale a.state)
        (-1/2) : ℝ) ≤ 1 := Real.rpow_le_one_of_one_le_of_nonpos h3 (by norm_num)
    rw [h1, h2, mul_one, le_div_iff_of_neg (by norm_num)]
    linarith
  have hd : realPar.delta = 49/50 := rfl
  have f0 := (hfut 0).1
  have f1 := (hfut c).2
  unfold worthOf
  rw [hd]
  norm_num at hwork
  linarith

/-- A childless single without experience, with a very bad shock in each of the three periods. -/
noncomputable def badLuck : List (ℝ × ℤ × ℕ) := [(-60, -1, 0), (-60, -1, 0), (-60, -1, 0)]

theorem machine_career (regime : String) :
    BestCareer (realSpec 1 40 80 regime) realPar (machineEconomy regime) lastFullTime badLuck [0, 0, 0] ∧
      ∀ q ∈ path (realSpec 1 40 80 regime) realPar lastFullTime badLuck [0, 0, 0],
        Spec.InRange (realSpec 1 40 80 regime) q.1.state ∧ OffLimitsSim (realSpec 1 40 80 regime) realPar q.1 q.2 := by
  have hstock : ∀ s : State, stockAfter (realSpec 1 40 80 regime) realPar s 0 0 = 0 := by
    intro s
    unfold stockAfter
    simp
  have hin : ∀ a : Agent ℝ, a.period < 3 → a.age = -1 → a.partner = 0 → a.educ = 0 → a.type = 0 → a.lagged < 3 →
      Spec.InRange (realSpec 1 40 80 regime) a.state := by
    intro a h1 h2 h3 h4 h5 h6
    have e2 : a.state.age = -1 := h2
    exact ⟨h1, by show a.educ < 2; omega, h6, by show a.type < 2; omega, by omega, by rw [e2]; simp [realSpec],
      by show a.partner < 2; omega⟩
  -- an agent like this prefers not to work, and stays like this
  let Like (t : ℕ) (a : Agent ℝ) : Prop := a.period = t ∧ a.stock = 0 ∧ a.age = -1 ∧ a.partner = 0 ∧ a.educ = 0 ∧
    a.type = 0 ∧ a.lagged < 3
  have step : ∀ t a, Like t a → Like (t + 1) (after (realSpec 1 40 80 regime) realPar a 0 (-1) 0) := by
    rintro t a ⟨h1, h2, h3, h4, h5, h6, h7⟩
    refine ⟨by simp [after, h1], ?_, rfl, rfl, h5, h6, by simp [after]⟩
    show stockAfter _ _ _ a.stock 0 = 0
    rw [h2, hstock]
  have like0 : Like 0 lastFullTime := by
    refine ⟨rfl, rfl, rfl, rfl, rfl, rfl, ?_⟩
    show 2 < 3
    norm_num
  have like1 := step _ _ like0
  have like2 := step _ _ like1
  have range : ∀ t a, t < 3 → Like t a → Spec.InRange (realSpec 1 40 80 regime) a.state := by
    rintro t a ht ⟨h1, h2, h3, h4, h5, h6, h7⟩
    exact hin a (by omega) h3 h4 h5 h6 h7
  have best : ∀ t a, t < 3 → Like t a → ∀ c, c ≠ 0 →
      worthOf (realSpec 1 40 80 regime) realPar (machineEconomy regime) a (-60) c
        < worthOf (realSpec 1 40 80 regime) realPar (machineEconomy regime) a (-60) 0 := by
    rintro t a ht hl c hc
    have hr := range t a ht hl
    obtain ⟨h1, h2, h3, h4, h5, h6, h7⟩ := hl
    exact machine_worth regime hr h2 h3 h4 h5 h6 hc
  have off : ∀ t a, Like t a → OffLimitsSim (realSpec 1 40 80 regime) realPar a (-60) := by
    rintro t a ⟨h1, h2, h3, h4, h5, h6, h7⟩ - hage
    omega
  constructor
  · exact ⟨best 0 _ (by norm_num) like0, best 1 _ (by norm_num) like1, best 2 _ (by norm_num) like2, trivial⟩
  · intro q hq
    simp only [badLuck, path, List.mem_cons, List.not_mem_nil, or_false] at hq
    rcases hq with rfl | rfl | rfl
    · exact ⟨range 0 _ (by norm_num) like0, off 0 _ like0⟩
    · exact ⟨range 1 _ (by norm_num) like1, off 1 _ like1⟩
    · exact ⟨range 2 _ (by norm_num) like2, off 2 _ like2⟩

/-- Both regimes of a concrete model meet the hypotheses: an agent with this bad luck never works, and neither does the
simulated one when solver and simulator compute with the program's own schedule, from the left to the right, with
sufficiently many digits. -/
example (regime : String) (hregime : regime = "elterngeld" ∨ regime = "erziehungsgeld") :
    let spec := realSpec 1 40 80 regime
    let e := machineEconomy regime
    ∃ o, createStateSpaceObjects spec = .ok o ∧ ∃ p₁, ∀ p, p₁ ≤ p →
      let tax := createTaxParametersR (binary p)
      ∃ table run, solveFunctionR (binary p) leftToRight
          (fun s => flowR (binary p) .exact tax spec realPar false e.elterngeldRegime s (covOf spec s))
          spec o.states o.covariates o.childStateIndexes realChild realPartner false [-1, 1] [1/2, 1/2] realPar
            = .ok table ∧
        careerR (binary p) .exact tax spec realPar false o.indexer o.states o.covariates table lastFullTime
          badLuck = .ok run ∧ (run.map fun q => q.2.choice) = [0, 0, 0] := by
  intro spec e
  obtain ⟨κ, p₂, hκ⟩ := C106_schedule
  obtain ⟨o, ho, C, -, ε, hε, h⟩ := C108_career (realOk 1 40 80 regime) hregime (fun _ => rfl) (realInputs regime) le_rfl
    le_rfl (by norm_num) (realRegular regime) κ (by show (0 : ℝ) ≤ 0; norm_num) (machine_career regime).1
    (machine_career regime).2
  obtain ⟨p₁, hp₁⟩ := exists_pow_lt_of_lt_one hε (by norm_num : (1/2 : ℝ) < 1)
  refine ⟨o, ho, max p₁ p₂, fun p hp => ?_⟩
  have hsmall : (1 / 2 ^ p : ℝ) + 0 ≤ ε := by
    rw [add_zero, ← one_div_pow]
    exact (pow_le_pow_of_le_one (by norm_num) (by norm_num) ((le_max_left _ _).trans hp)).trans hp₁.le
  obtain rfl := Except.ok.inj (ho.symm.trans (createStateSpaceObjects_eq spec))
  obtain ⟨table, run, t1, t2, t3, -⟩ := h p .exact 0 (createTaxParametersR (binary p)) leftToRight
    (fun s => flowR (binary p) .exact (createTaxParametersR (binary p)) spec realPar false e.elterngeldRegime s
      (covOf spec s))
    exact_accurate (by rw [add_zero]; exact (hκ p ((le_max_right _ _).trans hp)).1) hsmall leftToRight_plan
    (fun i s cov hs hc => by
      simp only [List.getElem?_map, hs, Option.map_some, Option.some.injEq] at hc
      rw [← hc])
  exact ⟨table, run, t1, t2, t3⟩

/-- A married mother of a small child and a single, with shocks, are agents as in the theorem on decisions. -/
example : ∀ q ∈ [(lastFullTime, (1/4 : ℝ)), ({ lastFullTime with age := 0, partner := 1, stock := 1/2 }, -1/3)],
    Spec.InRange (realSpec 1 40 80 "elterngeld") q.1.state ∧ 0 ≤ q.1.stock ∧
      OffLimitsSim (realSpec 1 40 80 "elterngeld") realPar q.1 q.2 := by
  intro q hq
  simp only [List.mem_cons, List.not_mem_nil, or_false] at hq
  rcases hq with rfl | rfl
  · exact ⟨by constructor <;> simp [realSpec, lastFullTime, Agent.state], le_rfl, fun h => absurd rfl h⟩
  · exact ⟨by constructor <;> simp [realSpec, lastFullTime, Agent.state], by norm_num, fun h => absurd rfl h⟩

/-- A solution as in `C108_without_rounding`. -/
example (spec : ModelSpec ℝ) : SpaceOf spec (realInput spec realPar) ∧
    SolutionOf spec realPar (realInput spec realPar) (fun _ _ => ⟨fun _ => 0, 0⟩) := ⟨⟨rfl, rfl, rfl, rfl⟩, ⟨rfl, rfl⟩⟩

example : ParamsFit (realSpec 1 40 80 "elterngeld") realPar ∧
    Spec.InRange (realSpec 1 40 80 "elterngeld") lastFullTime.state :=
  ⟨(realOk 1 40 80 "elterngeld").par, by constructor <;> simp [realSpec, lastFullTime, Agent.state]⟩

end Soepy.Props
