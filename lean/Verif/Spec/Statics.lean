import Verif.Spec.Bellman

/-! Vocabulary for comparisons of two economies: what policy and what wages consist of. -/

namespace Soepy.Spec
variable {K : Type} [Field K] [LinearOrder K]

/-- Two specifications agree in everything except the amounts of benefits, replacement rates, child care
costs and joint taxation (all of these are set to fixed values here). -/
def withoutPolicy (spec : ModelSpec K) : ModelSpec K :=
  { spec with
    child_benefits := 0, child_care_costs := fun _ _ => 0, tax_splitting := false
    alg1_replacement_no_child := 0, alg1_replacement_child := 0
    regelsatz_single := 0, housing_single := 0, housing_addtion := 0, regelsatz_child := 0
    addition_child_single := 0
    elterngeld_replacement := 0, elterngeld_min := 0, elterngeld_max := 0 }

/-- `spec'` is at least as generous as `spec`: no benefit, replacement rate or bound is lower, no child
care fee is higher, joint taxation is not abolished.  Replacement rates are nonnegative. -/
structure AtLeastAsGenerous (spec spec' : ModelSpec K) : Prop where
  childBenefits : spec.child_benefits ≤ spec'.child_benefits
  care : ∀ b j, spec'.child_care_costs b j ≤ spec.child_care_costs b j
  splitting : spec.tax_splitting = true → spec'.tax_splitting = true
  alg1NoChild0 : 0 ≤ spec.alg1_replacement_no_child
  alg1NoChild : spec.alg1_replacement_no_child ≤ spec'.alg1_replacement_no_child
  alg1Child0 : 0 ≤ spec.alg1_replacement_child
  alg1Child : spec.alg1_replacement_child ≤ spec'.alg1_replacement_child
  egReplacement0 : 0 ≤ spec.elterngeld_replacement
  egReplacement : spec.elterngeld_replacement ≤ spec'.elterngeld_replacement
  egMin : spec.elterngeld_min ≤ spec'.elterngeld_min
  egMax : spec.elterngeld_max ≤ spec'.elterngeld_max
  regelsatz : spec.regelsatz_single ≤ spec'.regelsatz_single
  housing : spec.housing_single ≤ spec'.housing_single
  housingAddition : spec.housing_addtion ≤ spec'.housing_addtion
  regelsatzChild : spec.regelsatz_child ≤ spec'.regelsatz_child
  additionChild : spec.addition_child_single ≤ spec'.addition_child_single

/-- Two specifications agree in everything except the amount and the income thresholds of Erziehungsgeld, child
care costs and joint taxation. -/
def withoutErziehungsgeld (spec : ModelSpec K) : ModelSpec K :=
  { spec with
    child_care_costs := fun _ _ => 0, tax_splitting := false, erziehungsgeld := 0
    erziehungsgeld_income_threshold_single := 0, erziehungsgeld_income_threshold_married := 0 }

/-- Two specifications agree in everything except the partner's wage equation and the scale of wages. -/
def withoutWages (spec : ModelSpec K) : ModelSpec K :=
  { spec with
    partner_cf_const := 0, partner_cf_age := 0, partner_cf_age_sq := 0, partner_cf_educ := 0
    elasticity_scale := 0 }

/-- Two parameter vectors agree in everything except the wage equation. -/
def withoutWagesPar (par : ModelParams K) : ModelParams K := { par with gamma_0 := [], gamma_1 := [] }

/-- Deterministic part of the partner's log wage. -/
def partnerLogWage (spec : ModelSpec K) (t educ : Nat) : K :=
  spec.partner_cf_const + spec.partner_cf_age * t + spec.partner_cf_age_sq * (t : K) ^ 2
    + spec.partner_cf_educ * educ

/-- Two parameter vectors agree in everything that concerns education level `educ` and type `type`. -/
structure SameFor (educ type : Nat) (par par' : ModelParams K) : Prop where
  gamma0 : par.gamma_0[educ]? = par'.gamma_0[educ]?
  gamma1 : par.gamma_1[educ]? = par'.gamma_1[educ]?
  gammaP : par.gamma_p[educ]? = par'.gamma_p[educ]?
  gammaPMom : par.gamma_p_mom = par'.gamma_p_mom
  noKidsF : par.no_kids_f[educ]? = par'.no_kids_f[educ]?
  noKidsP : par.no_kids_p[educ]? = par'.no_kids_p[educ]?
  yesKidsF : par.yes_kids_f[educ]? = par'.yes_kids_f[educ]?
  yesKidsP : par.yes_kids_p[educ]? = par'.yes_kids_p[educ]?
  child02f : par.child_0_2_f = par'.child_0_2_f
  child02p : par.child_0_2_p = par'.child_0_2_p
  child35f : par.child_3_5_f = par'.child_3_5_f
  child35p : par.child_3_5_p = par'.child_3_5_p
  child610f : par.child_6_10_f = par'.child_6_10_f
  child610p : par.child_6_10_p = par'.child_6_10_p
  thetaP : par.theta_p[type]? = par'.theta_p[type]?
  thetaF : par.theta_f[type]? = par'.theta_f[type]?
  shockSd : par.shock_sd = par'.shock_sd
  delta : par.delta = par'.delta
  mu : par.mu = par'.mu

end Soepy.Spec
