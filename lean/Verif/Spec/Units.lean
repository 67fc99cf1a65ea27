import Verif.Spec.Bellman

/-! # Units of account

The same economy with all amounts of money expressed in another currency: one old unit is `l` new units. -/

namespace Soepy.Spec
variable {K : Type} [Field K] [LinearOrder K] [Transc K]

/-- The tax schedule: thresholds and amounts are money, marginal rates are not, and the slope of the marginal
rate is per unit of money. -/
def taxInUnits (l : K) (tp : TaxParams K) : TaxParams K :=
  { thresholds := fun i => l * tp.thresholds i, base := fun i => l * tp.base i, linear := tp.linear
    quad := fun i => tp.quad i / l }

/-- The specification: every amount of money times `l`, the constant of the partner's log wage plus `log l`. -/
def inUnits (l : K) (spec : ModelSpec K) : ModelSpec K :=
  { spec with
    partner_cf_const := spec.partner_cf_const + Transc.log l
    child_benefits := l * spec.child_benefits
    tax_params := taxInUnits l spec.tax_params
    ssc_deductions := { rate := spec.ssc_deductions.rate, cap := l * spec.ssc_deductions.cap }
    child_care_costs := fun b j => l * spec.child_care_costs b j
    regelsatz_single := l * spec.regelsatz_single
    housing_single := l * spec.housing_single
    housing_addtion := l * spec.housing_addtion
    regelsatz_child := l * spec.regelsatz_child
    addition_child_single := l * spec.addition_child_single
    elterngeld_min := l * spec.elterngeld_min
    elterngeld_max := l * spec.elterngeld_max
    erziehungsgeld_income_threshold_single := l * spec.erziehungsgeld_income_threshold_single
    erziehungsgeld_income_threshold_married := l * spec.erziehungsgeld_income_threshold_married
    erziehungsgeld := l * spec.erziehungsgeld }

/-- The parameters: the constants of the log wage plus `log l`. -/
def parInUnits (l : K) (par : ModelParams K) : ModelParams K :=
  { par with gamma_0 := par.gamma_0.map (· + Transc.log l) }

/-- Weekly resources of the household before the lower bound is applied. -/
def resources (e : Economy K) (s : State) (x : K) (c : Fin 3) (shock : K) : K :=
  let wage := Transc.exp (logWage e s x + shock)
  match c with
  | 0 => householdNet e.spec 0 (partnerWage e.spec s) + benefits e s (Transc.exp (logWage e s x))
  | 1 => householdNet e.spec (18 * wage) (partnerWage e.spec s) + partTimeBenefit e s (18 * wage)
      + kindergeld e.spec s - e.spec.child_care_costs (careRow s) 0
  | 2 => householdNet e.spec (38 * wage) (partnerWage e.spec s)
      + kindergeld e.spec s - e.spec.child_care_costs (careRow s) 1

end Soepy.Spec
