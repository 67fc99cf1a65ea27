import Verif.Model.RoundedSolve

/-!
# Today's utilities in rounded arithmetic

As in `Model/Rounded`, every arithmetic operation is followed by a rounding function `r`.  The exponential function, the
logarithm and the power function of the machine are a parameter `lib`: no format promises their accuracy.  Numbers stored
in the specification, the parameters and the covariates are used as they are; literals of the program are rounded.
-/

namespace Soepy

/-- The functions of a machine's library that the solver uses: `jnp.exp`, `jnp.log` (`np.log` for the scaling factor)
and `**`. -/
structure Library (K : Type) where
  exp : K → K
  log : K → K
  pow : K → K → K

/-- The exact functions. -/
def Library.exact {K : Type} [Transc K] : Library K := ⟨Transc.exp, Transc.log, Transc.pow⟩

variable {K : Type} [Field K] [LinearOrder K]
variable (r : K → K) (lib : Library K)

/-- soepy/shared/wages.py:6-45 `calculate_log_wage`, rounded. -/
def calculateLogWageR (par : ModelParams K) (educ : Nat) (stock initExpMax pt : K) (period : Nat) : K :=
  let years := stockToExpYearsR r stock period initExpMax pt
  let gamma0 := jget 0 par.gamma_0 educ
  let gammaExp := jget 0 par.gamma_1 educ
  let logExp := lib.log (r (years + 1))
  r (gamma0 + r (gammaExp * logExp))

/-- soepy/solve/solve_python.py:191-201: systematic log wage at experience stock `x`, rounded. -/
def solverLogWageR (spec : ModelSpec K) (par : ModelParams K) (pt : K) (currentPeriod : Nat) (s : State) (x : K) : K :=
  r (calculateLogWageR r lib par s.educ x spec.init_exp_max pt currentPeriod + lib.log spec.elasticity_scale)

/-- soepy/shared/non_consumption_utility.py:4-76 `calculate_non_consumption_utility` (one state), rounded. -/
def calculateNonConsumptionUtilityR (par : ModelParams K) (educ type bin : Nat) : Fin 3 → K :=
  let b0 : K := ind (decide (bin = 0))
  let b1 : K := ind (decide (bin = 1))
  let b2 : K := ind (decide (bin = 2))
  let b3 : K := ind (decide (bin = 3))
  let b4 : K := ind (decide (bin > 3))
  let noF := jget 0 par.no_kids_f educ
  let noP := jget 0 par.no_kids_p educ
  let yesF := jget 0 par.yes_kids_f educ
  let yesP := jget 0 par.yes_kids_p educ
  let utilPt := r (jget 0 par.theta_p type +
    r (r (r (r (b0 * r (noF + noP)
      + b1 * r (r (r (yesF + yesP) + par.child_0_2_f) + par.child_0_2_p))
      + b2 * r (r (r (yesF + yesP) + par.child_3_5_f) + par.child_3_5_p))
      + b3 * r (r (r (yesF + yesP) + par.child_6_10_f) + par.child_6_10_p))
      + b4 * r (yesF + yesP)))
  let utilFt := r (jget 0 par.theta_f type +
    r (r (r (r (b0 * noF
      + b1 * r (yesF + par.child_0_2_f))
      + b2 * r (yesF + par.child_3_5_f))
      + b3 * r (yesF + par.child_6_10_f))
      + b4 * yesF))
  ![lib.exp 0, lib.exp utilPt, lib.exp utilFt]

/-- soepy/shared/non_employment.py:180-194 `calc_erziehungsgeld`, rounded. -/
def calcErziehungsgeldR (maleWage femaleIncome : K) (married babyChild : Bool) (incSingle incMarried erz : K) : K :=
  let relevantIncome := r (maleWage + femaleIncome)
  let incThreshold := r (incMarried * ind married + incSingle * (1 - ind married))
  let claim := decide (relevantIncome ≤ incThreshold) && babyChild
  ind claim * erz

/-- soepy/shared/non_employment.py:197-199 `calculate_alg2`, rounded. -/
def calculateAlg2R (noChild married : Bool) (alg2Single alg2Alleinerziehend : K) : K :=
  let claim := r (ind noChild * alg2Single + (1 - ind noChild) * alg2Alleinerziehend)
  claim * (1 - ind married)

/-- soepy/shared/non_employment.py:202-223 `calculate_elterngeld`, rounded. -/
def calculateElterngeldR (hours : Fin 3 → K) (workingFt workingPt : Bool)
    (proxNetWage replacement egMin egMax childBenefit : K) : K :=
  let hoursWorked := r (hours 2 * ind workingFt + hours 1 * ind workingPt)
  let claim := workingFt || workingPt
  ind claim * r (min (max (r (r (replacement * proxNetWage) * hoursWorked)) egMin) egMax + childBenefit)

/-- soepy/shared/non_employment.py:226-245 `calculate_alg1`, rounded. -/
def calculateAlg1R (hours : Fin 3 → K) (workingFt workingPt noChild : Bool)
    (proxNetWage replNoChild replChild childBenefitIfChild : K) : K :=
  let childBenefits := (1 - ind noChild) * childBenefitIfChild
  let replacementRate := r (replNoChild * ind noChild + replChild * (1 - ind noChild))
  let hoursWorked := r (hours 2 * ind workingFt + hours 1 * ind workingPt)
  let alg1 := workingFt || workingPt
  ind alg1 * r (r (r (replacementRate * proxNetWage) * hoursWorked) + childBenefits)

/-- soepy/shared/non_employment.py:68-177 `calculate_non_employment_benefits`, rounded. -/
def calculateNonEmploymentBenefitsR (spec : ModelSpec K) (hours : Fin 3 → K) (s : State)
    (logWage childBenefit maleWage : K) (elterngeldRegime : Bool) : K :=
  let noChild := decide (s.age = -1)
  let workingFt := decide (s.lagged = 2)
  let workingPt := decide (s.lagged = 1)
  let married := decide (s.partner = 1)
  let prox := r (r 0.65 * lib.exp logWage)
  let alg2Single := r (spec.regelsatz_single + spec.housing_single)
  let alg2Alleinerziehend := r (r (r (r (spec.regelsatz_single + spec.regelsatz_child)
    + spec.addition_child_single) + spec.housing_single) + spec.housing_addtion)
  let alg2 := calculateAlg2R r noChild married alg2Single alg2Alleinerziehend
  if elterngeldRegime then
    let newborn := decide (s.age = 0)
    let elterngeld := calculateElterngeldR r hours workingFt workingPt prox
      spec.elterngeld_replacement spec.elterngeld_min spec.elterngeld_max childBenefit
    let alg1 := calculateAlg1R r hours workingFt workingPt noChild prox
      spec.alg1_replacement_no_child spec.alg1_replacement_child childBenefit
    let lastWorking := r ((1 - ind newborn) * alg1 + ind newborn * elterngeld)
    max lastWorking alg2
  else
    let benefits := max (calculateAlg1R r hours workingFt workingPt noChild prox
      spec.alg1_replacement_no_child spec.alg1_replacement_child childBenefit) alg2
    let babyChild := decide (s.age = 0) || decide (s.age = 1)
    r (benefits + calcErziehungsgeldR r maleWage benefits married babyChild
      spec.erziehungsgeld_income_threshold_single spec.erziehungsgeld_income_threshold_married
      spec.erziehungsgeld)

/-- soepy/shared/non_employment.py:248-308 `calc_resources`, rounded; `tp` is the tax schedule in the machine. -/
def calcResourcesR (tp : TaxParams K) (spec : ModelSpec K) (hours : Fin 3 → K) (s : State)
    (logWage maleWage childBenefit : K) (splitting elterngeldRegime : Bool) : K :=
  let benefits := calculateNonEmploymentBenefitsR r lib spec hours s logWage childBenefit maleWage elterngeldRegime
  let femaleWage : K := 0
  let maleNetIncome := netIncomeR r tp spec.ssc_deductions femaleWage maleWage splitting
  r (maleNetIncome + benefits)

/-- soepy/solve/emaxs.py:26-30 and validation_solve.py:32-35: utility of not working, rounded. -/
def restUtilityR (par : ModelParams K) (ncu nonEmp : K) (cov : Covariate K) : K :=
  let consumption0 := r (nonEmp / cov.equivScale)
  r (r (lib.pow consumption0 par.mu / par.mu) * ncu)

/-- soepy/solve/emaxs.py:33-50 and validation_solve.py:38-66: utility of working choice `j` (column `col = j - 1` of the
costs), rounded.  The benefit of validation_solve.py:48-57 is added in the other regime only (`some babyChild`). -/
def workUtilityR (tp : TaxParams K) (spec : ModelSpec K) (par : ModelParams K) (hours : Fin 3 → K)
    (other : Option Bool) (logWage draw ncu : K) (cov : Covariate K) (j : Fin 3) (col : Fin 2) : K :=
  let femaleWage := r (hours j * lib.exp (r (logWage + draw)))
  let net := netIncomeR r tp spec.ssc_deductions femaleWage cov.maleWage spec.tax_splitting
  let net' := match other with
    | none => net
    | some babyChild =>
      let eg := calcErziehungsgeldR r cov.maleWage femaleWage (decide (cov.maleWage > 0)) babyChild
        spec.erziehungsgeld_income_threshold_single spec.erziehungsgeld_income_threshold_married spec.erziehungsgeld
      r (net + if cov.childBenefits > 0 ∧ j = 1 then eg else 0)
  let childCosts := spec.child_care_costs (childCareBin cov.bin) col
  let consumption := r (max (r (r (net' + cov.childBenefits) - childCosts)) (r 1e-14) / cov.equivScale)
  let consumptionUtility := r (lib.pow consumption par.mu / par.mu)
  r (consumptionUtility * ncu)

/-- soepy/solve/solve_python.py:98 (scaling of the draws) and 166-265: the utilities of today in state `s` with
covariates `cov` at stock `x` and the (unscaled) draw, rounded.  `elterngeld` is the result of the regime check. -/
def flowR (tp : TaxParams K) (spec : ModelSpec K) (par : ModelParams K) (biased elterngeld : Bool) (s : State)
    (cov : Covariate K) (x draw : K) : Fin 3 → K :=
  let pt := getPtIncrementR r par s.educ s.age biased
  let scaled := r (draw * par.shock_sd)
  let ncu := calculateNonConsumptionUtilityR r lib par s.educ s.type cov.bin
  let logWage := solverLogWageR r lib spec par pt s.period s x
  let nonEmp := calcResourcesR r lib tp spec HOURS s logWage cov.maleWage cov.childBenefits spec.tax_splitting elterngeld
  let other := if elterngeld then none else some (decide (s.age = 0) || decide (s.age = 1))
  ![restUtilityR r lib par (ncu 0) nonEmp cov,
    workUtilityR r lib tp spec par HOURS other logWage scaled (ncu 1) cov 1 0,
    workUtilityR r lib tp spec par HOURS other logWage scaled (ncu 2) cov 2 1]

end Soepy
