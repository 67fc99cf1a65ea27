import Verif.Model.Types

/-!
# Taxes: soepy/shared/tax_and_transfers.py (scalar reference), soepy/shared/tax_and_transfers_jax.py
(vectorised), soepy/pre_processing/tax_and_transfers_params.py (schedule)
-/

namespace Soepy
variable {K : Type} [Field K] [LinearOrder K]

/-! ## Scalar reference -/

/-- soepy/shared/tax_and_transfers.py:58-66 `calculate_ssc_deductions`. -/
def pySscDeductions (d : SscSpec K) (gross : K) : K :=
  let capped := min gross d.cap
  d.rate * capped

/-- soepy/shared/tax_and_transfers.py:33-55 `calculate_inc_tax`. -/
def pyIncTax (tp : TaxParams K) (x : K) : K :=
  if x < tp.thresholds 0 then 0
  else
    let i : Fin 4 :=
      if x ≥ tp.thresholds 0 ∧ x < tp.thresholds 1 then 0
      else if x ≥ tp.thresholds 1 ∧ x < tp.thresholds 2 then 1
      else if x ≥ tp.thresholds 2 ∧ x < tp.thresholds 3 then 2
      else 3
    let diff := x - tp.thresholds i
    let taxRate := tp.linear i * diff + tp.quad i * diff ^ 2
    taxRate + tp.base i

/-- soepy/shared/tax_and_transfers.py:1-30 `calculate_net_income`. -/
def pyNetIncome (tp : TaxParams K) (d : SscSpec K) (female male : K) (splitting : Bool) : K :=
  let femaleDed := pySscDeductions d female
  if male > 0 then
    let maleDed := pySscDeductions d male
    let taxable := male + female - maleDed - femaleDed
    let incTax :=
      if splitting then pyIncTax tp (taxable / 2) * 2
      else pyIncTax tp (female - femaleDed) + pyIncTax tp (male - maleDed)
    taxable - incTax * 1.05
  else
    let taxable := female - femaleDed
    let incTax := pyIncTax tp taxable
    taxable - incTax * 1.05

/-! ## Vectorised (JAX) version -/

/-- soepy/shared/tax_and_transfers_jax.py:119-138 `calculate_ssc_deductions`. -/
def sscDeductions (d : SscSpec K) (gross : K) : K :=
  let capped := min gross d.cap
  d.rate * capped

/-- soepy/shared/tax_and_transfers_jax.py:96-102, the inner `calc_interval_tax`. -/
def calcIntervalTax (tp : TaxParams K) (x : K) (i : Fin 4) : K :=
  let difference := x - tp.thresholds i
  let taxFromFormula := tp.linear i * difference + tp.quad i * difference ^ 2
  tp.base i + taxFromFormula

/-- soepy/shared/tax_and_transfers_jax.py:65-116 `calculate_inc_tax`: boolean masks. -/
def incTax (tp : TaxParams K) (x : K) : K :=
  let in0 := decide (x ≥ tp.thresholds 0) && decide (x < tp.thresholds 1)
  let in1 := decide (x ≥ tp.thresholds 1) && decide (x < tp.thresholds 2)
  let in2 := decide (x ≥ tp.thresholds 2) && decide (x < tp.thresholds 3)
  let in3 := decide (x ≥ tp.thresholds 3)
  let taxRate := ind in0 * calcIntervalTax tp x 0 + ind in1 * calcIntervalTax tp x 1
    + ind in2 * calcIntervalTax tp x 2 + ind in3 * calcIntervalTax tp x 3
  let above := decide (x ≥ tp.thresholds 0)
  ind above * taxRate

/-- soepy/shared/tax_and_transfers_jax.py:4-62 `calculate_net_income`: both household scenarios are
computed, then selected with a mask. -/
def netIncome (tp : TaxParams K) (d : SscSpec K) (female male : K) (splitting : Bool) : K :=
  let femaleDed := sscDeductions d female
  let maleDed := sscDeductions d male
  let taxableSpouse := male + female - maleDed - femaleDed
  let taxableSingle := female - femaleDed
  let incTaxSpouse :=
    if splitting then incTax tp (taxableSpouse / 2) * 2
    else incTax tp (female - femaleDed) + incTax tp (male - maleDed)
  let incTaxSingle := incTax tp taxableSingle
  let hasSpouse : K := ind (decide (male > 0))
  let taxable := hasSpouse * taxableSpouse + (1 - hasSpouse) * taxableSingle
  let tax := hasSpouse * incTaxSpouse + (1 - hasSpouse) * incTaxSingle
  taxable - tax * 1.05

/-! ## The 2007 schedule -/

/-- soepy/pre_processing/tax_and_transfers_params.py:4 `M_FACTOR`. -/
def M_FACTOR : K := 4.3

/-- soepy/pre_processing/tax_and_transfers_params.py:5 `Y_FACTOR`. -/
def Y_FACTOR : K := 12 * M_FACTOR

/-- soepy/pre_processing/tax_and_transfers_params.py:39-45 `create_progressionsfactor`. -/
def createProgressionsfactor (ratesLinear thresholds : Fin 4 → K) (i j : Fin 4) : K :=
  (ratesLinear j - ratesLinear i) / (thresholds j - thresholds i) / 2

/-- soepy/pre_processing/tax_and_transfers_params.py:48-57 `create_intercepts`: the loop
`for i in range(1, 4)` unrolled. -/
def createIntercepts (ratesLinear ratesQuadratic thresholds : Fin 4 → K) : Fin 4 → K :=
  let step (prev : K) (i j : Fin 4) : K :=
    prev + (thresholds j - thresholds i) * ratesLinear i
      + (thresholds j - thresholds i) ^ 2 * ratesQuadratic i
  let i0 : K := 0
  let i1 := step i0 0 1
  let i2 := step i1 1 2
  let i3 := step i2 2 3
  ![i0, i1, i2, i3]

/-- soepy/pre_processing/tax_and_transfers_params.py:23-36 `create_tax_parameters`. -/
def createTaxParameters : TaxParams K :=
  let thresholds : Fin 4 → K :=
    ![7664 / Y_FACTOR, 12739 / Y_FACTOR, 52151 / Y_FACTOR, 250000 / Y_FACTOR]
  let ratesLinear : Fin 4 → K := ![0.15, 0.2397, 0.42, 0.45]
  let ratesQuadratic : Fin 4 → K :=
    ![createProgressionsfactor ratesLinear thresholds 0 1,
      createProgressionsfactor ratesLinear thresholds 1 2, 0, 0]
  let intercepts := createIntercepts ratesLinear ratesQuadratic thresholds
  { thresholds := thresholds, base := intercepts, linear := ratesLinear, quad := ratesQuadratic }

end Soepy
