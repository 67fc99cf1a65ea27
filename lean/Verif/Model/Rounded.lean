import Verif.Model.Rng
import Verif.Model.Interp
import Verif.Model.Tax
import Mathlib.Data.Int.Log

/-!
# Some functions of the code in rounded arithmetic

The rest of the model computes without rounding.  Here every arithmetic operation of a function is
followed by a rounding function `r`, as a machine that rounds after each operation does.  Simplified:
operations fused by a compiler (`a * b + c` rounded once), overflow and underflow are left out.
Multiplication by a truth value, comparison, `min`, `max` and `floor` are exact on a machine and are not
rounded.
-/

namespace Soepy
variable {K : Type} [Field K] [LinearOrder K]

section functions
variable (r : K → K)

/-- soepy/shared/experience_stock.py:40-42 `max_exp_years`, rounded. -/
def maxExpYearsR (period : Nat) (initExpMax pt : K) : K :=
  r (initExpMax + max (period : K) (r ((period : K) * pt)))

/-- soepy/shared/experience_stock.py:45-53 `stock_to_exp_years`, rounded. -/
def stockToExpYearsR (stock : K) (period : Nat) (initExpMax pt : K) : K :=
  r (stock * maxExpYearsR r period initExpMax pt)

/-- soepy/shared/experience_stock.py:56-67 `exp_years_to_stock`, rounded. -/
def expYearsToStockR (years : K) (period : Nat) (initExpMax pt : K) : K :=
  let maxYears := maxExpYearsR r period initExpMax pt
  let safeDenom := if maxYears > 0 then maxYears else 1
  r (years / safeDenom)

/-- soepy/shared/experience_stock.py:70-75 `next_exp_years`, rounded. -/
def nextExpYearsR (years : K) (choice : Nat) (pt : K) : K :=
  let incPt := ind (choice == 1) * pt
  let incFt := ind (choice == 2) * 1
  r (r (years + incPt) + incFt)

/-- soepy/shared/experience_stock.py:78-105 `next_stock`, rounded. -/
def nextStockR (stock : K) (period : Nat) (initExpMax pt : K) (choice : Nat) : K :=
  let years := stockToExpYearsR r stock period initExpMax pt
  let yearsNext := nextExpYearsR r years choice pt
  let stockNext := expYearsToStockR r yearsNext (period + 1) initExpMax pt
  clip stockNext 0 1

/-- soepy/simulate/simulate_auxiliary.py:325-346 `_interp_uniform_grid`, rounded: the positions and
the weight. -/
def uniformCellR [FloorRing K] (n : Int) (stock : K) : Int × Int × K :=
  let u : K := r (clip stock 0 1 * ((n - 1 : Int) : K))
  let idxLo : Int := ⌊u⌋
  let idxHi : Int := min (idxLo + 1) (n - 1)
  (idxLo, idxHi, r (u - (idxLo : K)))

/-- soepy/simulate/simulate_auxiliary.py:325-346 `_interp_uniform_grid`, rounded. -/
def interpUniformGridR [FloorRing K] (values : List K) (stock : K) : Except PyErr K := do
  let (idxLo, idxHi, w) := uniformCellR r values.length stock
  let takeLo ← npGet values idxLo
  let takeHi ← npGet values idxHi
  pure (r (takeLo + r (w * r (takeHi - takeLo))))

/-- soepy/shared/interpolation.py:13-45 `linear_interp_1d` for one query point, rounded. -/
def linearInterp1dR (grid values : List K) (x : K) : K :=
  let n : Int := grid.length
  let idxHi : Int := min (max (searchsortedRight grid x : Int) 1) (n - 1)
  let idxLo : Int := idxHi - 1
  let xLo := jget 0 grid idxLo
  let xHi := jget 0 grid idxHi
  let vLo := jget 0 values idxLo
  let vHi := jget 0 values idxHi
  let denom := r (xHi - xLo)
  let weight := if denom > 0 then r (r (x - xLo) / denom) else 0
  r (vLo + r (weight * r (vHi - vLo)))

/-- soepy/shared/tax_and_transfers_jax.py:119-138 `calculate_ssc_deductions`, rounded. -/
def sscDeductionsR (d : SscSpec K) (gross : K) : K :=
  let capped := min gross d.cap
  r (d.rate * capped)

/-- soepy/shared/tax_and_transfers_jax.py:96-102, the inner `calc_interval_tax`, rounded. -/
def calcIntervalTaxR (tp : TaxParams K) (x : K) (i : Fin 4) : K :=
  let difference := r (x - tp.thresholds i)
  let taxFromFormula := r (r (tp.linear i * difference) + r (tp.quad i * r (difference ^ 2)))
  r (tp.base i + taxFromFormula)

/-- soepy/shared/tax_and_transfers_jax.py:65-116 `calculate_inc_tax`, rounded. -/
def incTaxR (tp : TaxParams K) (x : K) : K :=
  let in0 := decide (x ≥ tp.thresholds 0) && decide (x < tp.thresholds 1)
  let in1 := decide (x ≥ tp.thresholds 1) && decide (x < tp.thresholds 2)
  let in2 := decide (x ≥ tp.thresholds 2) && decide (x < tp.thresholds 3)
  let in3 := decide (x ≥ tp.thresholds 3)
  let taxRate := r (r (r (ind in0 * calcIntervalTaxR r tp x 0 + ind in1 * calcIntervalTaxR r tp x 1)
    + ind in2 * calcIntervalTaxR r tp x 2) + ind in3 * calcIntervalTaxR r tp x 3)
  let above := decide (x ≥ tp.thresholds 0)
  ind above * taxRate

/-- soepy/shared/tax_and_transfers.py:33-55 `calculate_inc_tax` (scalar reference), rounded. -/
def pyIncTaxR (tp : TaxParams K) (x : K) : K :=
  if x < tp.thresholds 0 then 0
  else
    let i : Fin 4 :=
      if x ≥ tp.thresholds 0 ∧ x < tp.thresholds 1 then 0
      else if x ≥ tp.thresholds 1 ∧ x < tp.thresholds 2 then 1
      else if x ≥ tp.thresholds 2 ∧ x < tp.thresholds 3 then 2
      else 3
    let diff := r (x - tp.thresholds i)
    let taxRate := r (r (tp.linear i * diff) + r (tp.quad i * r (diff ^ 2)))
    r (taxRate + tp.base i)

/-- soepy/shared/tax_and_transfers_jax.py:4-62 `calculate_net_income`, rounded. -/
def netIncomeR (tp : TaxParams K) (d : SscSpec K) (female male : K) (splitting : Bool) : K :=
  let femaleDed := sscDeductionsR r d female
  let maleDed := sscDeductionsR r d male
  let taxableSpouse := r (r (r (male + female) - maleDed) - femaleDed)
  let taxableSingle := r (female - femaleDed)
  let incTaxSpouse :=
    if splitting then r (incTaxR r tp (r (taxableSpouse / 2)) * 2)
    else r (incTaxR r tp (r (female - femaleDed)) + incTaxR r tp (r (male - maleDed)))
  let incTaxSingle := incTaxR r tp taxableSingle
  let hasSpouse : K := ind (decide (male > 0))
  let taxable := r (hasSpouse * taxableSpouse + (1 - hasSpouse) * taxableSingle)
  let tax := r (hasSpouse * incTaxSpouse + (1 - hasSpouse) * incTaxSingle)
  r (taxable - r (tax * r 1.05))

/-- soepy/pre_processing/tax_and_transfers_params.py:5 `Y_FACTOR`, rounded. -/
def yFactorR : K := r (12 * r 4.3)

/-- soepy/pre_processing/tax_and_transfers_params.py:39-45 `create_progressionsfactor`, rounded. -/
def createProgressionsfactorR (ratesLinear thresholds : Fin 4 → K) (i j : Fin 4) : K :=
  r (r (r (ratesLinear j - ratesLinear i) / r (thresholds j - thresholds i)) / 2)

/-- soepy/pre_processing/tax_and_transfers_params.py:48-57 `create_intercepts`, rounded: the loop
`for i in range(1, 4)` unrolled. -/
def createInterceptsR (ratesLinear ratesQuadratic thresholds : Fin 4 → K) : Fin 4 → K :=
  let step (prev : K) (i j : Fin 4) : K :=
    r (r (prev + r (r (thresholds j - thresholds i) * ratesLinear i))
      + r (r (r (thresholds j - thresholds i) ^ 2) * ratesQuadratic i))
  let i0 : K := 0
  let i1 := step i0 0 1
  let i2 := step i1 1 2
  let i3 := step i2 2 3
  ![i0, i1, i2, i3]

/-- soepy/pre_processing/tax_and_transfers_params.py:23-36 `create_tax_parameters`, rounded; the literals
are rounded when they are read. -/
def createTaxParametersR : TaxParams K :=
  let thresholds : Fin 4 → K :=
    ![r (7664 / yFactorR r), r (12739 / yFactorR r), r (52151 / yFactorR r), r (250000 / yFactorR r)]
  let ratesLinear : Fin 4 → K := ![r 0.15, r 0.2397, r 0.42, r 0.45]
  let ratesQuadratic : Fin 4 → K :=
    ![createProgressionsfactorR r ratesLinear thresholds 0 1,
      createProgressionsfactorR r ratesLinear thresholds 1 2, 0, 0]
  let intercepts := createInterceptsR r ratesLinear ratesQuadratic thresholds
  { thresholds := thresholds, base := intercepts, linear := ratesLinear, quad := ratesQuadratic }

/-- A table converted to another format, as JAX does with the NumPy array of the schedule when 64 bit numbers are not
enabled (soepy/solve/solve_python.py:104-114). -/
def convertTax (tp : TaxParams K) : TaxParams K :=
  { thresholds := fun i => r (tp.thresholds i), base := fun i => r (tp.base i),
    linear := fun i => r (tp.linear i), quad := fun i => r (tp.quad i) }

/-- Python's `sum(xs)` before version 3.12, rounded after every addition. -/
def plainSumR (xs : List K) : K := xs.foldl (fun s x => r (s + x)) 0

/-- One step of Python's `sum` from version 3.12 on, which carries a correction along (`s.2`). -/
def pySumStepR (s : K × K) (x : K) : K × K :=
  let t := r (s.1 + x)
  let e := if |s.1| ≥ |x| then r (r (s.1 - t) + x) else r (r (x - t) + s.1)
  (t, r (s.2 + e))

/-- Python's `sum(xs)` for a list of floats, from version 3.12 on (environment.yml:10 pins 3.13), rounded. -/
def pySumR (xs : List K) : K :=
  let s := xs.foldl (pySumStepR r) (0, 0)
  if s.2 = 0 then s.1 else r (s.1 + s.2)

/-- soepy/pre_processing/model_processing.py:60 `type_shares`, rounded; also
soepy/exogenous_processes/children.py:53 and experience.py:33, where the first entry of a list is replaced by one
minus the sum of the others. -/
def withBaselineR (shares : List K) : List K := r (1 - pySumR r shares) :: shares

/-- `withBaselineR` with the summation of older versions of Python. -/
def withBaselinePlainR (shares : List K) : List K := r (1 - plainSumR r shares) :: shares

end functions

/-! ## Binary formats -/

/-- The nearest integer; halfway cases go to the even one. -/
def roundEven [FloorRing K] (x : K) : Int :=
  let f := ⌊x⌋
  if 2 * (x - f) < 1 then f
  else if 1 < 2 * (x - f) then f + 1
  else if f % 2 = 0 then f else f + 1

/-- Rounding to the nearest number with `p` binary digits, halfway cases to even: `p = 53` is the
arithmetic of Python and NumPy (binary64), `p = 24` that of JAX by default (binary32).  Simplified: the range of
exponents is unbounded. -/
def binary [FloorRing K] [IsStrictOrderedRing K] (p : Nat) (x : K) : K :=
  if x = 0 then 0
  else
    let ulp := (2 : K) ^ (Int.log 2 |x| - ((p : Int) - 1))
    (roundEven (x / ulp) : K) * ulp

end Soepy
