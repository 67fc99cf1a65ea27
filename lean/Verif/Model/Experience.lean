import Verif.Model.Types

/-! # soepy/shared/experience_stock.py -/

namespace Soepy
variable {K : Type} [Field K] [LinearOrder K]

/-- soepy/shared/experience_stock.py:4-37 `get_pt_increment` (for one agent or state). -/
def getPtIncrement (par : ModelParams K) (educ : Nat) (childAge : Int) (biased : Bool) : K :=
  if biased then 1
  else
    let base := jget 0 par.gamma_p educ
    let littleChild := decide (0 ≤ childAge) && decide (childAge ≤ 2)
    base + ind littleChild * par.gamma_p_mom

/-- soepy/shared/experience_stock.py:40-42 `max_exp_years`. -/
def maxExpYears (period : Nat) (initExpMax pt : K) : K :=
  initExpMax + max (period : K) ((period : K) * pt)

/-- soepy/shared/experience_stock.py:45-53 `stock_to_exp_years`. -/
def stockToExpYears (stock : K) (period : Nat) (initExpMax pt : K) : K :=
  stock * maxExpYears period initExpMax pt

/-- soepy/shared/experience_stock.py:56-67 `exp_years_to_stock`. -/
def expYearsToStock (years : K) (period : Nat) (initExpMax pt : K) : K :=
  let maxYears := maxExpYears period initExpMax pt
  let safeDenom := if maxYears > 0 then maxYears else 1
  years / safeDenom

/-- soepy/shared/experience_stock.py:70-75 `next_exp_years`. -/
def nextExpYears (years : K) (choice : Nat) (pt : K) : K :=
  let incPt := ind (choice == 1) * pt
  let incFt := ind (choice == 2) * 1
  years + incPt + incFt

/-- soepy/shared/experience_stock.py:78-105 `next_stock`. -/
def nextStock (stock : K) (period : Nat) (initExpMax pt : K) (choice : Nat) : K :=
  let years := stockToExpYears stock period initExpMax pt
  let yearsNext := nextExpYears years choice pt
  let stockNext := expYearsToStock yearsNext (period + 1) initExpMax pt
  clip stockNext 0 1

/-- soepy/shared/wages.py:6-45 `calculate_log_wage`. -/
def calculateLogWage [Transc K] (par : ModelParams K) (educ : Nat) (stock initExpMax pt : K)
    (period : Nat) : K :=
  let years := stockToExpYears stock period initExpMax pt
  let gamma0 := jget 0 par.gamma_0 educ
  let gammaExp := jget 0 par.gamma_1 educ
  let logExp := Transc.log (years + 1)
  gamma0 + gammaExp * logExp

end Soepy
