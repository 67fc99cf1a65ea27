import Verif.Model.Types

/-! # soepy/shared/non_consumption_utility.py -/

namespace Soepy
variable {K : Type} [Field K] [LinearOrder K] [Transc K]

/-- soepy/shared/non_consumption_utility.py:4-76 `calculate_non_consumption_utility` for one state:
multipliers for non-employment, part-time and full-time. -/
def calculateNonConsumptionUtility (par : ModelParams K) (educ type bin : Nat) : Fin 3 → K :=
  let b0 : K := ind (decide (bin = 0))
  let b1 : K := ind (decide (bin = 1))
  let b2 : K := ind (decide (bin = 2))
  let b3 : K := ind (decide (bin = 3))
  let b4 : K := ind (decide (bin > 3))
  let noF := jget 0 par.no_kids_f educ
  let noP := jget 0 par.no_kids_p educ
  let yesF := jget 0 par.yes_kids_f educ
  let yesP := jget 0 par.yes_kids_p educ
  let utilPt := jget 0 par.theta_p type +
    (b0 * (noF + noP)
      + b1 * (yesF + yesP + par.child_0_2_f + par.child_0_2_p)
      + b2 * (yesF + yesP + par.child_3_5_f + par.child_3_5_p)
      + b3 * (yesF + yesP + par.child_6_10_f + par.child_6_10_p)
      + b4 * (yesF + yesP))
  let utilFt := jget 0 par.theta_f type +
    (b0 * noF
      + b1 * (yesF + par.child_0_2_f)
      + b2 * (yesF + par.child_3_5_f)
      + b3 * (yesF + par.child_6_10_f)
      + b4 * yesF)
  ![Transc.exp 0, Transc.exp utilPt, Transc.exp utilFt]

end Soepy
