import Verif.Spec.Exact

/-! The decision problem in which the expectation over the wage shock is any given functional of the integrand, for
instance the integral with respect to the normal distribution.  The solver replaces it by a weighted sum over finitely
many draws. -/

namespace Soepy.Spec
variable {K : Type} [Field K] [LinearOrder K] [Transc K]

/-- Expected maximal value with `r` periods to go, where `E f` is the expectation of `f` over the standardised
shock. -/
def valueW (E : (K → K) → K) (e : Economy K) : Nat → State → K → K
  | 0, _, _ => 0
  | r + 1, s, x => E fun z => best e (valueW E e r) s x (z * e.par.shock_sd)

end Soepy.Spec
