import Verif.Spec.Integral

/-! The decision problem without any numerical approximation: the expectation over the wage shock is exact and experience
is followed without a grid.  The solver replaces the expectation by a weighted sum over draws (`Spec.valueW`) and
interpolates on a grid (`Spec.exactW`); this is the problem in which it does neither. -/

namespace Soepy.Spec
variable {K : Type} [Field K] [LinearOrder K] [Transc K]

/-- Value of the best choice for one wage shock, when `V s' x'` is next period's value at stock `x'`. -/
def exactBest (e : Economy K) (V : State → K → K) (s : State) (x shock : K) : K :=
  let value (c : Fin 3) : K := flow e s x c shock + e.par.delta * exactContinuation e V s x c
  max (max (value 0) (value 1)) (value 2)

/-- Expected maximal value with `r` periods to go, at any stock of experience, where `E f` is the expectation of `f`
over the standardised shock. -/
def trueW (E : (K → K) → K) (e : Economy K) : Nat → State → K → K
  | 0, _, _ => 0
  | r + 1, s, x => E fun z => exactBest e (trueW E e r) s x (z * e.par.shock_sd)

end Soepy.Spec
