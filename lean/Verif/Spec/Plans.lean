import Verif.Spec.Reference
import Mathlib.Algebra.BigOperators.Fin
import Mathlib.Tactic.FinCases

/-!
# Contingent plans

A plan says what to do after every course of events. It may depend on the whole past and it may randomise. Its
payoff is the expected discounted sum of flow utilities, without any maximisation.
-/

namespace Soepy.Spec
variable {K : Type} [Field K] [LinearOrder K]

/-- What happened in one period: the discrete state, the experience stock and the wage shock. -/
structure Event (K : Type) where
  state : State
  stock : K
  shock : K

/-- A contingent plan: the probability of each choice after each course of events (latest event first; the
latest event is the current state, stock and shock). -/
structure Plan (K : Type) [Field K] [LinearOrder K] where
  prob : List (Event K) → Fin 3 → K
  nonneg : ∀ h c, 0 ≤ prob h c
  total : ∀ h, prob h 0 + prob h 1 + prob h 2 = 1

/-- A plan that picks one choice on the basis of the current state, stock and shock only. -/
def Plan.ofRule [IsStrictOrderedRing K] (rule : State → K → K → Fin 3) : Plan K where
  prob h c := match h with
    | [] => if c = 0 then 1 else 0
    | x :: _ => if c = rule x.state x.stock x.shock then 1 else 0
  nonneg h c := by
    cases h <;> dsimp only <;> split_ifs <;> simp
  total h := by
    cases h with
    | nil => simp
    | cons x l =>
      dsimp only
      generalize rule x.state x.stock x.shock = k
      fin_cases k <;> simp

variable [Transc K]

/-- Expected discounted utility of following the plan over the next `r` periods, after the events `h`, from state
`s` with stock `x`, before the shock of the period is known. Between the nodes of the experience grid payoffs are
interpolated linearly, as in the problem the program solves. -/
def payoff (e : Economy K) (σ : Plan K) : Nat → List (Event K) → State → K → K
  | 0, _, _, _ => 0
  | r + 1, h, s, x =>
    (List.zipWith (fun draw w =>
      let shock := draw * e.par.shock_sd
      let now := Event.mk s x shock :: h
      let value (c : Fin 3) : K := flow e s x c shock + e.par.delta * continuation e (payoff e σ r now) s x c
      w * (σ.prob now 0 * value 0 + σ.prob now 1 * value 1 + σ.prob now 2 * value 2)) e.draws e.weights).sum

/-- The decision rule read off the solution when the last period is `T - 1`. -/
def solutionRule (e : Economy K) (T : Nat) (s : State) (x shock : K) : Fin 3 :=
  firstBest fun c => flow e s x c shock + e.par.delta * continuation e (W e (T - (s.period + 1))) s x c

end Soepy.Spec
