import Verif.Spec.Bellman

/-! The decision problem in which every level of experience is followed exactly, so that there is no experience
grid.  The solver approximates it: `Spec.continuation` looks up next period's value by interpolation on the grid,
`Spec.exactContinuation` evaluates it at next period's stock itself. -/

namespace Soepy.Spec
variable {K : Type} [Field K] [LinearOrder K] [Transc K]

/-- Expected value next period of choice `c`, when `V s' x'` is next period's value at stock `x'`. -/
def exactContinuation (e : Economy K) (V : State → K → K) (s : State) (x : K) (c : Fin 3) : K :=
  let v (birth : Bool) (q : Nat) : K := V (successor e.spec.child_age_max s c birth q) (stockNext e s x c)
  let pb := e.birth s.period s.educ
  let pq (q : Nat) := e.partner s.period s.educ s.partner q
  (1 - pb) * pq 0 * v false 0 + (1 - pb) * pq 1 * v false 1
    + pb * pq 0 * v true 0 + pb * pq 1 * v true 1

/-- Expected maximal value with `r` periods to go, at any stock of experience. -/
def exactW (e : Economy K) : Nat → State → K → K
  | 0, _, _ => 0
  | r + 1, s, x =>
    (List.zipWith (fun draw w => w *
        (let value (c : Fin 3) : K :=
          flow e s x c (draw * e.par.shock_sd) + e.par.delta * exactContinuation e (exactW e r) s x c
        max (max (value 0) (value 1)) (value 2)))
      e.draws e.weights).sum

/-- The sum `1 + δ + … + δ^(n-1)`. -/
def geometric (δ : K) (n : Nat) : K := ((List.range n).map (δ ^ ·)).sum

/-- No two neighbouring nodes of the grid are further apart than `h`. -/
def MeshAtMost (grid : List K) (h : K) : Prop :=
  ∀ i (a b : K), grid[i]? = some a → grid[i + 1]? = some b → b - a ≤ h

end Soepy.Spec
