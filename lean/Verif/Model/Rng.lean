import Verif.Model.Types

/-!
# NumPy's global random number generator, and soepy/shared/numerical_integration.py

The generator is an arbitrary state machine: `S` is the type of generator states, and every drawing
function returns its values and the next state.  Nothing is assumed about the numbers produced.
-/

namespace Soepy

/-- NumPy's global generator as an abstract state machine (`np.random.seed`, `np.random.choice`
with probabilities (positions in the list of options), `np.random.binomial` with `n=1`,
`np.random.normal(0, 1, (rows, cols))`). -/
structure Rng (S K : Type) where
  seed : Int → S
  choice : S → (size : Nat) → (p : List K) → List Nat × S
  binomial : S → (p : List K) → List Nat × S
  normal : S → (rows cols : Nat) → List (List K) × S

variable {S K : Type} [Field K] [LinearOrder K]

/-- The probability vectors `np.random.choice` accepts. -/
def ValidProbs (p : List K) : Prop := (∀ x ∈ p, 0 ≤ x) ∧ |p.sum - 1| ≤ 1 / 2 ^ 26

/-- What NumPy documents about the values returned for the arguments it accepts: sizes and ranges, and
that events of probability zero (one) never (always) happen. Used as an explicit hypothesis where
needed. -/
structure RngLaws (rng : Rng S K) : Prop where
  choice_length : ∀ g n p, ValidProbs p → (rng.choice g n p).1.length = n
  choice_pos : ∀ g n p, ValidProbs p → ∀ x ∈ (rng.choice g n p).1, ∃ y, p[x]? = some y ∧ 0 < y
  binomial_length : ∀ g p, (∀ x ∈ p, 0 ≤ x ∧ x ≤ 1) → (rng.binomial g p).1.length = p.length
  binomial_le : ∀ g p, (∀ x ∈ p, 0 ≤ x ∧ x ≤ 1) → ∀ x ∈ (rng.binomial g p).1, x = 0 ∨ x = 1
  binomial_zero : ∀ g p, (∀ x ∈ p, 0 ≤ x ∧ x ≤ 1) → ∀ i : Nat, p[i]? = some 0 →
    (rng.binomial g p).1[i]? = some 0
  binomial_one : ∀ g p, (∀ x ∈ p, 0 ≤ x ∧ x ≤ 1) → ∀ i : Nat, p[i]? = some 1 →
    (rng.binomial g p).1[i]? = some 1
  normal_length : ∀ g r c, (rng.normal g r c).1.length = r
  normal_cols : ∀ g r c, ∀ row ∈ (rng.normal g r c).1, row.length = c

/-- `np.random.choice(options, size, p=p)` with `nOptions` options: NumPy's validation of `p`
(length, negativity, sum up to `sqrt(eps) = 2^-26`), then a draw of positions. -/
def npChoice (rng : Rng S K) (g : S) (nOptions size : Nat) (p : List K) :
    Except PyErr (List Nat × S) :=
  if nOptions = 0 ∧ size ≠ 0 then .error (.valueError "'a' cannot be empty unless no samples are taken")
  else if p.length ≠ nOptions then .error (.valueError "'a' and 'p' must have same size")
  else if p.any (fun x => decide (x < 0)) then .error (.valueError "probabilities are not non-negative")
  else if |p.sum - 1| > 1 / 2 ^ 26 then .error (.valueError "probabilities do not sum to 1")
  else .ok (rng.choice g size p)

/-- `np.random.binomial(size=len(p), n=1, p=p)`: NumPy's validation of `p`, then the draw. -/
def npBinomial (rng : Rng S K) (g : S) (p : List K) : Except PyErr (List Nat × S) :=
  if p.any (fun x => decide (x < 0) || decide (1 < x)) then .error (.valueError "p < 0, p > 1 or p is NaN")
  else .ok (rng.binomial g p)

/-- `np.random.binomial(size=size, n=1, p=p)` with one probability for all draws (validated even if
`size` is 0). -/
def npBinomialScalar (rng : Rng S K) (g : S) (size : Nat) (p : K) : Except PyErr (List Nat × S) :=
  if p < 0 ∨ 1 < p then .error (.valueError "p < 0, p > 1 or p is NaN")
  else .ok (rng.binomial g (List.replicate size p))

/-- soepy/shared/numerical_integration.py:27-39 `draw_zero_one_distributed_shocks`: reseeds the
global generator. -/
def drawZeroOneShocks (rng : Rng S K) (seed : Int) (numPeriods numDraws : Nat) :
    List (List K) × S :=
  rng.normal (rng.seed seed) numPeriods numDraws

/-- soepy/shared/numerical_integration.py:5-24 `get_integration_draws_and_weights`.  `hermite n` is
`scipy.special.roots_hermite(n)` (nodes, weights), a parameter of the model. -/
def getIntegrationDrawsAndWeights [Transc K] (rng : Rng S K) (hermite : Nat → List K × List K)
    (spec : ModelSpec K) (g : S) : Except PyErr ((List K × List K) × S) :=
  if spec.integration_method = "quadrature" then
    let (standardDraws, weights) := hermite spec.num_draws_emax
    .ok ((standardDraws.map (· * Transc.sqrt 2), weights.map (· * (1 / Transc.sqrt Transc.pi))), g)
  else if spec.integration_method = "monte_carlo" then
    let (draws, g') := drawZeroOneShocks rng spec.seed_emax 1 spec.num_draws_emax
    .ok ((jget [] draws 0,
      List.replicate spec.num_draws_emax (1 / (spec.num_draws_emax : K))), g')
  else .error (.valueError "Integration method not specified.")

end Soepy
