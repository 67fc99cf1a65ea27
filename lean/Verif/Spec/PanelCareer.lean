import Verif.Spec.Career
import Verif.Spec.Panel

/-! # Careers in the panel -/

namespace Soepy.Spec
variable {S K : Type} [Field K] [LinearOrder K] [FloorRing K] [Transc K]

/-- The agent as recorded in a row. -/
def agentOf (r : OutRow K) : Agent K :=
  { id := r.id.toNat, period := r.period.toNat, educ := r.educ.toNat, lagged := r.lagged.toNat, expPT := r.expPT.toNat,
    expFT := r.expFT.toNat, stock := r.stock, type := r.type.toNat, age := r.age, partner := r.partner.toNat }

/-- What chance decides in consecutive rows of an agent: the wage shock, and the child's age and the partner of the next
row (for the last row, any). -/
def eventsOf (env : Env S K) (par : ModelParams K) (spec : ModelSpec K) : List (OutRow K) → List (K × ℤ × ℕ)
  | [] => []
  | [r] => [(shock env par spec r, r.age, r.partner.toNat)]
  | r :: r' :: l => (shock env par spec r, r'.age, r'.partner.toNat) :: eventsOf env par spec (r' :: l)

/-- Some rows of the panel, all of one agent, in consecutive periods. -/
structure Career (rows l : List (OutRow K)) : Prop where
  mem : ∀ r ∈ l, r ∈ rows
  next : l.IsChain Next

/-- The recorded choice is the only best one, by the recorded values. -/
def OnlyBest (r : OutRow K) : Prop :=
  ∀ d, r.detail = some d → ∀ c : Fin 3, (c : ℤ) ≠ r.choice → ∀ j : Fin 3, (j : ℤ) = r.choice → d.value c < d.value j

end Soepy.Spec
