import Verif.Spec.Output
import Verif.Spec.Simulated

/-! # Rows of the simulated data frame -/

namespace Soepy.Spec
section rows
variable {K : Type}

/-- The row describes an agent in discrete state `s`. -/
structure RowIs (r : OutRow K) (s : State) : Prop where
  period : r.period = s.period
  educ : r.educ = s.educ
  lagged : r.lagged = s.lagged
  type : r.type = s.type
  age : r.age = s.age
  partner : r.partner = s.partner

/-- The discrete state shown in a row. -/
def stateOf (r : OutRow K) : State :=
  { period := r.period.toNat, educ := r.educ.toNat, lagged := r.lagged.toNat, type := r.type.toNat,
    age := r.age, partner := r.partner.toNat }

/-- `r'` is the row of the same agent one period later. -/
def Next (r r' : OutRow K) : Prop := r'.id = r.id ∧ r'.period = r.period + 1

/-- `r` is the first row of an agent: the period is the number of years of schooling. -/
def Entry (spec : ModelSpec K) (r : OutRow K) : Prop :=
  spec.educ_years[r.educ.toNat]? = some r.period.toNat

end rows

section years
variable {K : Type} [Field K] [LinearOrder K]

/-- Years of experience that the stock of a row stands for: the stock is a share of the years somebody can
have worked by that period. -/
def yearsOf (spec : ModelSpec K) (par : ModelParams K) (r : OutRow K) : K :=
  r.stock * mostYears (spec.init_exp_max : K) (ptIncrement par false (stateOf r)) r.period.toNat

/-- Years of experience of an entrant: part-time years count by the increment, full-time years fully. -/
def drawnYears (par : ModelParams K) (r : OutRow K) : K :=
  r.expPT * ptIncrement par false (stateOf r) + r.expFT

variable {S : Type} [FloorRing K] [Transc K]

/-- The period in which agent `i` enters: the years of schooling at the education level drawn. -/
def entryYear (env : Env S K) (spec : ModelSpec K) (i : Nat) : Option Nat :=
  (drawnEducation env spec)[i]?.bind fun e => spec.educ_years[e]?

/-- Agents in the order of entry, those who enter in the same period by number. -/
def entryOrder (env : Env S K) (spec : ModelSpec K) : List Nat :=
  (List.range (spec.num_periods + 1)).flatMap fun t =>
    (List.range spec.num_agents_sim).filter fun i => decide (entryYear env spec i = some t)

/-- The column of the table of draws that belongs to agent `i`: the place in the order of entry. -/
def column (env : Env S K) (spec : ModelSpec K) (i : Int) : Nat := (entryOrder env spec).idxOf i.toNat

/-- The standardised wage shock of the row: the draw for its period in the column of its agent. -/
def standardShock (env : Env S K) (spec : ModelSpec K) (r : OutRow K) : K :=
  ((normalDraws env spec).getD r.period.toNat []).getD (column env spec r.id) 0

/-- The wage shock of the row. -/
def shock (env : Env S K) (par : ModelParams K) (spec : ModelSpec K) (r : OutRow K) : K :=
  standardShock env spec r * par.shock_sd

/-- The columns of the agents in the data: nobody shares, and the columns exist. -/
structure Columns (env : Env S K) (spec : ModelSpec K) (rows : List (OutRow K)) : Prop where
  inj : ∀ r ∈ rows, ∀ r' ∈ rows, column env spec r.id = column env spec r'.id → r.id = r'.id
  bound : ∀ r ∈ rows, column env spec r.id < spec.num_agents_sim

end years
end Soepy.Spec
