import Verif.Spec.Panel
import Verif.Spec.StateSpace

/-! # Births, partners and the order in which they are drawn

The tables in the input files, and one period of the demographic process of a population (a list of persons
in a fixed order), written from the description of the process: births first, then arrivals of partners for
all singles, then separations of all couples. -/

namespace Soepy.Spec

/-- Demographic state of a person. -/
structure Person where
  educ : Nat
  age : Int
  partner : Nat
  deriving DecidableEq

section rows
variable {K : Type}

/-- Demographic state shown in a row. -/
def personOf (r : OutRow K) : Person := { educ := r.educ.toNat, age := r.age, partner := r.partner.toNat }

/-- The persons in the data of period `t`, in the order of the rows. -/
def personsAt (rows : List (OutRow K)) (t : Nat) : List Person :=
  (rows.filter fun r => decide (r.period = (t : Int))).map personOf

end rows

section tables
variable {K : Type} [Field K] [LinearOrder K]

/-- Entry for period `t` and education `e` of a file with `E` values per period, of which the periods before
`T` are used. -/
def tableEntry (rows : List (Nat × K)) (T E t e : Nat) : K :=
  ((rows.filter fun r => decide (r.1 < T)).map Prod.snd).getD (t * E + e) 0

/-- Probability of a birth in the files: none after the last child bearing period. -/
def birthTable (disk : String → List (Nat × K)) (spec : ModelSpec K) (t e : Nat) : K :=
  if (t : Int) ≤ spec.last_child_bearing_period then
    tableEntry (disk spec.files.child_info) spec.num_periods 3 t e else 0

def arrivalTable (disk : String → List (Nat × K)) (spec : ModelSpec K) (t e : Nat) : K :=
  tableEntry (disk spec.files.partner_arrival) spec.num_periods spec.num_educ_levels t e

def separationTable (disk : String → List (Nat × K)) (spec : ModelSpec K) (t e : Nat) : K :=
  tableEntry (disk spec.files.partner_separation) spec.num_periods spec.num_educ_levels t e

end tables

section process
variable {S K : Type} [Field K] [LinearOrder K] [FloorRing K] [Transc K]

/-- Births between periods `t` and `t + 1` (1 is a birth), as the simulator draws them. -/
def births (env : Env S K) (spec : ModelSpec K) (t : Nat) (pop : List Person) (g : S) : List Nat × S :=
  if (t : Int) ≤ spec.last_child_bearing_period then
    env.rng.binomial g (pop.map fun p => birthTable env.disk spec (t + 1) p.educ)
  else (pop.map fun _ => 0, g)

/-- Ages of the youngest child next period. -/
def agesNext (spec : ModelSpec K) (pop : List Person) (born : List Nat) : List Int :=
  List.zipWith (fun p d => if d = 0 then older spec.child_age_max p.age else 0) pop born

/-- Arrivals of partners, for the singles in order. -/
def arrivals (env : Env S K) (spec : ModelSpec K) (t : Nat) (pop : List Person) (g : S) : List Nat × S :=
  let singles := pop.filter fun p => decide (p.partner = 0)
  if singles = [] then ([], g)
  else env.rng.binomial g (singles.map fun p => arrivalTable env.disk spec t p.educ)

/-- Separations, for the couples in order. -/
def separations (env : Env S K) (spec : ModelSpec K) (t : Nat) (pop : List Person) (g : S) : List Nat × S :=
  let couples := pop.filter fun p => decide (p.partner = 1)
  if couples = [] then ([], g)
  else env.rng.binomial g (couples.map fun p => separationTable env.disk spec t p.educ)

/-- Partner status next period: singles take the next arrival, couples the next separation. -/
def partnersNext : List Person → List Nat → List Nat → List Nat
  | [], _, _ => []
  | p :: ps, as, ss =>
    if p.partner = 0 then as.headD 0 :: partnersNext ps as.tail ss
    else (1 - ss.headD 0) :: partnersNext ps as ss.tail

end process
end Soepy.Spec
