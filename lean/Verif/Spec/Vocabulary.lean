import Verif.Model.Api

/-! # Conditions on inputs that occur in the statements of properties -/

namespace Soepy

section memory
variable {K : Type}

/-- A value contains no address outside the memory of size `n`. -/
def Val.Ok (n : Nat) : Val K → Prop
  | .ref a => a < n
  | _ => True

/-- An object contains no address outside the memory of size `n`. -/
def Obj.Ok (n : Nat) : Obj K → Prop
  | .dict d => ∀ kv ∈ d, kv.2.Ok n
  | .list l => ∀ v ∈ l, v.Ok n

/-- No dangling references. -/
def Closed (st : Store K) : Prop := ∀ o ∈ st, o.Ok st.length

end memory

variable {K : Type} [Field K] [LinearOrder K]

/-- Thresholds in nondecreasing order. -/
def SortedThresholds (tp : TaxParams K) : Prop :=
  tp.thresholds 0 ≤ tp.thresholds 1 ∧ tp.thresholds 1 ≤ tp.thresholds 2 ∧
    tp.thresholds 2 ≤ tp.thresholds 3

/-- The parameter vectors cover all education levels and types. -/
structure ParamsFit (spec : ModelSpec K) (par : ModelParams K) : Prop where
  g0 : spec.num_educ_levels ≤ par.gamma_0.length
  g1 : spec.num_educ_levels ≤ par.gamma_1.length
  gp : spec.num_educ_levels ≤ par.gamma_p.length
  nf : spec.num_educ_levels ≤ par.no_kids_f.length
  np : spec.num_educ_levels ≤ par.no_kids_p.length
  yf : spec.num_educ_levels ≤ par.yes_kids_f.length
  yp : spec.num_educ_levels ≤ par.yes_kids_p.length
  tp : spec.num_types ≤ par.theta_p.length
  tf : spec.num_types ≤ par.theta_f.length

/-- Grids and tables are as required. -/
structure SolveOk (spec : ModelSpec K) (par : ModelParams K) (probChild : List (List K))
    (probPartner : List (List (Fin 2 → Fin 2 → K))) : Prop where
  grid : spec.exp_grid.Pairwise (· < ·)
  nodes : 2 ≤ spec.exp_grid.length
  ages : 0 ≤ spec.child_age_max
  tax : SortedThresholds spec.tax_params
  par : ParamsFit spec par
  childLen : probChild.length = spec.num_periods
  partnerLen : probPartner.length = spec.num_periods
  childRow : ∀ row ∈ probChild, spec.num_educ_levels ≤ row.length
  partnerRow : ∀ row ∈ probPartner, spec.num_educ_levels ≤ row.length
  periods : 0 < spec.num_periods
  educs : 0 < spec.num_educ_levels
  types : 0 < spec.num_types

/-- What a specification and parameters must satisfy (besides being readable): a strictly increasing
experience grid with two points or more, an age 0 of children, initial ages in the state space, at
most the three education levels that the code knows, parameters for every type, sorted tax brackets
(true for the 2007 schedule) and no child care costs without a small child (true after reading). -/
structure Usable (spec : ModelSpec K) (par : ModelParams K) : Prop where
  grid : spec.exp_grid.Pairwise (· < ·)
  nodes : 2 ≤ spec.exp_grid.length
  ages : 0 ≤ spec.child_age_max
  init : spec.child_age_init_max ≤ spec.child_age_max
  educ : spec.num_educ_levels ≤ 3
  tp : spec.num_types ≤ par.theta_p.length
  tf : spec.num_types ≤ par.theta_f.length
  tax : SortedThresholds spec.tax_params
  care : ∀ j, spec.child_care_costs 0 j = 0

/-- The tax rules of 2007 with ordinary contributions. -/
structure Rules2007 (spec : ModelSpec K) : Prop where
  tax : spec.tax_params = createTaxParameters
  rate0 : 0 ≤ spec.ssc_deductions.rate
  rate1 : spec.ssc_deductions.rate < 1
  cap : 0 ≤ spec.ssc_deductions.cap

/-- The discrete state of an agent. -/
def Agent.state (a : Agent K) : State :=
  { period := a.period, educ := a.educ, lagged := a.lagged, type := a.type, age := a.age,
    partner := a.partner }

variable [Transc K]

/-- The exponential function is positive and increasing, the logarithm is increasing, and so is utility of
consumption. -/
structure Increasing (mu : K) : Prop where
  pos : ∀ y : K, 0 < Transc.exp y
  exp : ∀ {y z : K}, y ≤ z → Transc.exp y ≤ Transc.exp z
  log : ∀ {y z : K}, 0 < y → y ≤ z → Transc.log y ≤ Transc.log z
  utility : ∀ {b c : K}, 0 < b → b ≤ c → Transc.pow b mu / mu ≤ Transc.pow c mu / mu

/-- The exponential function is positive, and away from the points where the real functions are steep the slopes of
the exponential function, of the logarithm and of the power `mu` are bounded. -/
structure Tame (mu : K) : Prop where
  pos : ∀ y : K, 0 < Transc.exp y
  exp : ∀ B : K, ∃ M, 0 ≤ M ∧ ∀ a b : K, a ≤ B → b ≤ B → |Transc.exp a - Transc.exp b| ≤ M * |a - b|
  log : ∃ M, 0 ≤ M ∧ ∀ a b : K, 1 ≤ a → 1 ≤ b → |Transc.log a - Transc.log b| ≤ M * |a - b|
  pow : ∀ m B : K, 0 < m → ∃ M, 0 ≤ M ∧ ∀ a b : K, m ≤ a → a ≤ B → m ≤ b → b ≤ B →
    |Transc.pow a mu - Transc.pow b mu| ≤ M * |a - b|

end Soepy
