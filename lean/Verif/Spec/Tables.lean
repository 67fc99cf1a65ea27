import Verif.Model.Effects

/-! # What the eight tables must look like, in the order in which they are read -/

namespace Soepy.Spec
variable {K : Type} [Field K] [LinearOrder K]

/-- `e` belongs to the first requirement that is not met. -/
def FirstFault : List (Prop × PyErr) → PyErr → Prop
  | [], _ => False
  | (met, e') :: rest, e => (¬ met ∧ e = e') ∨ (met ∧ FirstFault rest e)

/-- There is a table with this name. -/
def There (d : Disk K) (name : String) : Prop := ∃ rows, d.shares name = some rows

/-- The table with this name has this property, if it is there. -/
def Holds (d : Disk K) (name : String) (P : List (Nat × K) → Prop) : Prop := ∀ rows, d.shares name = some rows → P rows

/-- Every level below `n` has a row. -/
def EveryLevel (n : Nat) (rows : List (Nat × K)) : Prop := ∀ i < n, ∃ r ∈ rows, r.1 = i

/-- The rows of the levels below `n` fill `n` times `m` cells. -/
def Fills (n m : Nat) (rows : List (Nat × K)) : Prop := (rows.filter fun r => decide (r.1 < n)).length = n * m

/-- The requirements on the tables named by a specification, in the order in which `get_simulate_func` looks at them, and
what it raises otherwise. -/
def requirements (d : Disk K) (spec : ModelSpec K) : List (Prop × PyErr) :=
  let f := spec.files
  let missing := fun name => (There d name, PyErr.fileNotFound name)
  let levels := fun name => (Holds d name (EveryLevel spec.num_educ_levels), PyErr.indexError)
  let periods := fun name => (Holds d name (EveryLevel spec.num_periods), PyErr.keyError "period")
  let cells := fun name m => (Holds d name (Fills spec.num_periods m), PyErr.valueError "cannot reshape array")
  [missing f.educ_shares,
    missing f.child_age_shares, levels f.child_age_shares,
    missing f.partner_shares,
    missing f.pt_exp_shares, levels f.pt_exp_shares,
    missing f.ft_exp_shares, levels f.ft_exp_shares,
    missing f.child_info, cells f.child_info 3,
    missing f.partner_separation, periods f.partner_separation,
    missing f.partner_arrival, periods f.partner_arrival,
    cells f.partner_arrival spec.num_educ_levels, cells f.partner_separation spec.num_educ_levels]

end Soepy.Spec
