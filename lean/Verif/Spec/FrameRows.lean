import Verif.Model.Processing

/-! # The rows that a parameter frame must have -/

namespace Soepy.Spec
variable {K : Type}

/-- The rows that are read by name after `sd_wage_shock`, in the order in which they are read: category and name. -/
def requiredRows : List (String × String) :=
  [("const_wage_eq", "gamma_0_low"), ("const_wage_eq", "gamma_0_middle"), ("const_wage_eq", "gamma_0_high"),
   ("exp_return", "gamma_1_low"), ("exp_return", "gamma_1_middle"), ("exp_return", "gamma_1_high"),
   ("exp_increase_p", "gamma_p_low"), ("exp_increase_p", "gamma_p_middle"), ("exp_increase_p", "gamma_p_high"),
   ("exp_increase_p_mom", "gamma_p_mom"),
   ("disutil_work", "no_kids_f_educ_low"), ("disutil_work", "no_kids_f_educ_middle"),
   ("disutil_work", "no_kids_f_educ_high"),
   ("disutil_work", "no_kids_p_educ_low"), ("disutil_work", "no_kids_p_educ_middle"),
   ("disutil_work", "no_kids_p_educ_high"),
   ("disutil_work", "yes_kids_f_educ_low"), ("disutil_work", "yes_kids_f_educ_middle"),
   ("disutil_work", "yes_kids_f_educ_high"),
   ("disutil_work", "yes_kids_p_educ_low"), ("disutil_work", "yes_kids_p_educ_middle"),
   ("disutil_work", "yes_kids_p_educ_high"),
   ("discount", "delta"), ("risk", "mu")]

/-- The rows of category `disutil_work` on the age of the youngest child. -/
def childRows : List String :=
  ["child_0_2_f", "child_0_2_p", "child_3_5_f", "child_3_5_p", "child_6_10_f", "child_6_10_p"]

/-- The category, if the frame has no row of it. -/
def missingCategory (frame : List (String × String × K)) (c : String) : Option String :=
  if ∀ r ∈ frame, r.1 ≠ c then some c else none

/-- The name, if the category has no row of that name. -/
def missingName (frame : List (String × String × K)) (c n : String) : Option String :=
  if ∀ r ∈ frame, ¬ (r.1 = c ∧ r.2.1 = n) then some n else none

/-- What is missing of row `n` of category `c`. -/
def missing (frame : List (String × String × K)) (c n : String) : Option String :=
  (missingCategory frame c).or (missingName frame c n)

/-- The first thing that is missing: the shock, then (if there are shares of types) the parameters of the types,
then the rows of `requiredRows`. -/
def firstMissing (frame : List (String × String × K)) : Option String :=
  (missing frame "sd_wage_shock" "sigma").or
    ((if ∀ r ∈ frame, r.1 ≠ "shares" then none else missingCategory frame "hetrg_unobs").or
      (requiredRows.findSome? fun r => missing frame r.1 r.2))

end Soepy.Spec
