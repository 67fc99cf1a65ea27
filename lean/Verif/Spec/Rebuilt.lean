import Verif.Spec.SpecDict

/-! # The dictionary that is rebuilt from a specification -/

namespace Soepy.Spec

/-- The keys of a group that survive when a dictionary is rebuilt from the attributes of a specification. -/
def kept : String → List String
  | "GENERAL" => ["num_periods"]
  | "EDUC" => ["educ_years"]
  | "SIMULATION" => ["seed_sim", "num_agents_sim"]
  | "SOLUTION" => ["seed_emax", "num_draws_emax"]
  | "TAXES_TRANSFERS" => ["alg1_replacement_no_child", "alg1_replacement_child", "child_benefits", "regelsatz_single",
      "regelsatz_partner", "regelsatz_child", "elterngeld_replacement", "elterngeld_min", "elterngeld_max",
      "addition_child_single", "housing_single", "housing_addtion", "ssc_rate", "ssc_cap", "tax_year"]
  | "INITIAL_CONDITIONS" => ["child_age_init_max", "init_exp_max"]
  | "EXOG_PROC" => ["child_age_max", "last_child_bearing_period"]
  | _ => []

end Soepy.Spec
