import Verif.Model.RandomInit

/-! # Constraints on random test inputs -/

namespace Soepy.Spec

/-- A requested value, or one from `lo, ..., hi - 1`. -/
def IsChosen (given : Option Int) (lo hi x : Int) : Prop :=
  match given with
  | some y => x = y
  | none => lo ≤ x ∧ x < hi

/-- The sizes of the generated model are the requested ones, or values in the default ranges. -/
structure Chosen (c : Constr) (z : Sizes) : Prop where
  educ_years : z.educ_years = c.educ_years.getD [0, 2, 6]
  agents : IsChosen c.agents 500 1000 z.agents
  periods : IsChosen c.periods 3 8 z.periods
  seed_sim : IsChosen c.seed_sim 1000 9999 z.seed_sim
  seed_emax : IsChosen c.seed_emax 1000 9999 z.seed_emax
  num_draws_emax : IsChosen c.num_draws_emax 600 800 z.num_draws_emax
  child_age_init_max : IsChosen c.child_age_init_max 0 4 z.child_age_init_max
  init_exp_max : IsChosen c.init_exp_max 0 4 z.init_exp_max

/-- Constraints that make sense: three levels of education, at least one period and one draw, a youngest child of at most
18 years (-1: no child), no negative numbers. -/
structure Sensible (c : Constr) : Prop where
  educ_years : ∀ y, c.educ_years = some y → y.length = 3
  agents : ∀ y, c.agents = some y → 0 ≤ y
  periods : ∀ y, c.periods = some y → 1 ≤ y
  seed_sim : ∀ y, c.seed_sim = some y → 0 ≤ y
  seed_emax : ∀ y, c.seed_emax = some y → 0 ≤ y
  num_draws_emax : ∀ y, c.num_draws_emax = some y → 1 ≤ y
  child_age_init_max : ∀ y, c.child_age_init_max = some y → -1 ≤ y ∧ y ≤ 18
  init_exp_max : ∀ y, c.init_exp_max = some y → 0 ≤ y

/-- The processed specification has the sizes of the generated model. -/
structure HasSizes {K : Type} (z : Sizes) (spec : ModelSpec K) : Prop where
  educ_years : spec.educ_years = z.educ_years
  agents : (spec.num_agents_sim : Int) = z.agents
  periods : (spec.num_periods : Int) = z.periods
  seed_sim : spec.seed_sim = z.seed_sim
  seed_emax : spec.seed_emax = z.seed_emax
  num_draws_emax : (spec.num_draws_emax : Int) = z.num_draws_emax
  child_age_init_max : spec.child_age_init_max = z.child_age_init_max
  init_exp_max : (spec.init_exp_max : Int) = z.init_exp_max

end Soepy.Spec
