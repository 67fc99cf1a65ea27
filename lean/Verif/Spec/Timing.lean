import Verif.Spec.Reference

/-! # Two sets of input files that agree up to a period -/

namespace Soepy.Spec
variable {S K : Type} [Field K] [LinearOrder K] [FloorRing K] [Transc K]

/-- Two environments with the same generator and the same files on initial conditions.  The probabilities of births
agree in the periods up to `t`, those of arrivals and separations in the periods before `t`. -/
structure SameUntil (t : Nat) (spec : ModelSpec K) (env env' : Env S K) : Prop where
  rng : env'.rng = env.rng
  educ : env'.disk spec.files.educ_shares = env.disk spec.files.educ_shares
  ages : env'.disk spec.files.child_age_shares = env.disk spec.files.child_age_shares
  partners : env'.disk spec.files.partner_shares = env.disk spec.files.partner_shares
  pt : env'.disk spec.files.pt_exp_shares = env.disk spec.files.pt_exp_shares
  ft : env'.disk spec.files.ft_exp_shares = env.disk spec.files.ft_exp_shares
  births : ∀ u e, u ≤ t → e < spec.num_educ_levels → birthTable env'.disk spec u e = birthTable env.disk spec u e
  arrivals : ∀ u e, u < t → e < spec.num_educ_levels → arrivalTable env'.disk spec u e = arrivalTable env.disk spec u e
  separations : ∀ u e, u < t → e < spec.num_educ_levels →
    separationTable env'.disk spec u e = separationTable env.disk spec u e

end Soepy.Spec
