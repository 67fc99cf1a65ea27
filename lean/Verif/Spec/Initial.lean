import Verif.Spec.Output

/-! # The draws that make the initial conditions

After seeding with `seed_sim` the generator first draws the education of everybody.  Then, education level by
education level, it draws for the agents of that level the age of the youngest child, the presence of a
partner, the years of part-time and the years of full-time experience, in this order.  Last it draws the
types of everybody. -/

namespace Soepy.Spec
variable {S K : Type} [Field K] [LinearOrder K] [FloorRing K] [Transc K]

/-- The shares of one education level in a file; the first one is what the others leave over. -/
def initialShares (rows : List (Nat × K)) (e : Nat) : List K :=
  let rest := ((rows.filter fun r => r.1 = e).map Prod.snd).tail
  (1 - rest.sum) :: rest

/-- The draws for the agents of one education level. -/
structure LevelDraws (S : Type) where
  ages : List Nat
  partners : List Nat
  partTime : List Nat
  fullTime : List Nat
  after : S

/-- The draws for `n` agents of education level `e` by a generator in state `g`. -/
def levelDraws (env : Env S K) (spec : ModelSpec K) (e n : Nat) (g : S) : LevelDraws S :=
  let a := env.rng.choice g n (initialShares (env.disk spec.files.child_age_shares) e)
  let q := env.rng.binomial a.2
    (List.replicate n (((env.disk spec.files.partner_shares).map Prod.snd).getD e 0))
  let x := env.rng.choice q.2 n (initialShares (env.disk spec.files.pt_exp_shares) e)
  let y := env.rng.choice x.2 n (initialShares (env.disk spec.files.ft_exp_shares) e)
  { ages := a.1, partners := q.1, partTime := x.1, fullTime := y.1, after := y.2 }

/-- The state of the generator before the draws for education level `e`. -/
def beforeLevel (env : Env S K) (spec : ModelSpec K) : Nat → S
  | 0 => (env.rng.choice (env.rng.seed spec.seed_sim) spec.num_agents_sim
      ((env.disk spec.files.educ_shares).map Prod.snd)).2
  | e + 1 => (levelDraws env spec e ((drawnEducation env spec).count e) (beforeLevel env spec e)).after

/-- The draws for the agents of education level `e`. -/
def drawsOfLevel (env : Env S K) (spec : ModelSpec K) (e : Nat) : LevelDraws S :=
  levelDraws env spec e ((drawnEducation env spec).count e) (beforeLevel env spec e)

/-- The number of agents before agent `i` with education level `e`. -/
def rank (env : Env S K) (spec : ModelSpec K) (e i : Nat) : Nat :=
  ((drawnEducation env spec).take i).count e

/-- The types drawn for all agents. -/
def drawnTypes (env : Env S K) (par : ModelParams K) (spec : ModelSpec K) : List Nat :=
  (env.rng.choice (beforeLevel env spec spec.num_educ_levels) spec.num_agents_sim par.type_shares).1

end Soepy.Spec
