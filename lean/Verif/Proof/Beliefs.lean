import Verif.Proof.Api
import Verif.Proof.Usable

/-! Biased expectations without effect. -/

set_option linter.unusedSectionVars false

namespace Soepy
variable {S K : Type} [Field K] [LinearOrder K] [IsStrictOrderedRing K] [FloorRing K] [Transc K]

/-- Part-time work counts fully for everybody. -/
structure FullCount (par : ModelParams K) : Prop where
  some : par.gamma_p ≠ []
  one : ∀ x ∈ par.gamma_p, x = 1
  mom : par.gamma_p_mom = 0

theorem FullCount.increment {par : ModelParams K} (h : FullCount par) (educ : Nat) (age : Int) (b : Bool) :
    getPtIncrement par educ age b = 1 := by
  unfold getPtIncrement
  cases b with
  | true => rfl
  | false =>
    have : jget 0 par.gamma_p (educ : Int) = 1 := h.one _ (jget_mem 0 h.some _)
    simp [this, h.mom]

theorem FullCount.solveFunction {par : ModelParams K} (h : FullCount par) (spec : ModelSpec K)
    (states : List State) (covs : List (Covariate K)) (child : List ChildIdx) (pc : List (List K))
    (pp : List (List (Fin 2 → Fin 2 → K))) (b b' : Bool) (draws weights : List K) :
    Soepy.solveFunction spec states covs child pc pp b draws weights par
      = Soepy.solveFunction spec states covs child pc pp b' draws weights par := by
  have h1 : ∀ (d w : List K) (elt : Bool),
      scanStep spec par d w b elt = scanStep spec par d w b' elt := by
    intro d w elt
    funext next pd
    unfold scanStep solveState solverNonEmployment solverLogWage
    simp only [h.increment]
  unfold Soepy.solveFunction backwardInduction
  simp only [h1]

theorem FullCount.buildCached {par : ModelParams K} (h : FullCount par) (env : Env S K) (spec : ModelSpec K)
    (b b' : Bool) (g : S) :
    (∃ e, Soepy.buildCached env spec b g = .error e ∧ Soepy.buildCached env spec b' g = .error e) ∨
    ∃ c c' g', Soepy.buildCached env spec b g = .ok (c, g') ∧ Soepy.buildCached env spec b' g = .ok (c', g') ∧
      c'.probs = c.probs ∧ c'.probChild = c.probChild ∧ c'.probPartner = c.probPartner ∧ c'.space = c.space ∧
      c'.solve par = c.solve par := by
  unfold Soepy.buildCached
  dsimp only
  cases genProbChildInitAgeVector (readFiles env.disk spec.files) spec with
  | error e => exact Or.inl ⟨e, rfl, rfl⟩
  | ok v1 =>
  cases genProbInitExpComponentVector (readFiles env.disk spec.files).pt_exp_shares spec with
  | error e => exact Or.inl ⟨e, rfl, rfl⟩
  | ok v2 =>
  cases genProbInitExpComponentVector (readFiles env.disk spec.files).ft_exp_shares spec with
  | error e => exact Or.inl ⟨e, rfl, rfl⟩
  | ok v3 =>
  cases genProbChildVector (readFiles env.disk spec.files) spec with
  | error e => exact Or.inl ⟨e, rfl, rfl⟩
  | ok v4 =>
  cases genProbPartner (readFiles env.disk spec.files) spec with
  | error e => exact Or.inl ⟨e, rfl, rfl⟩
  | ok v5 =>
  cases createStateSpaceObjects spec with
  | error e => exact Or.inl ⟨e, rfl, rfl⟩
  | ok v6 =>
  simp only [ok_bind]
  unfold getSolveFunction
  cases getIntegrationDrawsAndWeights env.rng env.hermite spec g with
  | error e => exact Or.inl ⟨e, rfl, rfl⟩
  | ok x =>
    dsimp only
    by_cases hT : spec.num_periods = 0
    · rw [if_pos hT, if_pos hT]; exact Or.inl ⟨_, rfl, rfl⟩
    rw [if_neg hT, if_neg hT]
    refine Or.inr ⟨_, _, x.2, rfl, rfl, rfl, rfl, rfl, rfl, ?_⟩
    exact h.solveFunction _ _ _ _ _ _ _ _ _ _

theorem readModelParams_gamma_p {frame : Frame K} {par : ModelParams K} (h : readModelParams frame = .ok par) :
    par.gamma_p ≠ [] := by
  unfold readModelParams at h
  obtain ⟨⟨d, der⟩, -, h2⟩ := bind_ok.1 h
  intro h0
  have := (groupParameters_lengths h2).2.2.1
  rw [h0] at this
  simp at this

end Soepy
