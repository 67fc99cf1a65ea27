import Verif.Proof.Beliefs
import Verif.Props.SimExample

/-!
# Biased and unbiased expectations (C33)
-/

set_option linter.unusedSectionVars false

namespace Soepy.Props
open Soepy
variable {S K : Type} [Field K] [LinearOrder K] [IsStrictOrderedRing K] [FloorRing K] [Transc K]

/-- **C33**  If `gamma_p` is one for all education levels and `gamma_p_mom` is zero, `pyth_solve` gives the same
result with and without biased expectations. -/
theorem C33_solve (rng : Rng S K) (hermite : Nat → List K × List K) (spec : ModelSpec K)
    (states : List State) (covs : List (Covariate K)) (child : List ChildIdx) {par : ModelParams K}
    (probChild : List (List K)) (probPartner : List (List (Fin 2 → Fin 2 → K))) (g : S)
    (h0 : par.gamma_p ≠ []) (h1 : ∀ x ∈ par.gamma_p, x = 1) (h2 : par.gamma_p_mom = 0) :
    pythSolve rng hermite spec states covs child par probChild probPartner true g
      = pythSolve rng hermite spec states covs child par probChild probPartner false g := by
  unfold pythSolve getSolveFunction
  cases getIntegrationDrawsAndWeights rng hermite spec g with
  | error e => rfl
  | ok x =>
    dsimp only
    by_cases hT : spec.num_periods = 0
    · rw [if_pos hT, if_pos hT]
    rw [if_neg hT, if_neg hT]
    dsimp only
    rw [FullCount.solveFunction ⟨h0, h1, h2⟩ spec states covs child probChild probPartner true false]

/-- **C33**  Then `simulate` gives the same data (or raises the same exception) with and without biased
expectations. -/
theorem C33_simulate (env : Env S K) (frame : Frame K) (a : Nat) (sparse : Bool) (w : World S K)
    (h : ∀ par, readModelParams frame = .ok par → (∀ x ∈ par.gamma_p, x = 1) ∧ par.gamma_p_mom = 0) :
    simulate env frame a true sparse w = simulate env frame a false sparse w := by
  cases hp : readModelParams frame with
  | error e =>
    have : ∀ b, simulate env frame a b sparse w = .error e := by
      intro b
      unfold simulate getSimulateFunc
      rw [hp, error_bind, error_bind]
    rw [this, this]
  | ok par =>
    have hf : FullCount par := ⟨readModelParams_gamma_p hp, (h par hp).1, (h par hp).2⟩
    cases hs : readModelSpec w.store a (specNumTypes frame) with
    | error e =>
      have : ∀ b, simulate env frame a b sparse w = .error e := by
        intro b
        unfold simulate getSimulateFunc
        rw [hp, ok_bind, hs, error_bind, error_bind]
      rw [this, this]
    | ok x =>
      have hg : ∀ b, getSimulateFunc env frame a b w
          = (buildCached env x.2 b w.rng >>= fun y => pure (y.1, { rng := y.2, store := x.1 })) := by
        intro b
        unfold getSimulateFunc
        rw [hp, ok_bind, hs, ok_bind]
      unfold simulate
      rw [hg, hg]
      rcases hf.buildCached env x.2 true false w.rng with ⟨e, h1, h2⟩ | ⟨c, c', g', h1, h2, e1, e2, e3, e4, e5⟩
      · rw [h1, h2]
      · have hr : ∀ spec g, runCached env c par spec sparse g = runCached env c' par spec sparse g := by
          intro spec g
          unfold runCached
          rw [e1, e2, e3, e4, e5]
        have hc : ∀ w', callSimulateFunc env c sparse frame a w' = callSimulateFunc env c' sparse frame a w' := by
          intro w'
          unfold callSimulateFunc
          rw [hp, ok_bind, ok_bind]
          simp only [hr]
        rw [h1, h2]
        exact hc _

/-- A parameter frame in which part-time work counts fully. -/
def fullFrame : Frame ℚ := exFrame.map fun x =>
  if x.1 = "exp_increase_p" then (x.1, x.2.1, 1) else if x.1 = "exp_increase_p_mom" then (x.1, x.2.1, 0) else x

/-- The frame can be read, has the properties required, and can be simulated. -/
example [Transc ℚ] (hermite : Nat → List ℚ × List ℚ) (g : Nat) :
    (∃ par, readModelParams fullFrame = .ok par) ∧
    (∀ par, readModelParams fullFrame = .ok par → (∀ x ∈ par.gamma_p, x = 1) ∧ par.gamma_p_mom = 0) ∧
    ∃ rows w', simulate (simEnv exFiles hermite) fullFrame 0 true false (simWorld 4 g) = .ok (rows, w') := by
  obtain ⟨par, hp⟩ : ∃ par, FrameFacts fullFrame par (1/4) :=
    frame_reads (by decide +kernel) (by decide +kernel) (by decide +kernel)
  refine ⟨⟨par, hp.reads⟩, ?_, ?_⟩
  · have : ((readModelParams fullFrame).toOption.map fun p => (p.gamma_p, p.gamma_p_mom))
        = some ([1, 1, 1], 0) := by decide +kernel
    intro par' hp'
    rw [hp'] at this
    simp only [Except.toOption, Option.map_some, Option.some.injEq, Prod.mk.injEq] at this
    rw [this.1, this.2]
    simp
  · obtain ⟨rows, hr⟩ := sim_runs exFiles_ok hermite specOf_facts (by decide +kernel) hp true false g
    obtain ⟨w', hw⟩ := hr.run
    exact ⟨rows, w', hw⟩

end Soepy.Props
