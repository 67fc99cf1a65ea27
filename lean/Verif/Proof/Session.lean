import Verif.Spec.Session
import Verif.Proof.Api

/-! # Results do not depend on the state of the process -/

set_option linter.unusedSectionVars false

namespace Soepy
open Soepy.Spec (Later Call Calls dataOf)
variable {S K : Type} [Field K] [LinearOrder K] [FloorRing K] [Transc K]

theorem integration_free (rng : Rng S K) (hermite : Nat → List K × List K) (spec : ModelSpec K) (g g' : S) :
    dataOf (getIntegrationDrawsAndWeights rng hermite spec g)
      = dataOf (getIntegrationDrawsAndWeights rng hermite spec g') := by
  unfold getIntegrationDrawsAndWeights
  by_cases h1 : spec.integration_method = "quadrature"
  · simp only [if_pos h1]
    rfl
  · simp only [if_neg h1]

theorem getSolveFunction_free (rng : Rng S K) (hermite : Nat → List K × List K) (spec : ModelSpec K)
    (states : List State) (covs : List (Covariate K)) (child : List ChildIdx) (pc : List (List K))
    (pp : List (List (Fin 2 → Fin 2 → K))) (biased : Bool) (g g' : S) :
    dataOf (getSolveFunction rng hermite spec states covs child pc pp biased g)
      = dataOf (getSolveFunction rng hermite spec states covs child pc pp biased g') := by
  have h := integration_free rng hermite spec g g'
  unfold getSolveFunction
  cases h1 : getIntegrationDrawsAndWeights rng hermite spec g with
  | error e =>
    cases h2 : getIntegrationDrawsAndWeights rng hermite spec g' with
    | error e' =>
      rw [h1, h2] at h
      obtain rfl : e = e' := Except.error.inj h
      rfl
    | ok x => rw [h1, h2] at h; cases h
  | ok x =>
    cases h2 : getIntegrationDrawsAndWeights rng hermite spec g' with
    | error e' => rw [h1, h2] at h; cases h
    | ok y =>
      rw [h1, h2] at h
      obtain ⟨⟨a, b⟩, c⟩ := x
      obtain ⟨⟨a', b'⟩, c'⟩ := y
      have := Except.ok.inj h
      simp only [Prod.mk.injEq] at this
      obtain ⟨rfl, rfl⟩ := this
      dsimp only
      split <;> rfl

theorem dataOf_bind {α β γ δ : Type} (x : Except PyErr γ) (f : γ → Except PyErr (α × β))
    (f' : γ → Except PyErr (α × δ)) (h : ∀ c, dataOf (f c) = dataOf (f' c)) :
    dataOf (x >>= f) = dataOf (x >>= f') := by
  cases x with
  | error e => rfl
  | ok c => exact h c

theorem buildCached_free (env : Env S K) (spec : ModelSpec K) (biased : Bool) (g g' : S) :
    dataOf (buildCached env spec biased g) = dataOf (buildCached env spec biased g') := by
  unfold buildCached
  dsimp only
  refine dataOf_bind _ _ _ fun _ => ?_
  refine dataOf_bind _ _ _ fun _ => ?_
  refine dataOf_bind _ _ _ fun _ => ?_
  refine dataOf_bind _ _ _ fun pc => ?_
  refine dataOf_bind _ _ _ fun pp => ?_
  refine dataOf_bind _ _ _ fun space => ?_
  have h := getSolveFunction_free env.rng env.hermite spec space.states space.covariates
    space.childStateIndexes pc pp biased g g'
  cases h1 : getSolveFunction env.rng env.hermite spec space.states space.covariates
    space.childStateIndexes pc pp biased g with
  | error e =>
    cases h2 : getSolveFunction env.rng env.hermite spec space.states space.covariates
      space.childStateIndexes pc pp biased g' with
    | error e' => rw [h1, h2] at h; rw [Except.error.inj h]
    | ok x => rw [h1, h2] at h; cases h
  | ok x =>
    cases h2 : getSolveFunction env.rng env.hermite spec space.states space.covariates
      space.childStateIndexes pc pp biased g' with
    | error e' => rw [h1, h2] at h; cases h
    | ok y =>
      rw [h1, h2] at h
      have h := Except.ok.inj h
      obtain ⟨x1, x2⟩ := x
      obtain ⟨y1, y2⟩ := y
      dsimp only at h
      subst h
      rfl

theorem runCached_free (env : Env S K) (c : Cached K) (par : ModelParams K) (spec : ModelSpec K)
    (sparse : Bool) (g g' : S) : runCached env c par spec sparse g = runCached env c par spec sparse g' := rfl

/-- The specification that a call reads does not depend on what was added to memory. -/
theorem readSpec_later {w w' : World S K} (hc : Closed w.store) (hw : Later w w') {a : Nat}
    (ha : a < w.store.length) (n : Nat) :
    (readModelSpec w.store a n).map Prod.snd = (readModelSpec w'.store a n).map Prod.snd := by
  obtain ⟨rest, hr⟩ := hw.kept
  have h2 := hw.closed
  rw [← hr] at h2 ⊢
  have h := readModelSpec_extend (rest := rest) hc h2 ha n
  cases h1 : readModelSpec w.store a n with
  | error e =>
    cases h2 : readModelSpec (w.store ++ rest) a n with
    | error e' =>
      rw [h1, h2] at h
      obtain rfl : e = e' := h
      rfl
    | ok x => rw [h1, h2] at h; exact h.elim
  | ok x =>
    cases h2 : readModelSpec (w.store ++ rest) a n with
    | error e' => rw [h1, h2] at h; exact h.elim
    | ok y =>
      rw [h1, h2] at h
      have h : y.2 = x.2 := h
      show Except.ok x.2 = Except.ok y.2
      rw [h]

theorem callSimulateFunc_data (env : Env S K) (c : Cached K) (sparse : Bool) (frame : Frame K) (a : Nat)
    (w : World S K) : dataOf (callSimulateFunc env c sparse frame a w) = (do
      let par ← readModelParams frame
      let spec ← (readModelSpec w.store a (specNumTypes frame)).map Prod.snd
      dataOf (runCached env c par spec sparse w.rng)) := by
  unfold callSimulateFunc
  cases readModelParams frame with
  | error e => rfl
  | ok par =>
    rw [ok_bind, ok_bind]
    cases readModelSpec w.store a (specNumTypes frame) with
    | error e => rfl
    | ok x =>
      rw [ok_bind]
      show dataOf (_ >>= _) = dataOf (runCached env c par x.2 sparse w.rng)
      cases runCached env c par x.2 sparse w.rng with
      | error e => rfl
      | ok y => rfl

theorem simulate_data (env : Env S K) (frame : Frame K) {a : Nat} (biased sparse : Bool)
    {w : World S K} (hc : Closed w.store) (ha : a < w.store.length) :
    dataOf (simulate env frame a biased sparse w) = (do
      let par ← readModelParams frame
      let spec ← (readModelSpec w.store a (specNumTypes frame)).map Prod.snd
      let c ← dataOf (buildCached env spec biased w.rng)
      dataOf (runCached env c par spec sparse w.rng)) := by
  unfold simulate getSimulateFunc
  cases hp : readModelParams frame with
  | error e => rfl
  | ok par =>
    cases hs : readModelSpec w.store a (specNumTypes frame) with
    | error e => rfl
    | ok x =>
      obtain ⟨st1, spec⟩ := x
      show dataOf (_ >>= _) = _ >>= _
      rw [ok_bind, ok_bind]
      dsimp only
      show _ = (dataOf (buildCached env spec biased w.rng) >>= _)
      cases hb : buildCached env spec biased w.rng with
      | error e => rfl
      | ok y =>
        obtain ⟨c, g1⟩ := y
        show dataOf (callSimulateFunc env c sparse frame a ⟨g1, st1⟩) = _
        rw [callSimulateFunc_data, hp]
        obtain ⟨st2, h2, -⟩ := read_again hc ha hs
        show (_ >>= _) = _
        rw [h2]
        rfl

theorem Later.refl {w : World S K} (h : Closed w.store) : Later w w := ⟨List.prefix_rfl, h⟩

theorem Later.trans {w w' w'' : World S K} (h : Later w w') (h' : Later w' w'') : Later w w'' :=
  ⟨h.kept.trans h'.kept, h'.closed⟩

theorem Call.later {env : Env S K} {x y : World S K × List (Cached K)} (hc : Closed x.1.store)
    (h : Call env x y) : Later x.1 y.1 := by
  cases h with
  | simulate ha h =>
    rename_i frame a biased sparse w w' fs rows
    unfold simulate at h
    obtain ⟨⟨c, w1⟩, h1, h2⟩ := bind_ok.1 h
    obtain ⟨par, spec, -, h3, -⟩ := getSimulateFunc_ok.1 h1
    obtain ⟨par', spec', -, h4, -⟩ := callSimulateFunc_ok.1 h2
    have hc1 := readModelSpec_closed hc ha h3
    have hp1 := readModelSpec_prefix hc ha h3
    have ha1 : a < w1.store.length := lt_of_lt_of_le ha hp1.length_le
    exact ⟨hp1.trans (readModelSpec_prefix hc1 ha1 h4), readModelSpec_closed hc1 ha1 h4⟩
  | getFunc ha h =>
    obtain ⟨par, spec, -, h3, -⟩ := getSimulateFunc_ok.1 h
    exact ⟨readModelSpec_prefix hc ha h3, readModelSpec_closed hc ha h3⟩
  | callFunc ha hcm h =>
    obtain ⟨par, spec, -, h3, -⟩ := callSimulateFunc_ok.1 h
    exact ⟨readModelSpec_prefix hc ha h3, readModelSpec_closed hc ha h3⟩
  | seedGlobal g => exact ⟨List.prefix_rfl, hc⟩

theorem Calls.later {env : Env S K} {x y : World S K × List (Cached K)} (hc : Closed x.1.store)
    (h : Calls env x y) : Later x.1 y.1 := by
  induction h with
  | none => exact Later.refl hc
  | more h c ih => exact Later.trans ih (Call.later ih.closed c)

end Soepy
