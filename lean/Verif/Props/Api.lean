import Verif.Proof.Session
import Verif.Props.SimExample

/-!
# Reproducibility and the two entry points (C38, C47)
-/

set_option linter.unusedSectionVars false

namespace Soepy.Props
open Soepy
open Soepy.Spec (Later Call Calls dataOf)
variable {S K : Type} [Field K] [LinearOrder K] [IsStrictOrderedRing K] [FloorRing K] [Transc K]
  {env : Env S K} {frame : Frame K} {a : Nat} {biased sparse : Bool} {w w' : World S K}

/-! ## C38 -/

/-- **C38**  `simulate` returns the same data (or raises the same exception) in every state of NumPy's
generator and whatever else has been put into memory. -/
theorem C38_reproducible (hc : Closed w.store) (ha : a < w.store.length) (hw : Later w w') :
    dataOf (simulate env frame a biased sparse w') = dataOf (simulate env frame a biased sparse w) := by
  have ha' : a < w'.store.length := lt_of_lt_of_le ha hw.kept.length_le
  rw [simulate_data env frame biased sparse hc ha, simulate_data env frame biased sparse hw.closed ha',
    readSpec_later hc hw ha]
  refine bind_congr' _ fun par => bind_congr' _ fun spec => ?_
  rw [buildCached_free env spec biased w'.rng w.rng]
  exact bind_congr' _ fun c => by rw [runCached_free env c par spec sparse w'.rng w.rng]

/-- **C38**  Hence also after any number of other calls of the package and of `np.random.seed`. -/
theorem C38_after_any_calls (hc : Closed w.store) (ha : a < w.store.length) {fs fs' : List (Cached K)}
    (h : Calls env (w, fs) (w', fs')) :
    dataOf (simulate env frame a biased sparse w') = dataOf (simulate env frame a biased sparse w) :=
  C38_reproducible hc ha (Calls.later hc h)

/-! ## C47 -/

/-- **C47**  The function returned by `get_simulate_func` gives the data of `simulate` for every parameter
frame with the same number of types, after any number of other calls, with all arguments of `simulate` as in
the call of `get_simulate_func`. -/
theorem C47_func_agrees {frame0 : Frame K} {w1 w2 : World S K} {c : Cached K} {fs fs' : List (Cached K)}
    (hc : Closed w.store) (ha : a < w.store.length)
    (h : getSimulateFunc env frame0 a biased w = .ok (c, w1))
    (hn : specNumTypes frame = specNumTypes frame0)
    (hw : Calls env (w1, fs) (w2, fs')) :
    dataOf (callSimulateFunc env c sparse frame a w2) = dataOf (simulate env frame a biased sparse w) := by
  obtain ⟨par0, spec0, -, h3, h4⟩ := getSimulateFunc_ok.1 h
  have hc1 := readModelSpec_closed hc ha h3
  have hp1 := readModelSpec_prefix hc ha h3
  have hl : Later w w2 := Later.trans ⟨hp1, hc1⟩ (Calls.later hc1 hw)
  rw [callSimulateFunc_data, simulate_data env frame biased sparse hc ha, ← readSpec_later hc hl ha, hn, h3]
  refine bind_congr' _ fun par => ?_
  show dataOf (runCached env c par spec0 sparse w2.rng)
    = (dataOf (buildCached env spec0 biased w.rng) >>= _)
  rw [h4]
  rfl

/-- **C47**  `simulate` succeeds exactly if the function returned by `get_simulate_func` can be obtained and
succeeds, with the same data. -/
theorem C47_simulate_iff (hc : Closed w.store) (ha : a < w.store.length) {rows : List (OutRow K)} :
    (∃ w', simulate env frame a biased sparse w = .ok (rows, w')) ↔
      ∃ c w1 w2, getSimulateFunc env frame a biased w = .ok (c, w1) ∧
        callSimulateFunc env c sparse frame a w1 = .ok (rows, w2) := by
  constructor
  · rintro ⟨w', h⟩
    unfold simulate at h
    obtain ⟨⟨c, w1⟩, h1, h2⟩ := bind_ok.1 h
    exact ⟨c, w1, w', h1, h2⟩
  · rintro ⟨c, w1, w2, h1, h2⟩
    exact ⟨w2, by unfold simulate; rw [h1]; exact h2⟩

/-- In the example `simulate` and `get_simulate_func` succeed, and calls can be made in between. -/
example [Transc ℚ] (hermite : Nat → List ℚ × List ℚ) (g g' : Nat) :
    Closed (simWorld 4 g).store ∧ 0 < (simWorld 4 g).store.length ∧
    ∃ rows, dataOf (simulate (simEnv exFiles hermite) exFrame 0 false false (simWorld 4 g)) = .ok rows ∧
    ∃ c w1, getSimulateFunc (simEnv exFiles hermite) exFrame 0 false (simWorld 4 g) = .ok (c, w1) ∧
      ∃ w2, Calls (simEnv exFiles hermite) (w1, [c]) (w2, [c]) ∧ w2.rng = g' := by
  obtain ⟨rows, h⟩ := exOutput exFiles_ok hermite false false g
  obtain ⟨w', hr⟩ := h.run
  obtain ⟨c, w1, w2, h1, h2⟩ := (C47_simulate_iff h.closed h.addr).1 ⟨w', hr⟩
  obtain ⟨par, spec, -, h3, -⟩ := getSimulateFunc_ok.1 h1
  obtain ⟨par', spec', -, h4, -⟩ := callSimulateFunc_ok.1 h2
  have hc1 := readModelSpec_closed h.closed h.addr h3
  have ha1 := lt_of_lt_of_le h.addr (readModelSpec_prefix h.closed h.addr h3).length_le
  refine ⟨h.closed, h.addr, rows, by rw [hr]; rfl, c, w1, h1, { w2 with rng := g' }, ?_, rfl⟩
  exact .more (.more (.none _) (.callFunc ha1 List.mem_cons_self h2)) (.seedGlobal g')

/-! ## C67 -/

/-- **C67**  `partiable_simulate` with the solver, the state space objects and the probability vectors that
`get_simulate_func` builds, and with any `prob_exp_years`, gives the data of `simulate` for every parameter
frame with the same number of types, after any number of other calls. -/
theorem C67_partiable_agrees {frame0 : Frame K} {w1 w2 : World S K} {c : Cached K} {fs fs' : List (Cached K)}
    (hc : Closed w.store) (ha : a < w.store.length)
    (h : getSimulateFunc env frame0 a biased w = .ok (c, w1))
    (hn : specNumTypes frame = specNumTypes frame0)
    (hw : Calls env (w1, fs) (w2, fs')) (probExpYears : List (List K)) :
    dataOf (partiableSimulate env c.solve c.space.states c.space.indexer c.space.covariates
        c.space.childAgeUpdateRule c.probs.educ c.probs.childAge c.probs.partnerPresent probExpYears
        c.probs.expPt c.probs.expFt c.probChild c.probPartner sparse frame a w2)
      = dataOf (simulate env frame a biased sparse w) := by
  rw [← C47_func_agrees hc ha h hn hw]
  unfold partiableSimulate callSimulateFunc runCached
  congr 1
  refine bind_congr' _ fun par => bind_congr' _ fun x => ?_
  obtain ⟨st, spec⟩ := x
  dsimp only
  cases c.solve par with
  | error e => rfl
  | ok sol => rfl

/-- In the example `partiable_simulate` returns the data of `simulate`. -/
example [Transc ℚ] (hermite : Nat → List ℚ × List ℚ) (g : Nat) :
    ∃ c w1 rows, getSimulateFunc (simEnv exFiles hermite) exFrame 0 false (simWorld 4 g) = .ok (c, w1) ∧
      dataOf (partiableSimulate (simEnv exFiles hermite) c.solve c.space.states c.space.indexer
        c.space.covariates c.space.childAgeUpdateRule c.probs.educ c.probs.childAge c.probs.partnerPresent []
        c.probs.expPt c.probs.expFt c.probChild c.probPartner false exFrame 0 w1) = .ok rows := by
  obtain ⟨rows, h⟩ := exOutput exFiles_ok hermite false false g
  obtain ⟨w', hr⟩ := h.run
  obtain ⟨c, w1, w2, h1, h2⟩ := (C47_simulate_iff h.closed h.addr).1 ⟨w', hr⟩
  refine ⟨c, w1, rows, h1, ?_⟩
  rw [C67_partiable_agrees h.closed h.addr h1 rfl (.none (w1, []) ) []]
  rw [hr]
  rfl

end Soepy.Props
