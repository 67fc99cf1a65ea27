import Verif.Proof.Store
import Verif.Spec.Output
import Verif.Proof.SimInit

/-! From `simulate` to the simulation loop. -/

set_option linter.unusedSectionVars false

namespace Soepy
variable {S K : Type} [Field K] [LinearOrder K] [FloorRing K] [Transc K]

/-- The parts of the cached objects. -/
structure CachedOk (env : Env S K) (spec : ModelSpec K) (biased : Bool) (g g' : S) (c : Cached K) :
    Prop where
  educ : c.probs.educ = (env.disk spec.files.educ_shares).map Prod.snd
  childAge : genProbChildInitAgeVector (readFiles env.disk spec.files) spec = .ok c.probs.childAge
  partnerPresent : c.probs.partnerPresent = (env.disk spec.files.partner_shares).map Prod.snd
  expPt : genProbInitExpComponentVector (env.disk spec.files.pt_exp_shares) spec = .ok c.probs.expPt
  expFt : genProbInitExpComponentVector (env.disk spec.files.ft_exp_shares) spec = .ok c.probs.expFt
  probChild : genProbChildVector (readFiles env.disk spec.files) spec = .ok c.probChild
  probPartner : genProbPartner (readFiles env.disk spec.files) spec = .ok c.probPartner
  space : createStateSpaceObjects spec = .ok c.space
  solve : getSolveFunction env.rng env.hermite spec c.space.states c.space.covariates
    c.space.childStateIndexes c.probChild c.probPartner biased g = .ok (c.solve, g')

theorem buildCached_ok {env : Env S K} {spec : ModelSpec K} {biased : Bool} {g g' : S} {c : Cached K} :
    buildCached env spec biased g = .ok (c, g') ↔ CachedOk env spec biased g g' c := by
  unfold buildCached
  dsimp only
  constructor
  · intro h
    obtain ⟨x1, h1, h⟩ := bind_ok.1 h
    obtain ⟨x2, h2, h⟩ := bind_ok.1 h
    obtain ⟨x3, h3, h⟩ := bind_ok.1 h
    obtain ⟨x4, h4, h⟩ := bind_ok.1 h
    obtain ⟨x5, h5, h⟩ := bind_ok.1 h
    obtain ⟨x6, h6, h⟩ := bind_ok.1 h
    obtain ⟨⟨x7, g7⟩, h7, h⟩ := bind_ok.1 h
    simp only [pure_ok, Prod.mk.injEq] at h
    obtain ⟨rfl, rfl⟩ := h
    exact ⟨rfl, h1, rfl, h2, h3, h4, h5, h6, h7⟩
  · rintro ⟨h0, h1, h00, h2, h3, h4, h5, h6, h7⟩
    rw [h1, ok_bind]
    have h2' : genProbInitExpComponentVector (readFiles env.disk spec.files).pt_exp_shares spec
      = .ok c.probs.expPt := h2
    have h3' : genProbInitExpComponentVector (readFiles env.disk spec.files).ft_exp_shares spec
      = .ok c.probs.expFt := h3
    rw [h2', ok_bind, h3', ok_bind, h4, ok_bind, h5, ok_bind, h6, ok_bind, h7, ok_bind]
    obtain ⟨⟨p1, p2, p3, p4, p5⟩, c2, c3, c4, c5⟩ := c
    simp only at h0 h00
    subst h0 h00
    rfl

/-- The arrays the simulator gets. -/
def Cached.input (c : Cached K) (sol : Solution K) : SimInput K :=
  { states := c.space.states, indexer := c.space.indexer, covariates := c.space.covariates,
    emaxs := sol.emaxs, nonConsumptionUtilities := sol.nonConsumptionUtilities,
    childAgeUpdateRule := c.space.childAgeUpdateRule, probChild := c.probChild,
    probPartner := c.probPartner }

theorem runCached_ok {env : Env S K} {c : Cached K} {par : ModelParams K} {spec : ModelSpec K}
    {sparse : Bool} {g : S} {r : List (OutRow K) × S} :
    runCached env c par spec sparse g = .ok r ↔ ∃ sol, c.solve par = .ok sol ∧
      pythSimulate env.rng par spec (c.input sol) c.probs false sparse g = .ok r := by
  unfold runCached
  rw [bind_ok]
  rfl

/-- A second reading of the same dictionary. -/
theorem read_again {st st1 : Store K} (hc : Closed st) {a n : Nat} (ha : a < st.length) {spec : ModelSpec K}
    (h : readModelSpec st a n = .ok (st1, spec)) :
    ∃ st2, readModelSpec st1 a n = .ok (st2, spec) ∧ st1 <+: st2 ∧ Closed st2 := by
  have hc1 := readModelSpec_closed hc ha h
  obtain ⟨rest, rfl⟩ := readModelSpec_prefix hc ha h
  have he := readModelSpec_extend (rest := rest) hc hc1 ha n
  rw [h] at he
  cases h2 : readModelSpec (st ++ rest) a n with
  | error e => rw [h2] at he; exact he.elim
  | ok q =>
    rw [h2] at he
    change q.2 = spec at he
    have ha1 : a < (st ++ rest).length := by simp; omega
    refine ⟨q.1, by rw [← he], readModelSpec_prefix (spec := q.2) hc1 ha1 h2,
      readModelSpec_closed (spec := q.2) hc1 ha1 h2⟩

theorem getSimulateFunc_ok {env : Env S K} {frame : Frame K} {a : Nat} {biased : Bool} {w w' : World S K}
    {c : Cached K} :
    getSimulateFunc env frame a biased w = .ok (c, w') ↔
      ∃ par spec, readModelParams frame = .ok par ∧
        readModelSpec w.store a (specNumTypes frame) = .ok (w'.store, spec) ∧
        buildCached env spec biased w.rng = .ok (c, w'.rng) := by
  unfold getSimulateFunc
  constructor
  · intro h
    obtain ⟨par, h1, h⟩ := bind_ok.1 h
    obtain ⟨⟨st, spec⟩, h2, h⟩ := bind_ok.1 h
    obtain ⟨⟨c', g⟩, h3, h⟩ := bind_ok.1 h
    simp only [pure_ok, Prod.mk.injEq] at h
    obtain ⟨rfl, rfl⟩ := h
    exact ⟨par, spec, h1, h2, h3⟩
  · rintro ⟨par, spec, h1, h2, h3⟩
    rw [h1, ok_bind, h2, ok_bind]
    dsimp only
    rw [h3, ok_bind]
    rfl

theorem callSimulateFunc_ok {env : Env S K} {frame : Frame K} {a : Nat} {sparse : Bool} {w w' : World S K}
    {c : Cached K} {rows : List (OutRow K)} :
    callSimulateFunc env c sparse frame a w = .ok (rows, w') ↔
      ∃ par spec, readModelParams frame = .ok par ∧
        readModelSpec w.store a (specNumTypes frame) = .ok (w'.store, spec) ∧
        runCached env c par spec sparse w.rng = .ok (rows, w'.rng) := by
  unfold callSimulateFunc
  constructor
  · intro h
    obtain ⟨par, h1, h⟩ := bind_ok.1 h
    obtain ⟨⟨st, spec⟩, h2, h⟩ := bind_ok.1 h
    obtain ⟨⟨c', g⟩, h3, h⟩ := bind_ok.1 h
    simp only [pure_ok, Prod.mk.injEq] at h
    obtain ⟨rfl, rfl⟩ := h
    exact ⟨par, spec, h1, h2, h3⟩
  · rintro ⟨par, spec, h1, h2, h3⟩
    rw [h1, ok_bind, h2, ok_bind]
    dsimp only
    rw [h3, ok_bind]
    rfl

/-- `simulate` reads the parameters and the specification once (the second reading gives the same),
builds the cached objects and runs the simulator. -/
theorem simulate_ok {env : Env S K} {frame : Frame K} {a : Nat} {biased sparse : Bool} {w : World S K}
    (hc : Closed w.store) (ha : a < w.store.length) {rows : List (OutRow K)} :
    (∃ w', simulate env frame a biased sparse w = .ok (rows, w')) ↔
      ∃ par spec st1 c g1 g2, readModelParams frame = .ok par ∧
        readModelSpec w.store a (specNumTypes frame) = .ok (st1, spec) ∧
        buildCached env spec biased w.rng = .ok (c, g1) ∧
        runCached env c par spec sparse g1 = .ok (rows, g2) := by
  unfold simulate
  constructor
  · rintro ⟨w', h⟩
    obtain ⟨⟨c, w1⟩, h1, h⟩ := bind_ok.1 h
    obtain ⟨par, spec, k1, k2, k3⟩ := getSimulateFunc_ok.1 h1
    obtain ⟨par', spec', j1, j2, j3⟩ := callSimulateFunc_ok.1 h
    rw [k1] at j1
    obtain rfl := Except.ok.inj j1
    obtain ⟨st2, e, -, -⟩ := read_again hc ha k2
    rw [e] at j2
    obtain ⟨-, rfl⟩ := Prod.mk.inj (Except.ok.inj j2)
    exact ⟨par, spec, w1.store, c, w1.rng, w'.rng, k1, k2, k3, j3⟩
  · rintro ⟨par, spec, st1, c, g1, g2, k1, k2, k3, k4⟩
    obtain ⟨st2, e, -, -⟩ := read_again hc ha k2
    refine ⟨{ rng := g2, store := st2 }, ?_⟩
    rw [(getSimulateFunc_ok (w' := { rng := g1, store := st1 })).2 ⟨par, spec, k1, k2, k3⟩, ok_bind]
    exact callSimulateFunc_ok.2 ⟨par, spec, k1, e, k4⟩

/-- What is recorded about a row of the loop. -/
def recorded (sparse : Bool) (q : Row K) : OutRow K :=
  maskWage (if sparse then castSparse (outRow sparse q) else outRow sparse q)

theorem finishData_eq (sparse : Bool) (data : List (List (Row K))) :
    finishData sparse data = data.flatten.map (recorded sparse) := by
  unfold finishData recorded
  cases sparse <;> simp <;> rfl

/-- The facts about a successful simulation. -/
structure SimFacts (rng : Rng S K) (par : ModelParams K) (spec : ModelSpec K) (inp : SimInput K)
    (probs : InitProbs K) (biased : Bool) (initial : List (Agent K)) (draws : List (List K))
    (maxEntry : Nat) : Prop where
  len : initial.length = spec.num_agents_sim
  educ_len : (rng.choice (rng.seed spec.seed_sim) spec.num_agents_sim probs.educ).1.length
    = spec.num_agents_sim
  entry : ∀ (i : Nat) a, initial[i]? = some a → EntryOk par spec biased probs.childAge
    probs.partnerPresent probs.expPt probs.expFt
    (rng.choice (rng.seed spec.seed_sim) spec.num_agents_sim probs.educ).1 i a
  draws : draws = (rng.normal (rng.seed spec.seed_sim) spec.num_periods spec.num_agents_sim).1.map
      (fun row => row.map (· * par.shock_sd))
  maxEntry : maxEntryYear spec.educ_years = .ok maxEntry
  pos : 0 < spec.num_periods

theorem SimFacts.period_le {rng : Rng S K} {par : ModelParams K} {spec : ModelSpec K} {inp : SimInput K}
    {probs : InitProbs K} {biased : Bool} {initial : List (Agent K)} {draws : List (List K)}
    {maxEntry : Nat} (F : SimFacts rng par spec inp probs biased initial draws maxEntry) :
    ∀ a ∈ initial, a.period ≤ maxEntry := by
  intro a ha
  obtain ⟨i, hi⟩ := List.mem_iff_getElem?.1 ha
  exact maxEntryYear_ge F.maxEntry _ (List.mem_of_getElem? (F.entry i a hi).period)

theorem SimFacts.ids {rng : Rng S K} {par : ModelParams K} {spec : ModelSpec K} {inp : SimInput K}
    {probs : InitProbs K} {biased : Bool} {initial : List (Agent K)} {draws : List (List K)}
    {maxEntry : Nat} (F : SimFacts rng par spec inp probs biased initial draws maxEntry) :
    initial.map Agent.id = List.range spec.num_agents_sim := by
  apply List.ext_getElem?
  intro i
  rw [List.getElem?_map]
  by_cases hi : i < spec.num_agents_sim
  · rw [List.getElem?_eq_getElem (by rw [F.len]; exact hi), List.getElem?_range hi]
    have := (F.entry i _ (List.getElem?_eq_getElem (by rw [F.len]; exact hi))).id
    simp [this]
  · rw [List.getElem?_eq_none (by rw [F.len]; omega), List.getElem?_eq_none (by simp; omega)]
    rfl

theorem SimFacts.nodup {rng : Rng S K} {par : ModelParams K} {spec : ModelSpec K} {inp : SimInput K}
    {probs : InitProbs K} {biased : Bool} {initial : List (Agent K)} {draws : List (List K)}
    {maxEntry : Nat} (F : SimFacts rng par spec inp probs biased initial draws maxEntry) :
    (initial.map Agent.id).Nodup := by
  rw [F.ids]
  exact List.nodup_range

theorem pythSimulate_full {rng : Rng S K} (L : RngLaws rng) {par : ModelParams K} {spec : ModelSpec K}
    {inp : SimInput K} {probs : InitProbs K} {biased sparse : Bool} {g g' : S} {rows : List (OutRow K)}
    (h : pythSimulate rng par spec inp probs biased sparse g = .ok (rows, g')) :
    ∃ initial draws maxEntry, ∃ R : Run rng par spec inp biased draws initial maxEntry
        (rng.normal (rng.seed spec.seed_sim) spec.num_periods spec.num_agents_sim).2,
      SimFacts rng par spec inp probs biased initial draws maxEntry ∧
      prepareSimulationData rng par spec probs.educ probs.childAge probs.partnerPresent probs.expPt
        probs.expFt biased (rng.seed spec.seed_sim) = .ok ((initial, draws),
          (rng.normal (rng.seed spec.seed_sim) spec.num_periods spec.num_agents_sim).2) ∧
      rows = ((List.range spec.num_periods).map R.rows).flatten.map (recorded sparse) ∧
      g' = R.gen spec.num_periods := by
  unfold pythSimulate at h
  dsimp only at h
  obtain ⟨⟨⟨initial, draws⟩, g1⟩, h1, h⟩ := bind_ok.1 h
  obtain ⟨⟨data, g2⟩, h2, h⟩ := bind_ok.1 h
  dsimp only at h h2
  obtain ⟨k1, k2, k3, k4, rfl⟩ := prepare_ok L h1
  obtain ⟨maxEntry, hm, R, rfl, hg⟩ := simulate_run h2
  by_cases he : (List.map R.rows (List.range spec.num_periods)).isEmpty = true
  · rw [if_pos he] at h; cases h
  · rw [if_neg he] at h
    simp only [pure_ok, Prod.mk.injEq] at h
    refine ⟨initial, draws, maxEntry, R, ⟨k1, k2, k3, k4, hm, ?_⟩, h1, ?_, h.2.symm.trans hg⟩
    · simp only [List.isEmpty_map, List.isEmpty_iff, List.range_eq_nil] at he
      omega
    · rw [← h.1, finishData_eq]

theorem pythSimulate_run {rng : Rng S K} (L : RngLaws rng) {par : ModelParams K} {spec : ModelSpec K}
    {inp : SimInput K} {probs : InitProbs K} {biased sparse : Bool} {g g' : S} {rows : List (OutRow K)}
    (h : pythSimulate rng par spec inp probs biased sparse g = .ok (rows, g')) :
    ∃ initial draws maxEntry, ∃ R : Run rng par spec inp biased draws initial maxEntry
        (rng.normal (rng.seed spec.seed_sim) spec.num_periods spec.num_agents_sim).2,
      SimFacts rng par spec inp probs biased initial draws maxEntry ∧
      prepareSimulationData rng par spec probs.educ probs.childAge probs.partnerPresent probs.expPt
        probs.expFt biased (rng.seed spec.seed_sim) = .ok ((initial, draws),
          (rng.normal (rng.seed spec.seed_sim) spec.num_periods spec.num_agents_sim).2) ∧
      rows = ((List.range spec.num_periods).map R.rows).flatten.map (recorded sparse) := by
  obtain ⟨initial, draws, maxEntry, R, F, h1, h2, -⟩ := pythSimulate_full L h
  exact ⟨initial, draws, maxEntry, R, F, h1, h2⟩

/-- Everything about a call of `simulate`. -/
theorem output_run {env : Env S K} {frame : Frame K} {a : Nat} {biased sparse : Bool} {w : World S K}
    {par : ModelParams K} {spec : ModelSpec K} {rows : List (OutRow K)}
    (h : Spec.Output env frame a biased sparse w par spec rows) :
    ∃ c g1 sol, CachedOk env spec biased w.rng g1 c ∧ c.solve par = .ok sol ∧
    (∃ g2, pythSimulate env.rng par spec (c.input sol) c.probs false sparse g1 = .ok (rows, g2)) ∧
    ∃ initial draws maxEntry, ∃ R : Run env.rng par spec (c.input sol) false draws initial maxEntry
        (env.rng.normal (env.rng.seed spec.seed_sim) spec.num_periods spec.num_agents_sim).2,
      SimFacts env.rng par spec (c.input sol) c.probs false initial draws maxEntry ∧
      rows = ((List.range spec.num_periods).map R.rows).flatten.map (recorded sparse) := by
  obtain ⟨par', spec', st1, c, g1, g2, h1, h2, h3, h4⟩ := (simulate_ok h.closed h.addr).1 h.run
  obtain rfl : par' = par := Except.ok.inj (h1.symm.trans h.params)
  obtain ⟨st', hs⟩ := h.spec_ok
  rw [h2] at hs
  obtain ⟨-, rfl⟩ := Prod.mk.inj (Except.ok.inj hs)
  obtain ⟨sol, h5, h6⟩ := runCached_ok.1 h4
  obtain ⟨initial, draws, maxEntry, R, F, -, hr⟩ := pythSimulate_run h.laws h6
  exact ⟨c, g1, sol, buildCached_ok.1 h3, h5, ⟨g2, h6⟩, initial, draws, maxEntry, R, F, hr⟩

end Soepy
