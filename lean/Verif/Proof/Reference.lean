import Verif.Spec.Reference
import Verif.Proof.Initial
import Verif.Proof.Exogenous
import Verif.Proof.Panel
import Verif.Proof.Sparse
import Verif.Spec.Sparse

/-! The simulation is the reference simulation. -/

set_option linter.unusedSectionVars false

namespace Soepy
open Spec (Subject)
variable {S K : Type} [Field K] [LinearOrder K] [IsStrictOrderedRing K] [FloorRing K] [Transc K]

/-! ## Plans -/

theorem onUnitInterval_eq {l : List K} (hn : 2 ≤ l.length) (x : K) :
    uniformValue l x = Spec.onUnitInterval l x := by
  obtain ⟨m, hm⟩ : ∃ m, l.length = m + 2 := ⟨l.length - 2, by omega⟩
  have hpos : (0 : K) < (m : K) + 1 := by positivity
  have hcast : ((((l.length : Nat) : Int) - 1 : Int) : K) = (m : K) + 1 := by
    rw [hm]; push_cast; ring
  have hcast' : ((l.length : K) - 1) = (m : K) + 1 := by rw [hm]; push_cast; ring
  unfold uniformValue Spec.onUnitInterval Spec.line clip
  simp only [hcast, hcast']
  set y : K := min (max x 0) 1 with hy
  have h0 : 0 ≤ y := le_min (le_max_right _ _) zero_le_one
  have h1 : y ≤ 1 := min_le_right _ _
  set u : K := y * ((m : K) + 1) with hu
  have hu0 : 0 ≤ u := mul_nonneg h0 hpos.le
  have hu1 : u ≤ (m : K) + 1 := mul_le_of_le_one_left hpos.le h1
  have hf0 : 0 ≤ ⌊u⌋ := Int.floor_nonneg.2 hu0
  obtain ⟨k, hk⟩ : ∃ k : Nat, ⌊u⌋ = (k : Int) := ⟨⌊u⌋.toNat, (Int.toNat_of_nonneg hf0).symm⟩
  have hkle : (k : K) ≤ u := by have := Int.floor_le u; rw [hk] at this; exact_mod_cast this
  have hk1 : k ≤ m + 1 := by
    have : (k : K) ≤ (m : K) + 1 := hkle.trans hu1
    exact_mod_cast this
  rw [hk]
  simp only [Int.toNat_natCast, Int.cast_natCast, add_sub_cancel_left, div_one]
  rcases Nat.lt_or_ge k (m + 1) with hlt | hge
  · have e1 : min k (l.length - 2) = k := by omega
    have e2 : (min ((k : Int) + 1) (((l.length : Nat) : Int) - 1)).toNat = k + 1 := by omega
    rw [e1, e2]
  · have hkm : k = m + 1 := by omega
    subst hkm
    have hs1 : u = (m : K) + 1 := le_antisymm hu1 (by push_cast at hkle; exact hkle)
    have e1 : min (m + 1) (l.length - 2) = m := by omega
    have e2 : (min (((m + 1 : Nat) : Int) + 1) (((l.length : Nat) : Int) - 1)).toNat = m + 1 := by omega
    rw [e1, e2, hs1]
    push_cast
    ring

theorem firstBest_eq (v : Fin 3 → K) : argmax3 v = Spec.firstBest v := by
  unfold argmax3 Spec.firstBest
  have h0 : (∀ c, v c ≤ v 0) ↔ v 1 ≤ v 0 ∧ v 2 ≤ v 0 := by
    rw [Fin.forall_fin_succ, Fin.forall_fin_two]
    exact ⟨fun h => h.2, fun h => ⟨le_refl _, h⟩⟩
  have h1 : (∀ c, v c ≤ v 1) ↔ v 0 ≤ v 1 ∧ v 2 ≤ v 1 := by
    rw [Fin.forall_fin_succ, Fin.forall_fin_two]
    exact ⟨fun h => ⟨h.1, h.2.2⟩, fun h => ⟨h.1, le_refl _, h.2⟩⟩
  by_cases k0 : v 1 ≤ v 0 ∧ v 2 ≤ v 0
  · rw [if_pos k0, if_pos (h0.2 k0)]
  · rw [if_neg k0, if_neg (fun h => k0 (h0.1 h))]
    by_cases k1 : v 2 ≤ v 1
    · rw [if_pos k1, if_pos (h1.2 ⟨?_, k1⟩)]
      by_contra hlt
      push Not at hlt
      exact k0 ⟨hlt.le, k1.trans hlt.le⟩
    · rw [if_neg k1, if_neg (fun h => k1 (h1.1 h).2)]

theorem nodes_eq {env : Env S K} {spec : ModelSpec K} {g g' : S} {draws weights : List K}
    (h : getIntegrationDrawsAndWeights env.rng env.hermite spec g = .ok ((draws, weights), g')) :
    Spec.nodes env spec = (draws, weights) := by
  unfold getIntegrationDrawsAndWeights at h
  unfold Spec.nodes
  dsimp only at h ⊢
  split_ifs at h ⊢ with h1 h2
  · obtain ⟨e1, -⟩ := Prod.mk.inj (Except.ok.inj h)
    rw [← e1]
    congr 1
    exact List.map_congr_left fun x _ => div_eq_mul_one_div _ _
  · obtain ⟨e1, -⟩ := Prod.mk.inj (Except.ok.inj h)
    rw [← e1]
    congr 1
    unfold drawZeroOneShocks jget jaxIndex
    generalize (env.rng.normal (env.rng.seed spec.seed_emax) 1 spec.num_draws_emax).1 = l
    cases l <;> simp

/-- Values only depend on the probabilities of the periods, education levels and partner states there are. -/
theorem W_tables {e e' : Spec.Economy K} {T E : Nat} (hs : e.spec = e'.spec) (hp : e.par = e'.par)
    (hb : e.biased = e'.biased) (hr : e.elterngeldRegime = e'.elterngeldRegime) (hd : e.draws = e'.draws)
    (hw : e.weights = e'.weights)
    (h1 : ∀ t < T, ∀ d < E, e.birth t d = e'.birth t d)
    (h2 : ∀ t < T, ∀ d < E, ∀ q < 2, ∀ q' < 2, e.partner t d q q' = e'.partner t d q q') :
    ∀ (r : Nat) (s : State), s.period + r ≤ T → s.educ < E → s.partner < 2 → ∀ x,
      Spec.W e r s x = Spec.W e' r s x ∧ (0 < r → ∀ c : Fin 3,
        Spec.continuation e (Spec.W e (r - 1)) s x c = Spec.continuation e' (Spec.W e' (r - 1)) s x c) := by
  intro r
  induction r with
  | zero => intro s _ _ _ x; exact ⟨rfl, fun h => absurd h (by omega)⟩
  | succ r ih =>
    intro s hT hE hq x
    have hc : ∀ c : Fin 3, Spec.continuation e (Spec.W e r) s x c
        = Spec.continuation e' (Spec.W e' r) s x c := by
      intro c
      unfold Spec.continuation
      have hst : Spec.stockNext e s x c = Spec.stockNext e' s x c := by
        unfold Spec.stockNext; rw [hs, hp, hb]
      have hV : ∀ b q, q < 2 → Spec.W e r (Spec.successor e.spec.child_age_max s c b q)
          = Spec.W e' r (Spec.successor e'.spec.child_age_max s c b q) := by
        intro b q hq'
        funext y
        rw [hs]
        exact (ih (Spec.successor e'.spec.child_age_max s c b q) (by show s.period + 1 + r ≤ T; omega) hE hq' y).1
      dsimp only
      rw [hst, hV _ 0 (by omega), hV _ 1 (by omega), hV _ 0 (by omega), hV _ 1 (by omega), hs,
        h1 _ (by omega) _ hE, h2 _ (by omega) _ hE _ hq 0 (by omega), h2 _ (by omega) _ hE _ hq 1 (by omega)]
    refine ⟨?_, fun _ => hc⟩
    unfold Spec.W
    rw [hd, hw, hp]
    congr 1
    congr 1
    funext d w
    have hflow : ∀ c : Fin 3, Spec.flow e s x c (d * e'.par.shock_sd)
        = Spec.flow e' s x c (d * e'.par.shock_sd) := by
      intro c
      clear hd hw h1 h2 ih hc
      obtain ⟨_, _, _, _, _, _, _, _⟩ := e
      obtain ⟨_, _, _, _, _, _, _, _⟩ := e'
      dsimp only at hs hp hb hr
      subst hs hp hb hr
      fin_cases c <;> rfl
    unfold Spec.best
    dsimp only
    rw [hflow, hflow, hflow, hc, hc, hc, hp]

theorem planner_W {env : Env S K} {par : ModelParams K} {spec : ModelSpec K} {biased : Bool} {g g' : S}
    {c : Cached K} (hc : CachedOk env spec biased g g' c) (hu : Usable spec par)
    (hlast : -1 ≤ spec.last_child_bearing_period) {draws weights : List K} {h h' : S}
    (hd : getIntegrationDrawsAndWeights env.rng env.hermite spec h = .ok ((draws, weights), h')) {s : State}
    (hin : Spec.InRange spec s) (x : K) (ch : Fin 3) :
    (cellOf (Spec.economy spec par biased draws weights c.probChild c.probPartner) s x).cont ch
      = Spec.continuation (Spec.planner env par spec biased)
        (Spec.W (Spec.planner env par spec biased) (spec.num_periods - (s.period + 1))) s x ch := by
  have hn := nodes_eq hd
  have hT := hin.period
  refine ((W_tables (e := Spec.economy spec par biased draws weights c.probChild c.probPartner)
    (e' := Spec.planner env par spec biased) (T := spec.num_periods) (E := spec.num_educ_levels) rfl rfl rfl
    rfl ?_ ?_ ?_ ?_ (spec.num_periods - s.period) s (by omega) hin.educ hin.partner x).2 (by omega) ch).trans ?_
  · show draws = (Spec.nodes env spec).1
    rw [hn]
  · show weights = (Spec.nodes env spec).2
    rw [hn]
  · intro t ht d hd'
    exact probChild_entry hlast hc.probChild ht (lt_of_lt_of_le hd' hu.educ)
  · intro t ht d hd' q hq q' hq'
    show (if h : q < 2 ∧ q' < 2 then
        (c.probPartner.getD t []).getD d (fun _ _ => 0) ⟨q, h.1⟩ ⟨q', h.2⟩ else 0) = _
    rw [dif_pos ⟨hq, hq'⟩, probPartner_entry hc.probPartner ht hd']
    unfold Spec.planner
    dsimp only
    obtain rfl | rfl : q = 0 ∨ q = 1 := by omega
    all_goals obtain rfl | rfl : q' = 0 ∨ q' = 1 := by omega
    all_goals rfl
  · rfl

/-! ## Entrants -/

/-- The agent as the reference simulation has them. -/
def Agent.subject (a : Agent K) : Subject K :=
  { id := a.id, state := a.state, partTime := a.expPT, fullTime := a.expFT, stock := a.stock }

theorem laggedChoiceInitial_eq (x : K) :
    laggedChoiceInitial x = if Int.fract |x| > 1e-8 then 1 else if x > 1 then 2 else 0 := by
  unfold laggedChoiceInitial truncInt
  have e : |x - (((if 0 ≤ x then ⌊x⌋ else ⌈x⌉) : Int) : K)| = Int.fract |x| := by
    by_cases h : 0 ≤ x
    · rw [if_pos h, abs_of_nonneg h]
      exact abs_of_nonneg (Int.fract_nonneg _)
    · push Not at h
      rw [if_neg (not_le.2 h), abs_of_neg h, Int.fract, Int.floor_neg, abs_sub_comm, abs_of_nonneg]
      · push_cast; ring
      · exact sub_nonneg.2 (Int.le_ceil x)
  simp only [e, decide_eq_true_eq]

theorem getD_some {α : Type} {l : List α} {i : Nat} {x d : α} (h : l[i]? = some x) : l.getD i d = x := by
  rw [List.getD_eq_getElem?_getD, h]; rfl

theorem entrant_eq {env : Env S K} {frame : Frame K} {par : ModelParams K} {spec : ModelSpec K}
    (hp : readModelParams frame = .ok par) (hE : spec.num_educ_levels ≤ 3) {a1 : List (List K)} {a2 : List K}
    {a3 a4 : List (List K)} {a5 : List Nat} {i : Nat} {a : Agent K}
    (E : EntryOk par spec false a1 a2 a3 a4 a5 i a) (hst : Start env par spec i a) :
    a.subject = Spec.entrant env par spec i := by
  obtain ⟨s1, ⟨j, s2, s3⟩, s4, s5, s6, s7, -⟩ := hst
  have hpt := ptIncrement_true hp (a := a) (lt_of_lt_of_le E.educ_lt hE)
  have hst := E.stock
  have hla := E.lagged
  rw [hpt] at hst hla
  rw [laggedChoiceInitial_eq] at hla
  unfold Spec.entrant
  dsimp only
  rw [getD_some s1, getD_some s2, getD_some s4, getD_some s5, getD_some s6, getD_some s7, getD_some E.period,
    ← s3]
  unfold Agent.subject Agent.state
  rw [E.id]
  have hinc : Spec.ptIncrement par false a.state = Spec.ptIncrement par false
      { period := a.period, educ := a.educ, lagged := 0, type := a.type, age := a.age, partner := a.partner } := rfl
  rw [hinc] at hst hla
  congr 1
  · rw [hla]
  · rw [hst]
    unfold expYearsToStock maxExpYears
    simp only [Nat.cast_zero, zero_mul, max_self, add_zero, gt_iff_lt, Nat.cast_pos]
    by_cases h0 : spec.init_exp_max = 0
    · rw [if_pos h0, if_neg (by omega), div_one]
    · rw [if_neg h0, if_pos (by omega)]

theorem entrants_eq {env : Env S K} {frame : Frame K} {par : ModelParams K} {spec : ModelSpec K}
    {biased : Bool} {g g' : S} {c : Cached K} (hc : CachedOk env spec biased g g' c) {inp : SimInput K}
    {initial : List (Agent K)} {draws : List (List K)} {m : Nat}
    (hp : readModelParams frame = .ok par) (hE : spec.num_educ_levels ≤ 3)
    (F : SimFacts env.rng par spec inp c.probs false initial draws m)
    (hst : ∀ (i : Nat) b, initial[i]? = some b → Start env par spec i b) (t : Nat) :
    (initial.filter fun a => decide (a.period = t)).map Agent.subject = Spec.entrants env par spec t := by
  unfold Spec.entrants
  rw [← F.ids, List.filter_map, List.map_map]
  have hf : (initial.filter fun a => decide (a.period = t))
      = initial.filter ((fun i => decide (Spec.entryYear env spec i = some t)) ∘ Agent.id) := by
    refine List.filter_congr fun x hx => ?_
    obtain ⟨-, hE'⟩ := F.mem hx
    have : Spec.entryYear env spec x.id = some x.period := by
      unfold Spec.entryYear Spec.drawnEducation
      rw [← hc.educ, hE'.educ, Option.bind_some, hE'.period]
    rw [Function.comp_apply, this]
    simp
  rw [hf]
  refine List.map_congr_left fun a ha => ?_
  obtain ⟨h1, h2⟩ := F.mem (List.mem_of_mem_filter ha)
  exact entrant_eq hp hE h2 (hst _ _ h1)

/-! ## The periods -/

/-- The row of the agent in column `k` is the one of the reference simulation. -/
theorem entryOf_eq {env : Env S K} {par : ModelParams K} {spec : ModelSpec K} {biased : Bool} {g g' : S}
    {c : Cached K} (hc : CachedOk env spec biased g g' c) (hu : Usable spec par) (hp : ParamsFit spec par)
    (hlast : -1 ≤ spec.last_child_bearing_period) {sol : Solution K} (hs : c.solve par = .ok sol)
    {draws : List (List K)}
    (hdr : draws = (env.rng.normal (env.rng.seed spec.seed_sim) spec.num_periods spec.num_agents_sim).1.map
      (fun row => row.map (· * par.shock_sd)))
    {t k : Nat} {q : Row K} (hper : q.agent.period = t) (hin : Spec.InRange spec q.agent.state)
    (ho : ∃ row e, draws[t]? = some row ∧ row[k]? = some e ∧
      agentOutcome par spec (c.input sol) false t q.agent e = .ok q.out) :
    recorded false q = Spec.entryOf env par spec biased k q.agent.subject ∧
      q.out.choice = Spec.decision env par spec biased k q.agent.subject ∧
      q.out.ptIncrement = Spec.ptIncrement par false q.agent.state := by
  obtain ⟨hreg, dr, we, hint, hsol⟩ := hc.solution hu hp hs
  obtain ⟨row, e, h1, h2, h3⟩ := ho
  have hshock : e = Spec.shockAt env par spec q.agent.state.period k := by
    unfold Spec.shockAt Spec.normalDraws
    rw [hdr, List.getElem?_map] at h1
    obtain ⟨row0, h4, rfl⟩ := Option.map_eq_some_iff.1 h1
    rw [List.getElem?_map] at h2
    obtain ⟨e0, h5, rfl⟩ := Option.map_eq_some_iff.1 h2
    show _ = (List.getD (List.getD _ q.agent.period []) k 0) * _
    rw [hper, getD_some h4, getD_some h5]
  rw [agentOutcome_eq (hc.spaceOf sol) hsol hp (le_trans one_le_two hu.nodes) hu.tax hu.care hreg hper hin] at h3
  have h4 := (Except.ok.inj h3).symm
  have hcont : ∀ x ch, uniformValue (spec.exp_grid.map fun y =>
      (cellOf (Spec.economy spec par biased dr we c.probChild c.probPartner) q.agent.state y).cont ch) x
      = Spec.outlook env par spec biased q.agent.state x ch := by
    intro x ch
    unfold Spec.outlook
    rw [onUnitInterval_eq (by rw [List.length_map]; exact hu.nodes)]
    congr 1
    exact List.map_congr_left fun y _ => planner_W hc hu hlast hint hin y ch
  have hval : q.out.value = Spec.worth env par spec biased k q.agent.subject := by
    rw [h4]
    funext ch
    unfold Spec.worth outcomeOf
    dsimp only
    rw [hcont, hshock]
    rfl
  have hch : q.out.choice = Spec.decision env par spec biased k q.agent.subject := by
    unfold Spec.decision
    rw [← hval, ← firstBest_eq, h4]
    rfl
  refine ⟨?_, hch, by rw [h4]; rfl⟩
  rw [recorded_full]
  unfold Spec.entryOf outRow
  dsimp only
  rw [← hch, ← hval]
  have hw : q.out.wage = Spec.trueWage spec par q.agent.state q.agent.stock e := by rw [h4]; rfl
  have hm : q.out.maleWage = Spec.partnerWage spec q.agent.state := by rw [h4]; rfl
  have hn : q.out.ncu = Spec.multiplier par q.agent.state := by rw [h4]; rfl
  have hf : q.out.flow = Spec.simFlow spec par q.agent.state q.agent.stock e := by rw [h4]; rfl
  have hco : q.out.cont = Spec.outlook env par spec biased q.agent.state q.agent.stock := by
    rw [h4]
    funext ch
    exact hcont _ ch
  rw [hw, hm, hn, hf, hco, hshock]
  rfl

theorem zipIdx_map_get {α β : Type} (l : List α) (f : α × Nat → β) (k : Nat) :
    (l.zipIdx.map f)[k]? = l[k]?.map fun a => f (a, k) := by
  rw [List.getElem?_map, List.getElem?_zipIdx, Option.map_map, Nat.zero_add]
  rfl

/-- The agents of every period are the population of the reference simulation. -/
theorem Run.population {env : Env S K} (L : RngLaws env.rng) {frame : Frame K} {par : ModelParams K}
    {spec : ModelSpec K} {biased : Bool} {g g' : S} {c : Cached K} (hc : CachedOk env spec biased g g' c)
    (hu : Usable spec par) (hread : readModelParams frame = .ok par)
    (hlast : -1 ≤ spec.last_child_bearing_period) {sol : Solution K} (hs : c.solve par = .ok sol)
    {draws : List (List K)} {initial : List (Agent K)} {m : Nat}
    (R : Run env.rng par spec (c.input sol) false draws initial m
      (env.rng.normal (env.rng.seed spec.seed_sim) spec.num_periods spec.num_agents_sim).2)
    (F : SimFacts env.rng par spec (c.input sol) c.probs false initial draws m)
    (hst : ∀ (i : Nat) b, initial[i]? = some b → Start env par spec i b) :
    ∀ t < spec.num_periods, (R.agents t).map Agent.subject = (Spec.population env par spec biased t).1 ∧
      R.gen t = (Spec.population env par spec biased t).2 := by
  have hp := readModelParams_fit hread hu
  intro t
  induction t with
  | zero =>
    intro _
    rw [R.agents_eq F.period_le, R.prev_zero, List.nil_append, R.gen_zero]
    exact ⟨entrants_eq hc hread hu.educ F hst 0, rfl⟩
  | succ t ih =>
    intro ht
    obtain ⟨i1, i2⟩ := ih (by omega)
    have hpop : ((R.rows t).map fun r => r.agent.person)
        = (Spec.population env par spec biased t).1.map Subject.person := by
      rw [← i1, ← R.rows_agent (by omega), List.map_map, List.map_map]
      rfl
    obtain ⟨d1, d2, d3⟩ := R.demography L (hc.spaceOf sol) (hc.exoOf sol) hu.agesFit hlast
      (F.inRange hu.agesFit) ht
    rw [hpop, i2] at d1 d2 d3
    refine ⟨?_, d3⟩
    rw [R.agents_eq F.period_le, List.map_append, entrants_eq hc hread hu.educ F hst (t + 1)]
    show _ = _ ++ _
    congr 1
    have hlen := (R.step L (t := t) (by omega)).length_eq
    have hrow : ∀ k : Nat, (Spec.population env par spec biased t).1[k]?
        = (R.rows t)[k]?.map fun r : Row K => r.agent.subject := by
      intro k
      rw [← i1, ← R.rows_agent (by omega), List.map_map, List.getElem?_map]
      rfl
    apply List.ext_getElem?
    intro k
    unfold Spec.grow
    dsimp only
    rw [zipIdx_map_get, hrow, List.getElem?_map]
    rcases Nat.lt_or_ge k (R.rows t).length with hk | hk
    · have hk' : k < (R.prev (t + 1)).length := by omega
      obtain ⟨a', e1⟩ : ∃ a', (R.prev (t + 1))[k]? = some a' := ⟨_, List.getElem?_eq_getElem hk'⟩
      have e2 := e1
      rw [R.prev_succ t (by omega)] at e2
      obtain ⟨r, x, q, h1, h2, h3, h4⟩ := stepAgents_get e2
      rw [e1, h1, h4]
      simp only [Option.map_some]
      have hr := List.mem_of_getElem? h1
      have hper := R.period_eq L t (by omega) r hr
      obtain ⟨hin, -⟩ := R.inRange L (hc.spaceOf sol) hu.agesFit (F.inRange hu.agesFit) t (by omega) r hr
      obtain ⟨-, hch, hpt⟩ := entryOf_eq (biased := biased) hc hu hp hlast hs F.draws hper hin
        (R.out_ok (by omega) h1)
      rw [d1] at h2
      rw [d2] at h3
      rw [getD_some h2, getD_some h3, ← hch]
      have hstock := stockNext_eq (Spec.plain spec par) r.agent.state r.agent.stock (r.out.choice : Nat)
      congr 1
      unfold Agent.subject stepAgent Subject.after Agent.state
      dsimp only
      rw [hpt]
      congr 1
      rw [← hper]
      exact hstock
    · rw [List.getElem?_eq_none (by omega), List.getElem?_eq_none hk]
      rfl

/-- A run of the simulator with cached objects is the reference simulation. -/
theorem runCached_panel {env : Env S K} (L : RngLaws env.rng) {frame : Frame K} {par : ModelParams K}
    {spec : ModelSpec K} {biased sparse : Bool} {g g' g1 g2 : S} {c : Cached K}
    (hc : CachedOk env spec biased g g' c) (hu : Usable spec par) (hread : readModelParams frame = .ok par)
    (hlast : -1 ≤ spec.last_child_bearing_period) {rows : List (OutRow K)}
    (h : runCached env c par spec sparse g1 = .ok (rows, g2)) :
    rows = (Spec.panel env par spec biased).map (fun r => if sparse then Spec.sparseRow r else r) ∧
      g2 = Spec.generatorAfter env par spec biased := by
  obtain ⟨sol, hs, h6⟩ := runCached_ok.1 h
  obtain ⟨initial, draws, m, R, F, hprep, hr, hg⟩ := pythSimulate_full L h6
  have hst := prepare_start L hc hprep
  have hp := readModelParams_fit hread hu
  have hpop := R.population L hc hu hread hlast hs F hst
  constructor
  · rw [hr]
    unfold Spec.panel
    rw [List.map_flatten, List.map_map, List.flatMap, List.map_flatten, List.map_map]
    congr 1
    refine List.map_congr_left fun t ht => ?_
    have ht' := List.mem_range.1 ht
    rw [Function.comp_apply, Function.comp_apply, ← (hpop t ht').1, ← R.rows_agent ht', List.map_map]
    apply List.ext_getElem?
    intro k
    rw [List.getElem?_map, zipIdx_map_get, List.getElem?_map, List.getElem?_map, Option.map_map,
      Option.map_map]
    cases hk : (R.rows t)[k]? with
    | none => rfl
    | some q =>
      have hq := List.mem_of_getElem? hk
      have hper := R.period_eq L t ht' q hq
      obtain ⟨hin, -⟩ := R.inRange L (hc.spaceOf sol) hu.agesFit (F.inRange hu.agesFit) t ht' q hq
      have he := (entryOf_eq (biased := biased) hc hu hp hlast hs F.draws hper hin (R.out_ok ht' hk)).1
      refine congrArg some ?_
      dsimp only [Function.comp_apply]
      rw [← he]
      cases sparse
      · rfl
      · exact recorded_sparse q
  · have hT := F.pos
    obtain ⟨T, hT'⟩ : ∃ T, spec.num_periods = T + 1 := ⟨spec.num_periods - 1, by omega⟩
    obtain ⟨i1, i2⟩ := hpop T (by omega)
    have hin := R.inRange L (hc.spaceOf sol) hu.agesFit (F.inRange hu.agesFit) T (by omega)
    have hmid : R.mid T = R.gen T := by
      have := R.ages_ok T (by omega)
      unfold nextChildAges at this
      rw [if_pos (by rw [hT']; push_cast; ring)] at this
      exact (Prod.mk.inj (Except.ok.inj this)).2.symm
    have hp2 : ∀ x ∈ R.agents T, x.partner < 2 := by
      intro x hx
      rw [← R.rows_agent (by omega)] at hx
      obtain ⟨r, hr, rfl⟩ := List.mem_map.1 hx
      exact (hin r hr).1.partner
    obtain ⟨-, e4⟩ := nextPartners_eq L (hc.exoOf sol) hp2 (R.partners_ok T (by omega))
    unfold Spec.generatorAfter
    have hag : (R.agents T).map Agent.person = (Spec.population env par spec biased T).1.map Subject.person := by
      rw [← i1, List.map_map]; rfl
    rw [hag, hmid, i2] at e4
    rw [hg, congrArg R.gen hT', e4, show spec.num_periods - 1 = T by omega]

/-- The output of `simulate` is the reference panel. -/
theorem output_panel {env : Env S K} {frame : Frame K} {a : Nat} {biased sparse : Bool} {w : World S K}
    {par : ModelParams K} {spec : ModelSpec K} {rows : List (OutRow K)}
    (h : Spec.Output env frame a biased sparse w par spec rows) (hu : Usable spec par)
    (hlast : -1 ≤ spec.last_child_bearing_period) :
    rows = (Spec.panel env par spec biased).map (fun r => if sparse then Spec.sparseRow r else r) := by
  obtain ⟨par', spec', st1, c, g1, g2, h1, h2, h3, h4⟩ := (simulate_ok h.closed h.addr).1 h.run
  obtain rfl : par' = par := Except.ok.inj (h1.symm.trans h.params)
  obtain ⟨st', hsp⟩ := h.spec_ok
  rw [h2] at hsp
  obtain ⟨-, rfl⟩ := Prod.mk.inj (Except.ok.inj hsp)
  exact (runCached_panel h.laws (buildCached_ok.1 h3) hu h.params hlast h4).1

end Soepy
