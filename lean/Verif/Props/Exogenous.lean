import Verif.Proof.Exogenous
import Verif.Props.Entry

/-!
# Births and partners in the simulated data (C40, C41, C42, C60)
-/

set_option linter.unusedSectionVars false

namespace Soepy.Props
open Soepy
variable {S K : Type} [Field K] [LinearOrder K] [IsStrictOrderedRing K] [FloorRing K] [Transc K]
  {env : Env S K} {frame : Frame K} {a : Nat} {biased : Bool} {w : World S K}
  {par : ModelParams K} {spec : ModelSpec K} {rows : List (OutRow K)}

/-! ## C40 -/

/-- **C40**  What the solver believes: births in period `t` with the entry of the file for period `t`,
partners with the entries for period `t`.  (`c.probChild` and `c.probPartner` are the tables of the Bellman
recursion in C26 - C30.) -/
theorem C40_beliefs {g g1 : S} {c : Cached K} (hc : buildCached env spec biased g = .ok (c, g1))
    (hlast : -1 ≤ spec.last_child_bearing_period) (draws weights : List K) {t e : Nat}
    (ht : t < spec.num_periods) (he : e < spec.num_educ_levels) :
    let eco := Spec.economy spec par biased draws weights c.probChild c.probPartner
    (e < 3 → eco.birth t e = Spec.birthTable env.disk spec t e) ∧
    eco.partner t e 0 1 = Spec.arrivalTable env.disk spec t e ∧
    eco.partner t e 0 0 = 1 - Spec.arrivalTable env.disk spec t e ∧
    eco.partner t e 1 0 = Spec.separationTable env.disk spec t e ∧
    eco.partner t e 1 1 = 1 - Spec.separationTable env.disk spec t e := by
  have h := buildCached_ok.1 hc
  have hp := probPartner_entry h.probPartner ht he
  refine ⟨fun h3 => probChild_entry hlast h.probChild ht h3, ?_, ?_, ?_, ?_⟩
  · show ((c.probPartner.getD t []).getD e fun _ _ => 0) 0 1 = _
    rw [hp]; rfl
  · show ((c.probPartner.getD t []).getD e fun _ _ => 0) 0 0 = _
    rw [hp]; rfl
  · show ((c.probPartner.getD t []).getD e fun _ _ => 0) 1 0 = _
    rw [hp]; rfl
  · show ((c.probPartner.getD t []).getD e fun _ _ => 0) 1 1 = _
    rw [hp]; rfl

/-- **C40** (partial)  What the simulator draws.  Starting from the generator left by the wage shocks, each
period uses one binomial draw per person present for births, then one per single for arrivals, then one per
couple for separations.  Arrivals and separations between `t` and `t + 1` have the probabilities of period
`t`, which are the solver's (`C40_beliefs`).  Births have the probability of the file for period `t + 1`,
while the solver uses the entry for period `t`: see `C40_fails`.  Missing for the full claim: equality for
births. -/
theorem C40_draws_partial (h : Spec.Output env frame a biased false w par spec rows)
    (hA : 0 ≤ spec.child_age_max) (hI : spec.child_age_init_max ≤ spec.child_age_max)
    (hlast : -1 ≤ spec.last_child_bearing_period) :
    ∃ gen : Nat → S,
      gen 0 = (env.rng.normal (env.rng.seed spec.seed_sim) spec.num_periods spec.num_agents_sim).2 ∧
      ∀ t, t + 1 < spec.num_periods →
        let pop := Spec.personsAt rows t
        let next := (Spec.personsAt rows (t + 1)).take pop.length
        let b := Spec.births env spec t pop (gen t)
        let ar := Spec.arrivals env spec t pop b.2
        let se := Spec.separations env spec t pop ar.2
        gen (t + 1) = se.2 ∧
        next.map Spec.Person.educ = pop.map Spec.Person.educ ∧
        next.map Spec.Person.age = Spec.agesNext spec pop b.1 ∧
        next.map Spec.Person.partner = Spec.partnersNext pop ar.1 se.1 := by
  obtain ⟨c, g1, sol, hc, hs, -, initial, draws, m, R, F, rfl⟩ := output_run h
  have hA' : AgesFit spec := ⟨hA, hI⟩
  refine ⟨R.gen, R.gen_zero, ?_⟩
  intro t ht
  have hpop : ∀ s, s < spec.num_periods →
      Spec.personsAt (((List.range spec.num_periods).map R.rows).flatten.map (recorded false)) s
        = (R.rows s).map fun r => r.agent.person := by
    intro s hs
    unfold Spec.personsAt
    rw [R.filter_period h.laws hs, List.map_map]
    exact List.map_congr_left fun q _ => personOf_recorded q
  rw [hpop t (by omega), hpop (t + 1) ht]
  intro pop next b ar se
  obtain ⟨d1, d2, d3⟩ := R.demography h.laws (hc.spaceOf sol) (hc.exoOf sol) hA' hlast (F.inRange hA') ht
  have hstep := R.step h.laws (show t < spec.num_periods by omega)
  have hlen : (R.prev (t + 1)).length = (R.rows t).length := hstep.length_eq.symm
  have hnext : next = (R.prev (t + 1)).map Agent.person := by
    show ((R.rows (t + 1)).map fun r => r.agent.person).take pop.length = _
    have e1 : ((R.rows (t + 1)).map fun r => r.agent.person) = (R.agents (t + 1)).map Agent.person := by
      rw [← R.rows_agent ht, List.map_map]; rfl
    rw [e1, R.agents_eq F.period_le, List.map_append]
    have e2 : pop.length = ((R.prev (t + 1)).map Agent.person).length := by
      show ((R.rows t).map _).length = _
      rw [List.length_map, List.length_map, hlen]
    rw [e2, List.take_left]
  have hget : ∀ (k : Nat) p, next[k]? = some p → ∃ r x q, (R.rows t)[k]? = some r ∧ (R.ages t)[k]? = some x ∧
      (R.partners t)[k]? = some q ∧ p = ({ educ := r.agent.educ, age := x, partner := q } : Spec.Person) := by
    intro k p hp
    rw [hnext, List.getElem?_map] at hp
    obtain ⟨a', ha, rfl⟩ := Option.map_eq_some_iff.1 hp
    rw [R.prev_succ t (by omega)] at ha
    obtain ⟨r, x, q, h1, h2, h3, rfl⟩ := stepAgents_get ha
    exact ⟨r, x, q, h1, h2, h3, rfl⟩
  have hl1 : next.length = (R.rows t).length := by rw [hnext, List.length_map, hlen]
  have hag := nextChildAges_forall₂ h.laws (R.ages_ok t (by omega))
  have hpa := nextPartners_forall₂ h.laws (R.partners_ok t (by omega))
  have hla : (R.ages t).length = (R.rows t).length := hag.length_eq.symm
  have hlp : (R.partners t).length = (R.rows t).length := by
    rw [← hpa.length_eq, ← List.length_map (as := R.rows t) Row.agent, R.rows_agent (by omega)]
    rfl
  refine ⟨d3, ?_, ?_, ?_⟩
  · apply List.ext_getElem?
    intro k
    rw [List.getElem?_map, List.getElem?_map]
    cases hk : next[k]? with
    | none =>
      rw [List.getElem?_eq_none_iff] at hk
      rw [List.getElem?_eq_none (by show ((R.rows t).map _).length ≤ k; rw [List.length_map]; omega)]
    | some p =>
      obtain ⟨r, x, q, h1, h2, h3, rfl⟩ := hget k p hk
      show _ = ((R.rows t).map _)[k]?.map _
      rw [List.getElem?_map, h1]
      rfl
  · rw [← d1]
    apply List.ext_getElem?
    intro k
    rw [List.getElem?_map]
    cases hk : next[k]? with
    | none =>
      rw [List.getElem?_eq_none_iff] at hk
      rw [List.getElem?_eq_none (by omega)]
      rfl
    | some p =>
      obtain ⟨r, x, q, h1, h2, h3, rfl⟩ := hget k p hk
      rw [h2]
      rfl
  · rw [← d2]
    apply List.ext_getElem?
    intro k
    rw [List.getElem?_map]
    cases hk : next[k]? with
    | none =>
      rw [List.getElem?_eq_none_iff] at hk
      rw [List.getElem?_eq_none (by omega)]
      rfl
    | some p =>
      obtain ⟨r, x, q, h1, h2, h3, rfl⟩ := hget k p hk
      rw [h3]
      rfl

/-- The probabilities behind binomial draws are in [0,1]. -/
theorem partner_probs_nonneg {rng : Rng S K} {inp : SimInput K} {t : Nat}
    {agents : List (Agent K)} {g : S} {r : List Nat × S} (h : nextPartners rng inp t agents g = .ok r) :
    (∀ x ∈ agents, x.partner = 0 → ∃ p, partnerProb inp t x.educ 0 1 = .ok p ∧ 0 ≤ p ∧ p ≤ 1) ∧
    (∀ x ∈ agents, x.partner = 1 → ∃ p, partnerProb inp t x.educ 1 0 = .ok p ∧ 0 ≤ p ∧ p ≤ 1) := by
  unfold nextPartners at h
  obtain ⟨⟨new1, g1⟩, hn, h⟩ := bind_ok.1 h
  dsimp only at h
  have core : ∀ (k : Nat) (i j : Fin 2) {ps : List K},
      mapE (fun x : Agent K => partnerProb inp t x.educ i j)
        (agents.filter fun x => decide (x.partner = k)) = .ok ps →
      (∀ p ∈ ps, 0 ≤ p ∧ p ≤ 1) → ∀ x ∈ agents, x.partner = k →
      ∃ p, partnerProb inp t x.educ i j = .ok p ∧ 0 ≤ p ∧ p ≤ 1 := by
    intro k i j ps hps hv x hx hk
    have hmem : x ∈ agents.filter fun x => decide (x.partner = k) :=
      List.mem_filter.2 ⟨hx, decide_eq_true hk⟩
    obtain ⟨n, hn, rfl⟩ := List.getElem_of_mem hmem
    have hl := mapE_length hps
    have := mapE_get hps n hn (hl ▸ hn)
    exact ⟨_, this, hv _ (List.getElem_mem _)⟩
  constructor
  · intro x hx hk
    by_cases he : (agents.filter fun a => decide (a.partner = 0)).isEmpty
    · rw [List.isEmpty_iff, List.filter_eq_nil_iff] at he
      exact absurd (decide_eq_true hk) (he x hx)
    · rw [if_neg he] at hn
      obtain ⟨ps, hps, hn⟩ := bind_ok.1 hn
      obtain ⟨⟨ds, g2⟩, hds, hn⟩ := bind_ok.1 hn
      exact core 0 0 1 hps (npBinomial_ok_iff.1 hds).1 x hx hk
  · intro x hx hk
    by_cases he : (agents.filter fun a => decide (a.partner = 1)).isEmpty
    · rw [List.isEmpty_iff, List.filter_eq_nil_iff] at he
      exact absurd (decide_eq_true hk) (he x hx)
    · rw [if_neg he] at h
      obtain ⟨ps, hps, h⟩ := bind_ok.1 h
      obtain ⟨⟨ds, g2⟩, hds, h⟩ := bind_ok.1 h
      exact core 1 1 0 hps (npBinomial_ok_iff.1 hds).1 x hx hk

/-- Two consecutive rows. -/
theorem exo_step (h : Spec.Output env frame a biased false w par spec rows)
    {r r' : OutRow K} (hr : r ∈ rows) (hr' : r' ∈ rows) (hn : Spec.Next r r') :
    ∃ (c : Cached K) (g1 : S) (sol : Solution K) (t : Nat) (q q' : Row K) (x : Int) (y : Nat),
      CachedOk env spec biased w.rng g1 c ∧ t + 1 < spec.num_periods ∧ q.agent.period = t ∧
      recorded false q = r ∧ recorded false q' = r' ∧ q'.agent = stepAgent spec t q x y ∧
      AgeStep spec (c.input sol) t q x ∧ PartnerStep (c.input sol) t q.agent y ∧
      (0 ≤ spec.child_age_max → spec.child_age_init_max ≤ spec.child_age_max →
        Spec.InRange spec q.agent.state ∧ q.out.idx = (rowOf spec q.agent.state : Int)) ∧
      (q.agent.partner = 0 → 0 ≤ Spec.arrivalTable env.disk spec t q.agent.educ) ∧
      (q.agent.partner = 1 → 0 ≤ Spec.separationTable env.disk spec t q.agent.educ) := by
  obtain ⟨c, g1, sol, hc, hs, -, initial, draws, m, R, F, rfl⟩ := output_run h
  obtain ⟨t, ht, q, hq, rfl⟩ := mem_recorded.1 hr
  obtain ⟨t', ht', q', hq', rfl⟩ := mem_recorded.1 hr'
  obtain ⟨hid, hp⟩ := hn
  rw [recorded_id, recorded_id] at hid
  rw [recorded_period, recorded_period, R.period_eq h.laws t ht q hq,
    R.period_eq h.laws t' ht' q' hq'] at hp
  obtain rfl : t' = t + 1 := by omega
  obtain ⟨x, y, h1, h2, he⟩ := R.next_row h.laws F.period_le F.nodup ht' hq hq' (by omega)
  obtain ⟨n1, n2⟩ := partner_probs_nonneg (R.partners_ok t ht)
  have hmem : q.agent ∈ R.agents t := by
    rw [← R.rows_agent ht]; exact List.mem_map_of_mem hq
  refine ⟨c, g1, sol, t, q, q', x, y, hc, ht', R.period_eq h.laws t ht q hq, rfl, rfl, he, h1, h2,
    fun hA hI => R.inRange h.laws (hc.spaceOf sol) ⟨hA, hI⟩ (F.inRange ⟨hA, hI⟩) t ht q hq, ?_, ?_⟩
  · intro h0
    obtain ⟨p, hp, hp0, -⟩ := n1 _ hmem h0
    have := partnerProb_eq (hc.exoOf sol) hp
    rw [this] at hp0
    exact hp0
  · intro h0
    obtain ⟨p, hp, hp0, -⟩ := n2 _ hmem h0
    have := partnerProb_eq (hc.exoOf sol) hp
    rw [this] at hp0
    exact hp0

/-- Files with no births in period 0, certain births in period 1. -/
def lateBirths : FileData := { exFiles with births := [0, 1, 0] }

theorem lateBirths_ok : lateBirths.Ok 4 := by
  constructor <;> (unfold lateBirths exFiles; decide +kernel)

theorem birthTable_ex [Transc ℚ] (f : FileData) (hermite : Nat → List ℚ × List ℚ) (t e : Nat) :
    Spec.birthTable (simEnv f hermite).disk simSpec t e
      = if (t : Int) ≤ 1 then Spec.tableEntry (f.disk "child") 3 3 t e else 0 := by
  unfold Spec.birthTable
  rw [specOf_facts.last, specOf_facts.files, specOf_facts.periods]
  rfl

/-- **C40** is false for births: with the files `lateBirths` agents plan in period 0 with birth probability
zero, but in the simulation everybody present in period 0 has a newborn in period 1. -/
theorem C40_fails [Transc ℚ] (hermite : Nat → List ℚ × List ℚ) (g : Nat) :
    ∃ rows, Spec.Output (simEnv lateBirths hermite) exFrame 0 false false (simWorld 4 g) exParams simSpec
        rows ∧
      (∃ c g1, buildCached (simEnv lateBirths hermite) simSpec false g = .ok (c, g1) ∧
        ∀ e < 2, ∀ draws weights,
          (Spec.economy simSpec exParams false draws weights c.probChild c.probPartner).birth 0 e = 0) ∧
      (∃ r ∈ rows, ∃ r' ∈ rows, r.period = 0 ∧ Spec.Next r r') ∧
      ∀ r ∈ rows, ∀ r' ∈ rows, r.period = 0 → Spec.Next r r' → r'.age = 0 := by
  obtain ⟨rows, h⟩ := exOutput lateBirths_ok hermite false false g
  refine ⟨rows, h, ?_, sim_consecutive h, ?_⟩
  · obtain ⟨c, g1, sol, hc, -⟩ := output_run h
    have hb := buildCached_ok.2 hc
    refine ⟨c, g1, hb, ?_⟩
    intro e he draws weights
    have := (C40_beliefs (par := exParams) hb (by rw [specOf_facts.last]; decide) draws weights (t := 0) (e := e)
      (by rw [specOf_facts.periods]; decide) (by rw [specOf_facts.educ]; exact he)).1 (by omega)
    rw [this, birthTable_ex]
    rcases (by omega : e = 0 ∨ e = 1) with rfl | rfl <;> decide +kernel
  · intro r hr r' hr' h0 hn
    obtain ⟨c, g1, sol, t, q, q', x, y, hc, ht, hp, rfl, rfl, he, hx, -, hin, -, -⟩ := exo_step h hr hr' hn
    obtain ⟨hin, -⟩ := hin (by rw [specOf_facts.amax]; decide)
      (by rw [specOf_facts.amax, specOf_facts.ainit]; decide)
    rw [recorded_period, hp] at h0
    obtain rfl : t = 0 := by omega
    rw [recorded_age, he]
    show x = 0
    have hone : ∀ {p}, birthProb (c.input sol) 0 q.agent.educ = .ok p → p = 1 := by
      intro p hp
      have h2 : q.agent.educ < simSpec.num_educ_levels := hin.educ
      rw [specOf_facts.educ] at h2
      rw [birthProb_eq (hc.exoOf sol) (by rw [specOf_facts.last]; decide) hp, birthTable_ex]
      rcases (by omega : q.agent.educ = 0 ∨ q.agent.educ = 1) with e | e <;> rw [e] <;> decide +kernel
    have hl := specOf_facts.last
    cases hx with
    | final h1 => rw [specOf_facts.periods] at h1; simp at h1
    | birth => rfl
    | noBirth _ _ h1 h2 => exact absurd (hone h1) h2
    | late _ h1 => exact absurd (by rw [hl]; decide) h1

/-- The hypotheses of `C40_draws_partial` hold in the example, which has two transitions. -/
example [Transc ℚ] (hermite : Nat → List ℚ × List ℚ) (g : Nat) :
    (∃ rows, Spec.Output (simEnv exFiles hermite) exFrame 0 false false (simWorld 4 g) exParams simSpec rows) ∧
    0 ≤ simSpec.child_age_max ∧ simSpec.child_age_init_max ≤ simSpec.child_age_max ∧
    -1 ≤ simSpec.last_child_bearing_period ∧ 0 + 1 < simSpec.num_periods ∧ 1 + 1 < simSpec.num_periods := by
  refine ⟨exOutput exFiles_ok hermite false false g, ?_⟩
  rw [specOf_facts.amax, specOf_facts.ainit, specOf_facts.last, specOf_facts.periods]
  decide

/-! ## C41 -/

/-- **C41**  A newborn in a period after entry is possible only up to the last child bearing period, and only
where the file has a non-zero probability for that period. -/
theorem C41_newborns_until_last_period (h : Spec.Output env frame a biased false w par spec rows)
    (hA : 0 ≤ spec.child_age_max) (hI : spec.child_age_init_max ≤ spec.child_age_max)
    {r r' : OutRow K} (hr : r ∈ rows) (hr' : r' ∈ rows) (hn : Spec.Next r r') (h0 : r'.age = 0) :
    r'.period ≤ spec.last_child_bearing_period ∧
      Spec.birthTable env.disk spec r'.period.toNat r'.educ.toNat ≠ 0 := by
  obtain ⟨c, g1, sol, t, q, q', x, y, hc, ht, hp, rfl, rfl, he, hx, -, hin, -, -⟩ := exo_step h hr hr' hn
  obtain ⟨hin, hidx⟩ := hin hA hI
  rw [recorded_age, he] at h0
  obtain rfl : x = 0 := h0
  have hper : q'.agent.period = t + 1 := by rw [he, ← hp]; rfl
  have hedu : q'.agent.educ = q.agent.educ := by rw [he]; rfl
  rw [recorded_period, hper, recorded_educ, hedu, Int.toNat_natCast, Int.toNat_natCast]
  rcases hx.succ (hc.spaceOf sol) hin hidx ht with ⟨-, hl, p, hb, hne⟩ | hold
  · have := birthProb_eq (hc.exoOf sol) (by omega) hb
    rw [this] at hne
    refine ⟨?_, hne⟩
    by_contra hc
    exact hne (if_neg hc)
  · exfalso
    have hlo : -1 ≤ q.agent.age := hin.ageLo
    unfold Spec.older at hold
    split_ifs at hold <;> omega

/-- **C41**  If all birth probabilities used are zero and nobody enters with a child, nobody ever has one. -/
theorem C41_no_births_no_children (h : Spec.Output env frame a biased false w par spec rows)
    (hA : 0 ≤ spec.child_age_max) (hI : spec.child_age_init_max ≤ spec.child_age_max)
    (hz : ∀ x ∈ env.disk spec.files.child_info, x.2 = 0)
    (he : ∀ r ∈ rows, Spec.Entry spec r → r.age = -1) : ∀ r ∈ rows, r.age = -1 := by
  have hz' : ∀ t e, Spec.birthTable env.disk spec t e = 0 := by
    intro t e
    unfold Spec.birthTable Spec.tableEntry
    split_ifs
    · rw [List.getD_eq_getElem?_getD]
      cases hx : (((env.disk spec.files.child_info).filter fun r => decide (r.1 < spec.num_periods)).map
          Prod.snd)[t * 3 + e]? with
      | none => rfl
      | some v =>
        obtain ⟨z, hz1, rfl⟩ := List.mem_map.1 (List.mem_of_getElem? hx)
        exact hz z (List.mem_filter.1 hz1).1
    · rfl
  obtain ⟨c, g1, sol, hc, hs, -, initial, draws, m, R, F, rfl⟩ := output_run h
  have hA' : AgesFit spec := ⟨hA, hI⟩
  have hage : ∀ t, t < spec.num_periods → ∀ q ∈ R.rows t, q.agent.age = -1 := by
    intro t
    induction t with
    | zero =>
      intro ht q hq
      rcases R.origin h.laws F.period_le ht hq with ⟨hm, -⟩ | ⟨t', h', -⟩
      · have := he _ (mem_recorded.2 ⟨0, ht, q, hq, rfl⟩) (by
          unfold Spec.Entry
          rw [recorded_educ, recorded_period, Int.toNat_natCast, Int.toNat_natCast]
          exact (F.mem hm).2.period)
        rwa [recorded_age] at this
      · omega
    | succ t ih =>
      intro ht q hq
      rcases R.origin h.laws F.period_le ht hq with ⟨hm, -⟩ | ⟨t', h', r0, hr0, x, y, hx, -, hst⟩
      · have := he _ (mem_recorded.2 ⟨t + 1, ht, q, hq, rfl⟩) (by
          unfold Spec.Entry
          rw [recorded_educ, recorded_period, Int.toNat_natCast, Int.toNat_natCast]
          exact (F.mem hm).2.period)
        rwa [recorded_age] at this
      · obtain rfl : t' = t := by omega
        obtain ⟨hin, hidx⟩ := R.inRange h.laws (hc.spaceOf sol) hA' (F.inRange hA') t' (by omega) r0 hr0
        rw [hst]
        show x = -1
        rcases hx.succ (hc.spaceOf sol) hin hidx ht with ⟨-, hl, p, hb, hne⟩ | hold
        · exact absurd ((birthProb_eq (hc.exoOf sol) (by omega) hb).trans (hz' _ _)) hne
        · rw [hold, ih (by omega) r0 hr0]
          rfl
  intro r hr
  obtain ⟨t, ht, q, hq, rfl⟩ := mem_recorded.1 hr
  rw [recorded_age]
  exact hage t ht q hq

/-- With `lateBirths` there are newborns in period 1 (the last child bearing period). -/
example [Transc ℚ] (hermite : Nat → List ℚ × List ℚ) (g : Nat) :
    ∃ rows, Spec.Output (simEnv lateBirths hermite) exFrame 0 false false (simWorld 4 g) exParams simSpec
      rows ∧ ∃ r ∈ rows, ∃ r' ∈ rows, Spec.Next r r' ∧ r'.age = 0 := by
  obtain ⟨rows, h, -, ⟨r, hr, r', hr', h0, hn⟩, hall⟩ := C40_fails hermite g
  exact ⟨rows, h, r, hr, r', hr', hn, hall r hr r' hr' h0 hn⟩

/-! ## C60 -/

/-- **C60**  Partner status is always 0 or 1. -/
theorem C60_partner_status (h : Spec.Output env frame a biased false w par spec rows) :
    ∀ r ∈ rows, r.partner = 0 ∨ r.partner = 1 := by
  obtain ⟨c, g1, sol, hc, hs, -, initial, draws, m, R, F, rfl⟩ := output_run h
  have key := R.induct h.laws (fun _ x => x.partner < 2)
    (fun x hx => by
      obtain ⟨p, -, -, -, hd⟩ := (F.mem hx).2.partner
      rcases hd with ⟨e, -⟩ | ⟨e, -⟩ <;> omega)
    (fun t ht r hr hlt x q _ hq => by show q < 2; exact hq.lt hlt)
  intro r hr
  obtain ⟨t, ht, q, hq, rfl⟩ := mem_recorded.1 hr
  have := key t ht q hq
  rw [recorded_partner]
  omega

/-- **C60**  A single finds a partner only if the arrival probability of the period is positive, and always if
it is one; a couple separates only if the separation probability is positive, and always if it is one. -/
theorem C60_partner_transitions (h : Spec.Output env frame a biased false w par spec rows)
    {r r' : OutRow K} (hr : r ∈ rows) (hr' : r' ∈ rows) (hn : Spec.Next r r') :
    let arrival := Spec.arrivalTable env.disk spec r.period.toNat r.educ.toNat
    let separation := Spec.separationTable env.disk spec r.period.toNat r.educ.toNat
    (r.partner = 0 → r'.partner = 1 → 0 < arrival) ∧ (r.partner = 0 → arrival = 1 → r'.partner = 1) ∧
    (r.partner = 1 → r'.partner = 0 → 0 < separation) ∧ (r.partner = 1 → separation = 1 → r'.partner = 0) := by
  obtain ⟨c, g1, sol, t, q, q', x, y, hc, ht, hp, rfl, rfl, he, -, hy, -, n1, n2⟩ := exo_step h hr hr' hn
  intro arrival separation
  have e1 : arrival = Spec.arrivalTable env.disk spec t q.agent.educ := by
    show Spec.arrivalTable _ _ _ _ = _
    rw [recorded_period, recorded_educ, hp, Int.toNat_natCast, Int.toNat_natCast]
  have e2 : separation = Spec.separationTable env.disk spec t q.agent.educ := by
    show Spec.separationTable _ _ _ _ = _
    rw [recorded_period, recorded_educ, hp, Int.toNat_natCast, Int.toNat_natCast]
  have e3 : q'.agent.partner = y := by rw [he]; rfl
  rw [e1, e2, recorded_partner, recorded_partner, e3]
  have hq := fun {old new : Fin 2} {p : K} (h : partnerProb (c.input sol) t q.agent.educ old new = .ok p) =>
    partnerProb_eq (hc.exoOf sol) h
  refine ⟨?_, ?_, ?_, ?_⟩
  · intro h0 h1
    have h0 : q.agent.partner = 0 := by omega
    cases hy with
    | arrive h2 h3 h4 => rw [hq h3] at h4; exact lt_of_le_of_ne (n1 h0) (Ne.symm h4)
    | single h2 h3 h4 => simp at h1
    | separate h2 h3 h4 => omega
    | together h2 h3 h4 => omega
    | other h2 h3 => omega
  · intro h0 h1
    have h0 : q.agent.partner = 0 := by omega
    cases hy with
    | arrive h2 h3 h4 => rfl
    | single h2 h3 h4 => rw [hq h3] at h4; exact absurd h1 h4
    | separate h2 h3 h4 => omega
    | together h2 h3 h4 => omega
    | other h2 h3 => omega
  · intro h0 h1
    have h0 : q.agent.partner = 1 := by omega
    cases hy with
    | arrive h2 h3 h4 => omega
    | single h2 h3 h4 => omega
    | separate h2 h3 h4 => rw [hq h3] at h4; exact lt_of_le_of_ne (n2 h0) (Ne.symm h4)
    | together h2 h3 h4 => simp at h1
    | other h2 h3 => omega
  · intro h0 h1
    have h0 : q.agent.partner = 1 := by omega
    cases hy with
    | arrive h2 h3 h4 => omega
    | single h2 h3 h4 => omega
    | separate h2 h3 h4 => rfl
    | together h2 h3 h4 => rw [hq h3] at h4; exact absurd h1 h4
    | other h2 h3 => omega

/-- **C60**  Without arrivals and without partners at entry nobody ever has a partner, nor a partner's wage. -/
theorem C60_no_arrivals_no_partners (h : Spec.Output env frame a biased false w par spec rows)
    (hA : 0 ≤ spec.child_age_max) (hI : spec.child_age_init_max ≤ spec.child_age_max)
    (hz : ∀ x ∈ env.disk spec.files.partner_arrival, x.2 = 0)
    (he : ∀ r ∈ rows, Spec.Entry spec r → r.partner = 0) :
    ∀ r ∈ rows, r.partner = 0 ∧ ∃ d, r.detail = some d ∧ d.maleWage = 0 := by
  have hz' : ∀ t e, Spec.arrivalTable env.disk spec t e = 0 := by
    intro t e
    unfold Spec.arrivalTable Spec.tableEntry
    rw [List.getD_eq_getElem?_getD]
    cases hx : (((env.disk spec.files.partner_arrival).filter fun r => decide (r.1 < spec.num_periods)).map
        Prod.snd)[t * spec.num_educ_levels + e]? with
    | none => rfl
    | some v =>
      obtain ⟨z, hz1, rfl⟩ := List.mem_map.1 (List.mem_of_getElem? hx)
      exact hz z (List.mem_filter.1 hz1).1
  obtain ⟨c, g1, sol, hc, hs, -, initial, draws, m, R, F, rfl⟩ := output_run h
  have hA' : AgesFit spec := ⟨hA, hI⟩
  have hpart : ∀ t, t < spec.num_periods → ∀ q ∈ R.rows t, q.agent.partner = 0 := by
    intro t
    induction t with
    | zero =>
      intro ht q hq
      rcases R.origin h.laws F.period_le ht hq with ⟨hm, -⟩ | ⟨t', h', -⟩
      · have := he _ (mem_recorded.2 ⟨0, ht, q, hq, rfl⟩) (by
          unfold Spec.Entry
          rw [recorded_educ, recorded_period, Int.toNat_natCast, Int.toNat_natCast]
          exact (F.mem hm).2.period)
        rw [recorded_partner] at this
        omega
      · omega
    | succ t ih =>
      intro ht q hq
      rcases R.origin h.laws F.period_le ht hq with ⟨hm, -⟩ | ⟨t', h', r0, hr0, x, y, -, hy, hst⟩
      · have := he _ (mem_recorded.2 ⟨t + 1, ht, q, hq, rfl⟩) (by
          unfold Spec.Entry
          rw [recorded_educ, recorded_period, Int.toNat_natCast, Int.toNat_natCast]
          exact (F.mem hm).2.period)
        rw [recorded_partner] at this
        omega
      · obtain rfl : t' = t := by omega
        have h0 := ih (by omega) r0 hr0
        rw [hst]
        show y = 0
        cases hy with
        | arrive h2 h3 h4 => exact absurd ((partnerProb_eq (hc.exoOf sol) h3).trans (hz' _ _)) h4
        | single h2 h3 h4 => rfl
        | separate h2 h3 h4 => rfl
        | together h2 h3 h4 => omega
        | other h2 h3 => exact absurd h0 h2
  intro r hr
  obtain ⟨t, ht, q, hq, rfl⟩ := mem_recorded.1 hr
  have h0 := hpart t ht q hq
  refine ⟨by rw [recorded_partner, h0]; rfl, _, recorded_detail q, ?_⟩
  obtain ⟨hin, hidx⟩ := R.inRange h.laws (hc.spaceOf sol) hA' (F.inRange hA') t ht q hq
  obtain ⟨e, ho⟩ := R.out_ok_mem ht hq
  obtain ⟨-, -, -, -, -, -, ⟨cov, h1, h2⟩, -⟩ := agentOutcome_ok ho
  rw [hidx, (hc.spaceOf sol).covariates] at h1
  have h3 := npGet_nat h1
  rw [List.getElem?_map, states_rowOf hin, Option.map_some] at h3
  show q.out.maleWage = 0
  rw [h2, ← Option.some.inj h3]
  have : q.agent.state.partner = 0 := h0
  simp [covOf, this]

/-- Files without children at entry, births, partners at entry and arrivals. -/
def noFamily : FileData :=
  { exFiles with ages := [1, 0, 0, 0], births := [0, 0, 0], partner := 0, arrival := 0 }

theorem noFamily_ok : noFamily.Ok 4 := by
  constructor <;> (unfold noFamily exFiles; decide +kernel)

/-- The rows at entry in a simulation with the files `noFamily`. -/
theorem noFamily_entry [Transc ℚ] {hermite : Nat → List ℚ × List ℚ} {g : Nat} {rows : List (OutRow ℚ)}
    (h : Spec.Output (simEnv noFamily hermite) exFrame 0 false false (simWorld 4 g) exParams simSpec rows) :
    ∀ r ∈ rows, Spec.Entry simSpec r → r.age = -1 ∧ r.partner = 0 := by
  intro r hr he
  have hE : simSpec.num_educ_levels ≤ 3 := by rw [specOf_facts.educ]; decide
  obtain ⟨-, -, -, -, c, g1, hc, j, hj, h1, ⟨p, h2, -, -, h3⟩, -⟩ := entry_row h hE hr he
  have hc := buildCached_ok.1 hc
  constructor
  · have e1 := hc.childAge
    have e2 : genProbInitExpComponentVector (noFamily.disk "ages") simSpec = .ok c.probs.childAge := by
      rw [← e1]
      unfold genProbChildInitAgeVector readFiles
      rw [specOf_facts.files]
      rfl
    obtain ⟨q, hq, hq0⟩ := drawn_share specOf_facts.educ e2 h1
    have hj0 : j = 0 := by
      have hlt : j < 4 := (List.getElem?_eq_some_iff.1 hq).1
      have : j = 0 ∨ j = 1 ∨ j = 2 ∨ j = 3 := by omega
      rcases this with rfl | rfl | rfl | rfl
      · rfl
      all_goals
        obtain rfl := Option.some.inj hq
        exact absurd hq0 (lt_irrefl _)
    rw [hj, hj0]
    rfl
  · have hp : p = 0 := by
      rw [hc.partnerPresent, specOf_facts.files] at h2
      have h2 : ([0, 0] : List ℚ)[r.educ.toNat]? = some p := h2
      have hlt := (List.getElem?_eq_some_iff.1 h2).1
      simp only [List.length_cons, List.length_nil] at hlt
      have : r.educ.toNat = 0 ∨ r.educ.toNat = 1 := by omega
      rcases this with e | e <;> rw [e] at h2 <;> exact (Option.some.inj h2).symm
    rcases h3 with ⟨h3, -⟩ | ⟨-, h3⟩
    · have := C60_partner_status h r hr
      omega
    · exact absurd hp h3

/-- The hypotheses of `C41_no_births_no_children` and `C60_no_arrivals_no_partners` are met by a simulation
with 12 rows. -/
example [Transc ℚ] (hermite : Nat → List ℚ × List ℚ) (g : Nat) :
    ∃ rows, Spec.Output (simEnv noFamily hermite) exFrame 0 false false (simWorld 4 g) exParams simSpec rows ∧
      rows.length = 12 ∧
      (∀ x ∈ (simEnv noFamily hermite).disk simSpec.files.child_info, x.2 = 0) ∧
      (∀ x ∈ (simEnv noFamily hermite).disk simSpec.files.partner_arrival, x.2 = 0) ∧
      (∀ r ∈ rows, Spec.Entry simSpec r → r.age = -1) ∧
      (∀ r ∈ rows, Spec.Entry simSpec r → r.partner = 0) := by
  obtain ⟨rows, h⟩ := exOutput noFamily_ok hermite false false g
  refine ⟨rows, h, ?_, ?_, ?_, fun r hr he => (noFamily_entry h r hr he).1,
    fun r hr he => (noFamily_entry h r hr he).2⟩
  · rw [C34_row_count h, specOf_facts.periods, specOf_facts.years, sim_education]
    decide
  · rw [specOf_facts.files]
    show ∀ x ∈ noFamily.disk "child", x.2 = 0
    decide +kernel
  · rw [specOf_facts.files]
    show ∀ x ∈ noFamily.disk "arr", x.2 = 0
    decide +kernel

/-- `C60_partner_transitions` is about simulations with consecutive rows. -/
example [Transc ℚ] (hermite : Nat → List ℚ × List ℚ) (g : Nat) :
    ∃ rows, Spec.Output (simEnv exFiles hermite) exFrame 0 false false (simWorld 4 g) exParams simSpec rows ∧
      ∃ r ∈ rows, ∃ r' ∈ rows, r.period = 0 ∧ Spec.Next r r' := by
  obtain ⟨rows, h⟩ := exOutput exFiles_ok hermite false false g
  exact ⟨rows, h, sim_consecutive h⟩

/-! ## C42 -/

/-- **C42**  Two simulations with the same specification, input files and generator (any parameters, any
beliefs, whatever happened before in the process): the rows are in the same order and agree in agent, period,
education, age of the youngest child and partner status. -/
theorem C42_common_trajectories {frame' : Frame K} {a' : Nat} {biased' : Bool} {w' : World S K}
    {par' : ModelParams K} {rows' : List (OutRow K)}
    (h : Spec.Output env frame a biased false w par spec rows)
    (h' : Spec.Output env frame' a' biased' false w' par' spec rows')
    (hA : 0 ≤ spec.child_age_max) (hI : spec.child_age_init_max ≤ spec.child_age_max)
    (hlast : -1 ≤ spec.last_child_bearing_period) :
    rows.map (fun r => (r.id, r.period, r.educ, r.age, r.partner))
      = rows'.map (fun r => (r.id, r.period, r.educ, r.age, r.partner)) ∧
    (par.type_shares = par'.type_shares → rows.map OutRow.type = rows'.map OutRow.type) ∧
    rows.map (Spec.standardShock env spec) = rows'.map (Spec.standardShock env spec) := by
  obtain ⟨c, g1, sol, hc, hs, ⟨g2, hp⟩, -⟩ := output_run h
  obtain ⟨initial, draws, m, R, F, hprep, rfl⟩ := pythSimulate_run h.laws hp
  obtain ⟨c', g1', sol', hc', hs', ⟨g2', hp'⟩, -⟩ := output_run h'
  obtain ⟨initial', draws', m', R', F', hprep', rfl⟩ := pythSimulate_run h'.laws hp'
  have hA' : AgesFit spec := ⟨hA, hI⟩
  obtain rfl : m = m' := Except.ok.inj (F.maxEntry.symm.trans F'.maxEntry)
  have p1 : c.probs.educ = c'.probs.educ := hc.educ.trans hc'.educ.symm
  have p2 : c.probs.childAge = c'.probs.childAge := Except.ok.inj (hc.childAge.symm.trans hc'.childAge)
  have p3 : c.probs.partnerPresent = c'.probs.partnerPresent := hc.partnerPresent.trans hc'.partnerPresent.symm
  have p4 : c.probs.expPt = c'.probs.expPt := Except.ok.inj (hc.expPt.symm.trans hc'.expPt)
  have p5 : c.probs.expFt = c'.probs.expFt := Except.ok.inj (hc.expFt.symm.trans hc'.expFt)
  rw [p1, p2, p3, p4, p5] at hprep
  have key : ∀ ty : Bool, (ty = true → par.type_shares = par'.type_shares) →
      (((List.range spec.num_periods).map R.rows).flatten).map (fun q => q.agent.exo ty)
      = (((List.range spec.num_periods).map R'.rows).flatten).map (fun q => q.agent.exo ty) := by
    intro ty hty
    have hi := prepare_common h.laws hty hprep hprep'
    have hrun := R.common h.laws R' (hc.spaceOf sol) (hc'.spaceOf sol') (hc.exoOf sol) (hc'.exoOf sol')
      hA' hlast (F.inRange hA') (F'.inRange hA') hi
    rw [List.map_flatten, List.map_flatten, List.map_map, List.map_map]
    congr 1
    refine List.map_congr_left fun t ht => ?_
    exact (hrun t (List.mem_range.1 ht)).1
  have first : (((List.range spec.num_periods).map R.rows).flatten.map (recorded false)).map
        (fun r => (r.id, r.period, r.educ, r.age, r.partner))
      = (((List.range spec.num_periods).map R'.rows).flatten.map (recorded false)).map
        (fun r => (r.id, r.period, r.educ, r.age, r.partner)) := by
    have := congrArg (List.map fun p : Nat × Nat × Spec.Person × Nat =>
      ((p.1 : Int), (p.2.1 : Int), (p.2.2.1.educ : Int), p.2.2.1.age, (p.2.2.1.partner : Int)))
      (key false (by simp))
    rw [List.map_map, List.map_map] at this ⊢
    have conv : ∀ l : List (Row K), l.map ((fun r : OutRow K => (r.id, r.period, r.educ, r.age, r.partner)) ∘
        recorded false) = l.map ((fun p : Nat × Nat × Spec.Person × Nat =>
          ((p.1 : Int), (p.2.1 : Int), (p.2.2.1.educ : Int), p.2.2.1.age, (p.2.2.1.partner : Int))) ∘
          fun q => q.agent.exo false) := by
      intro l
      refine List.map_congr_left fun q _ => ?_
      simp only [Function.comp_apply, recorded_id, recorded_period, recorded_educ, recorded_age,
        recorded_partner]
      rfl
    rw [conv, conv]
    exact this
  refine ⟨first, ?_, ?_⟩
  · intro hty
    have := congrArg (List.map fun p : Nat × Nat × Spec.Person × Nat => (p.2.2.2 : Int)) (key true fun _ => hty)
    rw [List.map_map, List.map_map] at this ⊢
    have conv : ∀ l : List (Row K), l.map (OutRow.type ∘ recorded false)
        = l.map ((fun p : Nat × Nat × Spec.Person × Nat => (p.2.2.2 : Int)) ∘ fun q => q.agent.exo true) := by
      intro l
      refine List.map_congr_left fun q _ => ?_
      exact (recorded_rowIs q).type
    rw [conv, conv]
    exact this
  · have := congrArg (List.map fun p : Int × Int × Int × Int × Int =>
      ((Spec.normalDraws env spec).getD p.2.1.toNat []).getD (Spec.column env spec p.1) 0) first
    simpa only [List.map_map, Function.comp_def, Spec.standardShock] using this

/-- Two simulations with different shocks and discount factors, different beliefs and different generators
before the call. -/
example [Transc ℚ] (hermite : Nat → List ℚ × List ℚ) :
    (∃ rows, Spec.Output (simEnv exFiles hermite) exFrame 0 false false (simWorld 4 7) exParams simSpec rows) ∧
    (∃ rows, Spec.Output (simEnv exFiles hermite) exFrame2 0 true false (simWorld 4 9) exParams2 simSpec rows) ∧
    exParams.shock_sd ≠ exParams2.shock_sd ∧ exParams.type_shares = exParams2.type_shares ∧
    0 ≤ simSpec.child_age_max ∧ simSpec.child_age_init_max ≤ simSpec.child_age_max ∧
    -1 ≤ simSpec.last_child_bearing_period := by
  refine ⟨exOutput exFiles_ok hermite false false 7, exOutput2 exFiles_ok hermite true false 9, ?_, ?_, ?_⟩
  · rw [exFacts.sd, exFacts2.sd]; norm_num
  · rw [exFacts.shares, exFacts2.shares]
  · rw [specOf_facts.amax, specOf_facts.ainit, specOf_facts.last]
    decide

end Soepy.Props
