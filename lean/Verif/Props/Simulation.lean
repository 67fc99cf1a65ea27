import Verif.Proof.Panel
import Verif.Props.SimExample

/-!
# Properties of the simulated data (C34 - C37, C39)

All statements are about the rows returned by `simulate`; see `Spec.Output`.
-/

set_option linter.unusedSectionVars false

namespace Soepy.Props
open Soepy
variable {S K : Type} [Field K] [LinearOrder K] [IsStrictOrderedRing K] [FloorRing K] [Transc K]
  {env : Env S K} {frame : Frame K} {a : Nat} {biased : Bool} {w : World S K}
  {par : ModelParams K} {spec : ModelSpec K} {rows : List (OutRow K)}

/-! ## C34 -/

/-- Agent `i` is in the model in period `t`: schooling is over and the horizon is not reached. -/
def Present (env : Env S K) (spec : ModelSpec K) (i t : Nat) : Prop :=
  t < spec.num_periods ∧ ∃ e y, (Spec.drawnEducation env spec)[i]? = some e ∧
    spec.educ_years[e]? = some y ∧ y ≤ t

open Classical in
/-- **C34**  The data contain exactly one row for agent `i` and period `t` if the agent is present, and
none otherwise. -/
theorem C34_one_row_per_agent_and_period (h : Spec.Output env frame a biased false w par spec rows)
    (i t : Nat) :
    rows.countP (fun r => decide (r.id = (i : Int)) && decide (r.period = (t : Int)))
      = if Present env spec i t then 1 else 0 := by
  obtain ⟨c, g1, sol, hc, hs, -, initial, draws, m, R, F, rfl⟩ := output_run h
  have hle := F.period_le
  rw [List.countP_map, List.countP_flatten, List.map_map]
  rw [sum_range_single _ t]
  · unfold Present
    by_cases ht : t < spec.num_periods
    · rw [if_pos ht]
      have e1 : (R.rows t).countP ((fun r : OutRow K => decide (r.id = i) && decide (r.period = t)) ∘
          recorded false) = (R.rows t).countP (fun q => decide (q.agent.id = i)) := by
        refine List.countP_congr fun q hq => ?_
        have := R.period_eq h.laws t ht q hq
        simp [recorded_id, recorded_period, this]
      show (R.rows t).countP _ = _
      rw [e1, R.count_id h.laws hle F.nodup ht]
      have e2 : (∃ x ∈ initial, x.id = i ∧ x.period ≤ t) ↔ (t < spec.num_periods ∧ ∃ e y,
          (Spec.drawnEducation env spec)[i]? = some e ∧ spec.educ_years[e]? = some y ∧ y ≤ t) := by
        unfold Spec.drawnEducation
        rw [← hc.educ]
        constructor
        · rintro ⟨x, hx, rfl, hp⟩
          obtain ⟨-, hE⟩ := F.mem hx
          exact ⟨ht, x.educ, x.period, hE.educ, hE.period, hp⟩
        · rintro ⟨-, e, y, he, hy, hyt⟩
          obtain ⟨hlt, -⟩ := List.getElem?_eq_some_iff.1 he
          rw [F.educ_len, ← F.len] at hlt
          have hE := F.entry i _ (List.getElem?_eq_getElem hlt)
          have e3 := hE.educ.symm.trans he
          have e4 : (initial[i]).educ = e := Option.some.inj e3
          have e5 := hE.period
          rw [e4, hy] at e5
          exact ⟨initial[i], List.getElem_mem _, hE.id, by rw [← Option.some.inj e5]; exact hyt⟩
      by_cases hx : ∃ x ∈ initial, x.id = i ∧ x.period ≤ t
      · rw [if_pos hx, if_pos (e2.1 hx)]
      · rw [if_neg hx, if_neg fun hc => hx (e2.2 hc)]
    · rw [if_neg ht, if_neg fun hc => ht hc.1]
  · intro s hs hne
    show (R.rows s).countP _ = 0
    rw [List.countP_eq_zero]
    intro q hq
    have := R.period_eq h.laws s hs q hq
    simp only [Function.comp, recorded_period, this, Bool.and_eq_true, decide_eq_true_eq, not_and]
    omega

/-- **C34**  Every row belongs to an agent and a period counted above and shows the education level drawn
for that agent. -/
theorem C34_rows_belong_to_agents (h : Spec.Output env frame a biased false w par spec rows) :
    (Spec.drawnEducation env spec).length = spec.num_agents_sim ∧
    ∀ r ∈ rows, ∃ i t e : Nat, r.id = i ∧ r.period = t ∧ r.educ = e ∧
      (Spec.drawnEducation env spec)[i]? = some e ∧ Present env spec i t := by
  obtain ⟨c, g1, sol, hc, hs, -, initial, draws, m, R, F, rfl⟩ := output_run h
  have hle := F.period_le
  refine ⟨by unfold Spec.drawnEducation; rw [← hc.educ]; exact F.educ_len, ?_⟩
  intro r hr
  obtain ⟨t, ht, q, hq, rfl⟩ := mem_recorded.1 hr
  obtain ⟨x, hx, h1, h2, -, h3⟩ := R.educ_eq h.laws t ht q hq
  obtain ⟨-, hE⟩ := F.mem hx
  have hed : (Spec.drawnEducation env spec)[q.agent.id]? = some q.agent.educ := by
    unfold Spec.drawnEducation
    rw [← hc.educ, ← h1, ← h2]
    exact hE.educ
  refine ⟨q.agent.id, t, q.agent.educ, recorded_id q, ?_, recorded_educ q, hed, ht, q.agent.educ, x.period,
    hed, ?_, h3⟩
  · rw [recorded_period, R.period_eq h.laws t ht q hq]
  · rw [← h2]; exact hE.period

/-- **C34**  The number of rows: every agent contributes the periods from entry to the horizon. -/
theorem C34_row_count (h : Spec.Output env frame a biased false w par spec rows) :
    rows.length = ((Spec.drawnEducation env spec).map fun e =>
      spec.num_periods - spec.educ_years.getD e 0).sum := by
  obtain ⟨c, g1, sol, hc, hs, -, initial, draws, m, R, F, rfl⟩ := output_run h
  have hle := F.period_le
  rw [List.length_map, List.length_flatten, List.map_map]
  have e1 : (List.range spec.num_periods).map (List.length ∘ R.rows)
      = (List.range spec.num_periods).map fun t =>
        (initial.map fun x => if x.period ≤ t then 1 else 0).sum := by
    refine List.map_congr_left fun t ht => ?_
    exact R.rows_length h.laws hle (List.mem_range.1 ht)
  rw [e1, sum_swap]
  simp only [sum_range_present]
  unfold Spec.drawnEducation
  rw [← hc.educ]
  congr 1
  apply List.ext_getElem?
  intro i
  rw [List.getElem?_map, List.getElem?_map]
  by_cases hi : i < initial.length
  · have hE := F.entry i _ (List.getElem?_eq_getElem hi)
    rw [List.getElem?_eq_getElem hi, hE.educ]
    simp [hE.period]
  · rw [List.getElem?_eq_none (by omega), List.getElem?_eq_none (by rw [F.educ_len, ← F.len]; omega)]
    rfl

/-- The education levels drawn in the example. -/
theorem sim_education [Transc ℚ] {f : FileData} (hermite : Nat → List ℚ × List ℚ) :
    Spec.drawnEducation (simEnv f hermite) simSpec = [1, 0, 1, 0, 1] := by
  unfold Spec.drawnEducation
  rw [specOf_facts.seed, specOf_facts.agents, specOf_facts.files]
  show ((altRng ℚ).choice ((altRng ℚ).seed 1) 5 [1/2, 1/2]).1 = _
  decide +kernel

/-- In the example agents 1 and 3 enter in period 0, agents 0, 2 and 4 in period 1 (three years of
horizon): 12 rows. -/
example [Transc ℚ] (hermite : Nat → List ℚ × List ℚ) (g : Nat) :
    ∃ rows, Spec.Output (simEnv exFiles hermite) exFrame 0 false false (simWorld 4 g) exParams simSpec rows ∧
      rows.length = 12 := by
  obtain ⟨rows, h⟩ := exOutput exFiles_ok hermite false false g
  refine ⟨rows, h, ?_⟩
  rw [C34_row_count h, specOf_facts.periods, specOf_facts.years]
  rw [sim_education]
  decide

/-! ## C35 -/

/-- **C35**  Every row is valued at its own state: there is a row `k` of the state space which holds exactly
the agent's period, education, lagged choice, type, child age and partner status, and the recorded male
wage, utilities and continuation values are those stored for row `k`. -/
theorem C35_agents_matched_to_their_state (h : Spec.Output env frame a biased false w par spec rows)
    (hA : 0 ≤ spec.child_age_max) (hI : spec.child_age_init_max ≤ spec.child_age_max) :
    ∃ c g1 sol, buildCached env spec biased w.rng = .ok (c, g1) ∧ c.solve par = .ok sol ∧
      ∀ r ∈ rows, ∃ (k : Nat) (s : State) (d : Detail K) (cov : Covariate K) (cells : List (Cell K)),
        c.space.states[k]? = some s ∧ Spec.RowIs r s ∧ r.detail = some d ∧
        c.space.covariates[k]? = some cov ∧ d.maleWage = cov.maleWage ∧
        sol.nonConsumptionUtilities[k]? = some d.ncu ∧ sol.emaxs[k]? = some cells ∧
        ∀ j, interpUniformGrid (cells.map fun cell => cell.cont j) r.stock = .ok (d.cont j) := by
  obtain ⟨c, g1, sol, hc, hs, -, initial, draws, m, R, F, rfl⟩ := output_run h
  refine ⟨c, g1, sol, buildCached_ok.2 hc, hs, ?_⟩
  intro r hr
  obtain ⟨t, ht, q, hq, rfl⟩ := mem_recorded.1 hr
  obtain ⟨hin, hidx⟩ := R.inRange h.laws (hc.spaceOf sol) ⟨hA, hI⟩ (F.inRange ⟨hA, hI⟩) t ht q hq
  obtain ⟨e, ho⟩ := R.out_ok_mem ht hq
  obtain ⟨-, -, -, -, -, -, ⟨cov, h1, h2⟩, h3, cells, h4, h5⟩ := agentOutcome_ok ho
  rw [hidx] at h1 h3 h4
  refine ⟨rowOf spec q.agent.state, q.agent.state, _, cov, cells, ?_, recorded_rowIs q, recorded_detail q,
    npGet_nat h1, h2, npGet_nat h3, npGet_nat h4, ?_⟩
  · rw [hc.space_eq]; exact states_rowOf hin
  · intro j
    rw [recorded_stock]
    exact h5 j

/-- **C35**  No lookup raises: on readable, fitting inputs `simulate` returns. -/
theorem C35_simulation_never_raises {env : Env S K} {frame : Frame K} {a : Nat} {w : World S K}
    {par : ModelParams K} {spec : ModelSpec K} (laws : RngLaws env.rng) (closed : Closed w.store)
    (addr : a < w.store.length) (params : readModelParams frame = .ok par)
    (spec_ok : ∃ st', readModelSpec w.store a (specNumTypes frame) = .ok (st', spec))
    (h : Runnable env spec par) (biased sparse : Bool) :
    ∃ rows w', simulate env frame a biased sparse w = .ok (rows, w') := by
  obtain ⟨rows, ho⟩ := simulate_total laws closed addr params spec_ok h biased sparse
  exact ⟨rows, ho.run⟩

/-- The hypotheses are met by the example: a simulation with children up to age 4, initial ages up to 2. -/
example [Transc ℚ] (hermite : Nat → List ℚ × List ℚ) (g : Nat) (biased : Bool) :
    (∃ rows, Spec.Output (simEnv exFiles hermite) exFrame 0 biased false (simWorld 4 g) exParams simSpec
      rows) ∧ 0 ≤ simSpec.child_age_max ∧ simSpec.child_age_init_max ≤ simSpec.child_age_max := by
  refine ⟨exOutput exFiles_ok hermite biased false g, ?_, ?_⟩
  · rw [specOf_facts.amax]; decide
  · rw [specOf_facts.amax, specOf_facts.ainit]; decide

/-! ## C36 -/

/-- **C36**  In every row value = flow utility + delta * continuation value, and the recorded choice is the
first alternative that attains the maximal value. -/
theorem C36_choice_is_optimal (h : Spec.Output env frame a biased false w par spec rows) :
    ∀ r ∈ rows, ∃ d, r.detail = some d ∧ (∀ j, d.value j = d.flow j + par.delta * d.cont j) ∧
      ∃ j : Fin 3, r.choice = (j : Nat) ∧ (∀ i, d.value i ≤ d.value j) ∧ ∀ i, i < j → d.value i < d.value j := by
  obtain ⟨c, g1, sol, hc, hs, -, initial, draws, m, R, F, rfl⟩ := output_run h
  intro r hr
  obtain ⟨t, ht, q, hq, rfl⟩ := mem_recorded.1 hr
  obtain ⟨e, ho⟩ := R.out_ok_mem ht hq
  obtain ⟨-, -, -, -, h1, h2, -⟩ := agentOutcome_ok ho
  refine ⟨_, recorded_detail q, h1, q.out.choice, recorded_choice q, ?_⟩
  have := argmax3_spec q.out.value
  rw [← h2] at this
  exact this

/-! ## C37 -/

/-- **C37**  Consecutive rows of an agent: the choice becomes the lagged choice, the counters count, education
and type are constant. -/
theorem C37_counters_and_lagged_choice (h : Spec.Output env frame a biased false w par spec rows)
    {r r' : OutRow K} (hr : r ∈ rows) (hr' : r' ∈ rows) (hn : Spec.Next r r') :
    r'.lagged = r.choice ∧ r'.expPT = r.expPT + (if r.choice = 1 then 1 else 0) ∧
    r'.expFT = r.expFT + (if r.choice = 2 then 1 else 0) ∧ r'.educ = r.educ ∧ r'.type = r.type := by
  obtain ⟨c, g1, sol, hc, hs, -, initial, draws, m, R, F, rfl⟩ := output_run h
  obtain ⟨t, ht, q, hq, rfl⟩ := mem_recorded.1 hr
  obtain ⟨t', ht', q', hq', rfl⟩ := mem_recorded.1 hr'
  obtain ⟨hid, hp⟩ := hn
  rw [recorded_id, recorded_id] at hid
  rw [recorded_period, recorded_period, R.period_eq h.laws t ht q hq,
    R.period_eq h.laws t' ht' q' hq'] at hp
  obtain rfl : t' = t + 1 := by omega
  obtain ⟨x, y, -, -, he⟩ := R.next_row h.laws F.period_le F.nodup ht' hq hq' (by omega)
  rw [recorded_full, recorded_full]
  simp only [outRow, he, stepAgent]
  have hch : q.out.choice = 0 ∨ q.out.choice = 1 ∨ q.out.choice = 2 := by
    rcases q.out.choice with ⟨v, hv⟩
    have : v = 0 ∨ v = 1 ∨ v = 2 := by omega
    rcases this with rfl | rfl | rfl
    · exact Or.inl rfl
    · exact Or.inr (Or.inl rfl)
    · exact Or.inr (Or.inr rfl)
  refine ⟨?_, ?_, ?_, ?_, ?_⟩ <;> rcases hch with h | h | h <;> simp [h]

/-- **C37**  Consecutive rows of an agent: the experience stock follows the law of motion with the true
part-time increment and lies in [0,1]. -/
theorem C37_stock_law_of_motion (h : Spec.Output env frame a biased false w par spec rows)
    (hE : spec.num_educ_levels ≤ 3) {r r' : OutRow K} (hr : r ∈ rows) (hr' : r' ∈ rows)
    (hn : Spec.Next r r') :
    0 ≤ r'.stock ∧ r'.stock ≤ 1 ∧ ∃ s, Spec.RowIs r s ∧
      r'.stock = Spec.stockNext (Spec.plain spec par) s r.stock r.choice.toNat := by
  obtain ⟨c, g1, sol, hc, hs, -, initial, draws, m, R, F, rfl⟩ := output_run h
  obtain ⟨t, ht, q, hq, rfl⟩ := mem_recorded.1 hr
  obtain ⟨t', ht', q', hq', rfl⟩ := mem_recorded.1 hr'
  obtain ⟨hid, hp⟩ := hn
  rw [recorded_id, recorded_id] at hid
  rw [recorded_period, recorded_period, R.period_eq h.laws t ht q hq,
    R.period_eq h.laws t' ht' q' hq'] at hp
  obtain rfl : t' = t + 1 := by omega
  obtain ⟨x, y, -, -, he⟩ := R.next_row h.laws F.period_le F.nodup ht' hq hq' (by omega)
  have hst : q'.agent.stock
      = nextStock q.agent.stock t spec.init_exp_max q.out.ptIncrement (q.out.choice : Nat) := by rw [he]; rfl
  rw [recorded_stock, recorded_stock, recorded_choice]
  refine ⟨?_, ?_, q.agent.state, recorded_rowIs q, ?_⟩
  · rw [hst]; exact (nextStock_mem _ _ _ _ _).1
  · rw [hst]; exact (nextStock_mem _ _ _ _ _).2
  · obtain ⟨e, ho⟩ := R.out_ok_mem ht hq
    obtain ⟨-, h2, -⟩ := agentOutcome_ok ho
    obtain ⟨z, hz, -, hz2, -⟩ := R.educ_eq h.laws t ht q hq
    have hlt : q.agent.educ < 3 := by
      have := (F.mem hz).2.educ_lt
      omega
    have hpt : q.out.ptIncrement = Spec.ptIncrement par false q.agent.state := by
      rw [h2]
      exact ptIncrement_true h.params hlt
    rw [hst, hpt, Int.toNat_natCast, ← stockNext_eq]
    show nextStock _ _ _ _ _ = nextStock _ q.agent.period _ _ _
    rw [R.period_eq h.laws t ht q hq]
    rfl

/-! ## C39 -/

/-- **C39**  An agent's next state is one of the successor states the child-state table lists for the
current state and choice. -/
theorem C39_next_state_in_child_table (h : Spec.Output env frame a biased false w par spec rows)
    (hA : 0 ≤ spec.child_age_max) (hI : spec.child_age_init_max ≤ spec.child_age_max)
    {r r' : OutRow K} (hr : r ∈ rows) (hr' : r' ∈ rows) (hn : Spec.Next r r') :
    ∃ o, createStateSpaceObjects spec = .ok o ∧
      ∃ (k k' : Nat) (s s' : State) (ci : ChildIdx) (j : Fin 3) (b p : Fin 2),
        o.states[k]? = some s ∧ Spec.RowIs r s ∧ o.childStateIndexes[k]? = some ci ∧
        r.choice = (j : Nat) ∧ ci j b p = k' ∧ o.states[k']? = some s' ∧ Spec.RowIs r' s' := by
  obtain ⟨c, g1, sol, hc, hs, -, initial, draws, m, R, F, rfl⟩ := output_run h
  obtain ⟨t, ht, q, hq, rfl⟩ := mem_recorded.1 hr
  obtain ⟨t', ht', q', hq', rfl⟩ := mem_recorded.1 hr'
  obtain ⟨hid, hp⟩ := hn
  rw [recorded_id, recorded_id] at hid
  rw [recorded_period, recorded_period, R.period_eq h.laws t ht q hq,
    R.period_eq h.laws t' ht' q' hq'] at hp
  obtain rfl : t' = t + 1 := by omega
  have hsp := hc.spaceOf sol
  obtain ⟨hin, hidx⟩ := R.inRange h.laws hsp ⟨hA, hI⟩ (F.inRange ⟨hA, hI⟩) t ht q hq
  obtain ⟨x, y, hx, hy, he⟩ := R.next_row h.laws F.period_le F.nodup ht' hq hq' (by omega)
  have hy2 : y < 2 := hy.lt hin.partner
  have hper : q.agent.state.period = t := R.period_eq h.laws t ht q hq
  obtain ⟨o, ho, htab⟩ := C04_child_table_encodes_transition spec
  refine ⟨o, ho, ?_⟩
  have hk : o.states[rowOf spec q.agent.state]? = some q.agent.state := by
    rw [createStateSpaceObjects_eq] at ho
    rw [← Except.ok.inj ho]
    exact states_rowOf hin
  obtain ⟨ci, hci, h1, -⟩ := htab _ _ hk
  have hchild : ∃ b : Fin 2, x = if b = 1 then 0 else Spec.older spec.child_age_max q.agent.age := by
    rcases hx.succ hsp hin hidx ht' with ⟨h0, -⟩ | h0
    · exact ⟨1, by simpa using h0⟩
    · exact ⟨0, by simpa using h0⟩
  obtain ⟨b, hb⟩ := hchild
  obtain ⟨k', hk', hs'⟩ := h1 (by rw [hper]; exact ht') q.out.choice b ⟨y, hy2⟩ (fun _ => hA)
  refine ⟨_, k', _, _, ci, q.out.choice, b, ⟨y, hy2⟩, hk, recorded_rowIs q, hci, recorded_choice q, hk', hs', ?_⟩
  have hr2 := recorded_rowIs q'
  have e : q'.agent.state = Spec.successor spec.child_age_max q.agent.state q.out.choice (decide (b = 1)) y := by
    rw [he]
    simp only [Agent.state, stepAgent, Spec.successor, hb]
    by_cases hb1 : b = 1 <;> simp [hb1]
  rw [e] at hr2
  exact hr2

/-- Agent 1 of the example enters in period 0. -/
theorem sim_agent_one [Transc ℚ] {f : FileData} {hermite : Nat → List ℚ × List ℚ} {biased : Bool} {g : Nat}
    {rows : List (OutRow ℚ)}
    (h : Spec.Output (simEnv f hermite) exFrame 0 biased false (simWorld 4 g) exParams simSpec rows)
    {t : Nat} (ht : t < 3) : ∃ r ∈ rows, r.id = 1 ∧ r.period = (t : Int) := by
  have h1 := C34_one_row_per_agent_and_period h 1 t
  rw [if_pos ⟨by rw [specOf_facts.periods]; exact ht, 0, 0, by rw [sim_education]; rfl,
    by rw [specOf_facts.years]; rfl, Nat.zero_le _⟩] at h1
  have h2 : 0 < rows.countP (fun r => decide (r.id = ((1 : Nat) : Int)) && decide (r.period = (t : Int))) := by
    rw [h1]; exact Nat.one_pos
  obtain ⟨r, hr, hr2⟩ := List.countP_pos_iff.1 h2
  simp only [Bool.and_eq_true, decide_eq_true_eq] at hr2
  exact ⟨r, hr, by simpa using hr2.1, hr2.2⟩

/-- The example contains consecutive rows: agent 1 in periods 0 and 1. -/
theorem sim_consecutive [Transc ℚ] {f : FileData} {hermite : Nat → List ℚ × List ℚ} {biased : Bool} {g : Nat}
    {rows : List (OutRow ℚ)}
    (h : Spec.Output (simEnv f hermite) exFrame 0 biased false (simWorld 4 g) exParams simSpec rows) :
    ∃ r ∈ rows, ∃ r' ∈ rows, r.period = 0 ∧ Spec.Next r r' := by
  obtain ⟨r, hr, e1, e2⟩ := sim_agent_one h (t := 0) (by omega)
  obtain ⟨r', hr', e3, e4⟩ := sim_agent_one h (t := 1) (by omega)
  exact ⟨r, hr, r', hr', e2, by rw [e3, e1], by rw [e4, e2]; rfl⟩

example [Transc ℚ] (hermite : Nat → List ℚ × List ℚ) (g : Nat) :
    ∃ rows, Spec.Output (simEnv exFiles hermite) exFrame 0 false false (simWorld 4 g) exParams simSpec rows ∧
      simSpec.num_educ_levels ≤ 3 ∧ ∃ r ∈ rows, ∃ r' ∈ rows, Spec.Next r r' := by
  obtain ⟨rows, h⟩ := exOutput exFiles_ok hermite false false g
  obtain ⟨r, hr, r', hr', -, hn⟩ := sim_consecutive h
  exact ⟨rows, h, by rw [specOf_facts.educ]; decide, r, hr, r', hr', hn⟩

end Soepy.Props
