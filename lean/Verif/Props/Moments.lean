import Verif.Props.Conditional
import Mathlib.Probability.Moments.SubGaussian

/-! # Independent careers and simulated moments (C117) -/

set_option linter.unusedSectionVars false

namespace Soepy.Props
open Soepy MeasureTheory ProbabilityTheory

variable {S Ω : Type} {par : ModelParams ℝ}
  {spec : ModelSpec ℝ} {biased : Bool} {base : Rng S ℝ} {hermite : Nat → List ℝ × List ℝ} {disk : String → List (Nat × ℝ)}
  {N : Ω → S → ℕ → ℕ → List (List ℝ) × S}

/-- What the data show of agent `i`: for every period the states, experience and choices in their rows. -/
def history (rows : List (OutRow ℝ)) (i : ℕ) (t : ℕ) : Set (State × ℝ × ℤ) :=
  {v | ∃ r ∈ rows, r.id = (i : ℤ) ∧ r.period = (t : ℤ) ∧ v = (Spec.stateOf r, r.stock, r.choice)}

/-- A function with countably many values and measurable fibres. -/
theorem measurable_of_countable_values {Ω β : Type} [MeasurableSpace Ω] {f : Ω → β} {R : Set β} (hR : R.Countable)
    (hf : ∀ ω, f ω ∈ R) (hm : ∀ b, MeasurableSet {ω | f ω = b}) (H : Set β) : MeasurableSet {ω | f ω ∈ H} := by
  have : {ω | f ω ∈ H} = ⋃ b ∈ R, ⋃ _ : b ∈ H, {ω | f ω = b} := by
    ext ω
    simp only [Set.mem_iUnion]
    constructor
    · intro h
      exact ⟨f ω, hf ω, h, rfl⟩
    · rintro ⟨b, -, hb, hfb⟩
      have hfb : f ω = b := hfb
      show f ω ∈ H
      rw [hfb]
      exact hb
  rw [this]
  exact MeasurableSet.biUnion hR fun b _ => MeasurableSet.iUnion fun _ => hm b

/-- Everything the data show of an agent is decided by the shocks in one column. -/
theorem history_measurable (hrules : Rules2007 spec) (hu : Usable spec par) (hlast : -1 ≤ spec.last_child_bearing_period)
    (hgen : ∀ ω ω', (N ω (base.seed spec.seed_sim) spec.num_periods spec.num_agents_sim).2
      = (N ω' (base.seed spec.seed_sim) spec.num_periods spec.num_agents_sim).2)
    (hnodes : ∀ ω ω', Spec.nodes (withNormals base hermite disk (N ω)) spec = Spec.nodes (withNormals base hermite disk (N ω')) spec)
    {rows : Ω → List (OutRow ℝ)}
    (hout : ∀ ω, ∃ frame a w, Spec.Output (withNormals base hermite disk (N ω)) frame a biased false w par spec (rows ω))
    (ω0 : Ω) {i : ℕ} (hi : ∃ r ∈ rows ω0, r.id = (i : ℤ)) :
    ∃ k < spec.num_agents_sim,
      (∃ a, (Spec.population (withNormals base hermite disk (N ω0)) par spec biased spec.num_periods).1[k]? = some a ∧ a.id = i) ∧
      ∀ m0 : MeasurableSpace Ω, (∀ t < spec.num_periods, Measurable[m0] fun ω =>
          ((Spec.normalDraws (withNormals base hermite disk (N ω)) spec).getD t []).getD k 0) →
        ∀ H : Set (ℕ → Set (State × ℝ × ℤ)), MeasurableSet[m0] {ω | history (rows ω) i ∈ H} := by
  have hrows : ∀ ω, rows ω = Spec.panel (withNormals base hermite disk (N ω)) par spec biased := by
    intro ω
    obtain ⟨frame, a, w, h⟩ := hout ω
    exact C69_rows h hu hlast
  obtain ⟨r1, hr1, hi1⟩ := hi
  rw [hrows] at hr1
  obtain ⟨t, -, hr1'⟩ := List.mem_flatMap.1 hr1
  obtain ⟨p, hp, rfl⟩ := List.mem_map.1 hr1'
  have ht1 : (Spec.entryOf (withNormals base hermite disk (N ω0)) par spec biased p.2 p.1).period = (t : ℤ) := by
    show ((p.1.state.period : ℕ) : ℤ) = t
    rw [population_period _ par spec biased t _ (List.fst_mem_of_mem_zipIdx hp)]
  obtain ⟨htT, k1, a1, hget1, hid1, -⟩ := panel_mem.1 ⟨hr1, hi1, ht1⟩
  have hin : i ∈ (Spec.population (withNormals base hermite disk (N ω0)) par spec biased t).1.map Spec.Subject.id :=
    List.mem_map.2 ⟨a1, List.mem_of_getElem? hget1, hid1⟩
  rw [population_ids] at hin
  obtain ⟨t0, ht0, hf⟩ := List.mem_flatMap.1 hin
  have hentry := of_decide_eq_true (List.mem_filter.1 hf).2
  have ht0T : t0 < spec.num_periods := by have := List.mem_range.1 ht0; omega
  obtain ⟨n, hn⟩ : ∃ n, spec.num_periods = t0 + n := ⟨spec.num_periods - t0, by omega⟩
  obtain ⟨k, hk⟩ := List.mem_iff_getElem?.1 (entrant_there (biased := biased)
    (List.mem_map.2 ⟨i, hf, rfl⟩ : Spec.entrant (withNormals base hermite disk (N ω0)) par spec i ∈ Spec.entrants _ par spec t0))
  have hstart := entry_same hgen hentry hk rfl
  have hstay : ∀ ω l, ∃ a, (Spec.population (withNormals base hermite disk (N ω)) par spec biased (t0 + l)).1[k]? = some a ∧
      a.id = i := by
    intro ω l
    induction l with
    | zero => exact ⟨_, hstart ω, rfl⟩
    | succ l ih =>
      obtain ⟨a, ha, hai⟩ := ih
      exact ⟨_, population_succ_get _ (t0 + l) ha, hai⟩
  refine ⟨k, position_lt hk, by rw [hn]; exact hstay ω0 n, fun m0 hZ H => ?_⟩
  choose A hA hAid using hstay
  have hsub := @subject_measurable S Ω par spec biased base hermite disk N m0 hrules hgen hnodes ω0 i t0 k n _ rfl hstart
    (fun l hl => hZ (t0 + l) (by omega))
  -- the rows of the agent
  let V : Ω → Fin n → State × ℝ × ℤ := fun ω l => ((A ω l).state, (A ω l).stock,
    ((Spec.decision (withNormals base hermite disk (N ω)) par spec biased k (A ω l) : ℕ) : ℤ))
  have hhist : ∀ ω t, history (rows ω) i t = {v | ∃ l : Fin n, t = t0 + l ∧ v = V ω l} := by
    intro ω t
    ext v
    have hst : ∀ k' a, Spec.stateOf (Spec.entryOf (withNormals base hermite disk (N ω)) par spec biased k' a) = a.state := by
      intro k' a
      unfold Spec.stateOf Spec.entryOf
      simp
    constructor
    · rintro ⟨r, hr, h1, h2, rfl⟩
      rw [hrows] at hr
      obtain ⟨htT, k', a, hget, hid, rfl⟩ := panel_mem.1 ⟨hr, h1, h2⟩
      have hle : t0 ≤ t := by
        have hcons := demo_same (par := par) (biased := biased) (hermite := hermite) (disk := disk) (hgen ω ω0) t
        have hg : ((Spec.population (withNormals base hermite disk (N ω0)) par spec biased t).1.map demo)[k']? = some (demo a) := by
          rw [← hcons.1, List.getElem?_map, hget]; rfl
        rw [List.getElem?_map] at hg
        obtain ⟨b, hb, hba⟩ := Option.map_eq_some_iff.1 hg
        exact population_entered _ (List.mem_map.2 ⟨b, List.mem_of_getElem? hb, (congrArg Prod.fst hba).trans hid⟩) hentry
      obtain ⟨l, rfl⟩ : ∃ l, t = t0 + l := ⟨t - t0, by omega⟩
      have hkk : k' = k := position_unique hget (hA ω l) (hid.trans (hAid ω l).symm)
      subst hkk
      rw [hA ω l] at hget
      obtain rfl := Option.some.inj hget
      refine ⟨⟨l, by omega⟩, rfl, ?_⟩
      rw [hst]
      rfl
    · rintro ⟨l, rfl, rfl⟩
      obtain ⟨hr, h1, h2⟩ := panel_mem.2 ⟨by omega, k, A ω l, hA ω l, hAid ω l, rfl⟩
      refine ⟨_, by rw [hrows]; exact hr, h1, h2, ?_⟩
      rw [hst]
      rfl
  have hV : ∀ l : Fin n, ∃ R : Set (State × ℝ × ℤ), R.Countable ∧ (∀ ω, V ω l ∈ R) ∧ ∀ v, MeasurableSet[m0] {ω | V ω l = v} := by
    intro l
    obtain ⟨R, hR, -, hex, hm⟩ := hsub l l.2.le
    have hAR : ∀ ω, A ω l ∈ R := by
      intro ω
      obtain ⟨a, haR, hget⟩ := hex ω
      rw [hA ω l] at hget
      rw [Option.some.inj hget]
      exact haR
    refine ⟨⋃ a ∈ R, Set.range fun c : Fin 3 => (a.state, a.stock, ((c : ℕ) : ℤ)),
      hR.biUnion fun a _ => Set.countable_range _, fun ω => ?_, fun v => ?_⟩
    · simp only [Set.mem_iUnion, Set.mem_range]
      exact ⟨_, hAR ω, _, rfl⟩
    · have hset : {ω | V ω l = v} = ⋃ a ∈ R, ⋃ c : Fin 3, ⋃ _ : (a.state, a.stock, ((c : ℕ) : ℤ)) = v,
          {ω | (Spec.population (withNormals base hermite disk (N ω)) par spec biased (t0 + l)).1[k]? = some a} ∩
          (fun ω => ((Spec.normalDraws (withNormals base hermite disk (N ω)) spec).getD (t0 + l) []).getD k 0) ⁻¹'
            {z | choiceAt (withNormals base hermite disk (N ω0)) par spec biased a.state a.stock (z * par.shock_sd) = c} := by
        ext ω
        simp only [Set.mem_iUnion]
        have hp := population_period _ par spec biased (t0 + l) _ (List.mem_of_getElem? (hA ω l))
        have hdec := decision_shock (par := par) (biased := biased) hnodes ω0 ω k (A ω l)
        rw [hp] at hdec
        constructor
        · intro h
          exact ⟨A ω l, hAR ω, _, h, hA ω l, hdec.symm⟩
        · rintro ⟨a, -, c, hv, hget, hc⟩
          have hget : (Spec.population (withNormals base hermite disk (N ω)) par spec biased (t0 + l)).1[k]? = some a := hget
          rw [hA ω l] at hget
          obtain rfl := Option.some.inj hget
          rw [← hv, ← show _ = c from hc, ← hdec]
          exact rfl
      rw [hset]
      exact MeasurableSet.biUnion hR fun a _ => MeasurableSet.iUnion fun c => MeasurableSet.iUnion fun _ =>
        (hm a).inter ((hZ (t0 + l) (by omega)) (choice_set hrules _ _ _ _))
  choose R hR hVR hVm using hV
  have hall := @measurable_of_countable_values Ω (Fin n → State × ℝ × ℤ) m0 V (Set.univ.pi R) (Set.countable_univ_pi hR)
    (fun ω l _ => hVR l ω)
    (fun v => by
      have : {ω | V ω = v} = ⋂ l, {ω | V ω l = v l} := by
        ext ω
        simp only [Set.mem_iInter]
        exact funext_iff
      rw [this]
      exact MeasurableSet.iInter fun l => hVm l (v l))
    {v | (fun t => {u | ∃ l : Fin n, t = t0 + l ∧ u = v l}) ∈ H}
  have hev : {ω | history (rows ω) i ∈ H} = {ω | V ω ∈ {v | (fun t => {u | ∃ l : Fin n, t = t0 + l ∧ u = v l}) ∈ H}} := by
    ext ω
    show history (rows ω) i ∈ H ↔ (fun t => {u | ∃ l : Fin n, t = t0 + l ∧ u = V ω l}) ∈ H
    rw [show history (rows ω) i = fun t => {u | ∃ l : Fin n, t = t0 + l ∧ u = V ω l} from funext (hhist ω)]
  rw [hev]
  exact hall

variable [MeasurableSpace Ω] {P : Measure Ω}

/-- **C117**  Careers of different agents are independent: if the normal numbers are independent over agents and periods,
then whatever is asked about the whole history of each of the agents that appear in the data, the probability
that all the answers are yes is the product of the probabilities. -/
theorem C117_independent_careers [IsProbabilityMeasure P] (hrules : Rules2007 spec) (hu : Usable spec par)
    (hlast : -1 ≤ spec.last_child_bearing_period)
    (hgen : ∀ ω ω', (N ω (base.seed spec.seed_sim) spec.num_periods spec.num_agents_sim).2
      = (N ω' (base.seed spec.seed_sim) spec.num_periods spec.num_agents_sim).2)
    (hnodes : ∀ ω ω', Spec.nodes (withNormals base hermite disk (N ω)) spec = Spec.nodes (withNormals base hermite disk (N ω')) spec)
    (hZ : ∀ t < spec.num_periods, ∀ k < spec.num_agents_sim,
      Measurable (fun ω => ((Spec.normalDraws (withNormals base hermite disk (N ω)) spec).getD t []).getD k 0))
    (hind : iIndepFun (fun (p : ℕ × ℕ) ω =>
      ((Spec.normalDraws (withNormals base hermite disk (N ω)) spec).getD p.1 []).getD p.2 0) P)
    {rows : Ω → List (OutRow ℝ)}
    (hout : ∀ ω, ∃ frame a w, Spec.Output (withNormals base hermite disk (N ω)) frame a biased false w par spec (rows ω))
    (ω0 : Ω) (agents : Finset ℕ) (hin : ∀ i ∈ agents, ∃ r ∈ rows ω0, r.id = (i : ℤ))
    (H : ℕ → Set (ℕ → Set (State × ℝ × ℤ))) :
    (∀ i ∈ agents, MeasurableSet {ω | history (rows ω) i ∈ H i}) ∧
    P {ω | ∀ i ∈ agents, history (rows ω) i ∈ H i} = ∏ i ∈ agents, P {ω | history (rows ω) i ∈ H i} := by
  choose! k hkN hpos hm using fun i (hi : i ∈ agents) => history_measurable hrules hu hlast hgen hnodes hout ω0 (hin i hi)
  let m : {p : ℕ × ℕ // p.1 < spec.num_periods ∧ p.2 < spec.num_agents_sim} → MeasurableSpace Ω := fun p => MeasurableSpace.comap
    (fun ω => ((Spec.normalDraws (withNormals base hermite disk (N ω)) spec).getD p.1.1 []).getD p.1.2 0) inferInstance
  have hindm : iIndep m P := hind.precomp Subtype.val_injective
  have hle : ∀ p, m p ≤ ‹MeasurableSpace Ω› := fun p => (hZ p.1.1 p.2.1 p.1.2 p.2.2).comap_le
  have hcol : ∀ i ∈ agents, MeasurableSet[⨆ p ∈ {p : {p : ℕ × ℕ // p.1 < spec.num_periods ∧ p.2 < spec.num_agents_sim} | p.1.2 = k i}, m p] {ω | history (rows ω) i ∈ H i} := by
    intro i hi
    refine hm i hi _ (fun t ht => ?_) (H i)
    exact Measurable.mono (comap_measurable _) (le_iSup₂_of_le (f := fun p (_ : p ∈ {p : {p : ℕ × ℕ // p.1 < spec.num_periods ∧ p.2 < spec.num_agents_sim} | p.1.2 = k i}) => m p)
      ⟨(t, k i), ht, hkN i hi⟩ rfl le_rfl) le_rfl
  have hinj : ∀ i ∈ agents, ∀ j ∈ agents, k i = k j → i = j := by
    intro i hi j hj h
    obtain ⟨a, ha, hai⟩ := hpos i hi
    obtain ⟨b, hb, hbj⟩ := hpos j hj
    rw [h, hb] at ha
    rw [← hai, ← hbj, Option.some.inj ha]
  refine ⟨fun i hi => hm i hi _ (fun t ht => hZ t ht (k i) (hkN i hi)) (H i), ?_⟩
  have key : ∀ s : Finset ℕ, s ⊆ agents → P {ω | ∀ i ∈ s, history (rows ω) i ∈ H i} = ∏ i ∈ s, P {ω | history (rows ω) i ∈ H i} := by
    intro s
    induction s using Finset.induction_on with
    | empty => intro _; simp
    | insert j s hjs ih =>
      intro hsub
      have hj := hsub (Finset.mem_insert_self j s)
      have hs : s ⊆ agents := fun i hi => hsub (Finset.mem_insert_of_mem hi)
      have hdis : Disjoint {p : {p : ℕ × ℕ // p.1 < spec.num_periods ∧ p.2 < spec.num_agents_sim} | p.1.2 = k j} {p : {p : ℕ × ℕ // p.1 < spec.num_periods ∧ p.2 < spec.num_agents_sim} | ∃ i ∈ s, p.1.2 = k i} := by
        rw [Set.disjoint_left]
        rintro p hp ⟨i, hi, hpi⟩
        have hp : p.1.2 = k j := hp
        exact hjs ((hinj j hj i (hs hi) (hp.symm.trans hpi)) ▸ hi)
      have hI := indep_iSup_of_disjoint hle hindm hdis
      have hrest : MeasurableSet[⨆ p ∈ {p : {p : ℕ × ℕ // p.1 < spec.num_periods ∧ p.2 < spec.num_agents_sim} | ∃ i ∈ s, p.1.2 = k i}, m p] {ω | ∀ i ∈ s, history (rows ω) i ∈ H i} := by
        have : {ω | ∀ i ∈ s, history (rows ω) i ∈ H i} = ⋂ i ∈ s, {ω | history (rows ω) i ∈ H i} := by
          ext ω; simp
        rw [this]
        refine @Finset.measurableSet_biInter _ _ (_) _ s fun i hi => ?_
        have hmono : (⨆ p ∈ {p : {p : ℕ × ℕ // p.1 < spec.num_periods ∧ p.2 < spec.num_agents_sim} | p.1.2 = k i}, m p) ≤ ⨆ p ∈ {p : {p : ℕ × ℕ // p.1 < spec.num_periods ∧ p.2 < spec.num_agents_sim} | ∃ i ∈ s, p.1.2 = k i}, m p :=
          biSup_mono fun p hp => ⟨i, hi, hp⟩
        exact hmono _ (hcol i (hs hi))
      have hsplit : {ω | ∀ i ∈ insert j s, history (rows ω) i ∈ H i}
          = {ω | history (rows ω) j ∈ H j} ∩ {ω | ∀ i ∈ s, history (rows ω) i ∈ H i} := by
        ext ω
        simp only [Finset.forall_mem_insert, Set.mem_inter_iff, Set.mem_setOf_eq]
      rw [hsplit, (Indep_iff _ _ _).1 hI _ _ (hcol j hj) hrest, ih hs, Finset.prod_insert hjs]
  exact key agents subset_rfl

open Classical in
/-- **C117**  Simulated moments: the share of the agents whose history has a given property, whatever the property,
differs from the mean of the probabilities that it has it by `ε` or more with a probability of at most `2 exp(-2 n ε²)`, where `n` is
the number of the agents. -/
theorem C117_simulated_moments [IsProbabilityMeasure P] (hrules : Rules2007 spec) (hu : Usable spec par)
    (hlast : -1 ≤ spec.last_child_bearing_period)
    (hgen : ∀ ω ω', (N ω (base.seed spec.seed_sim) spec.num_periods spec.num_agents_sim).2
      = (N ω' (base.seed spec.seed_sim) spec.num_periods spec.num_agents_sim).2)
    (hnodes : ∀ ω ω', Spec.nodes (withNormals base hermite disk (N ω)) spec = Spec.nodes (withNormals base hermite disk (N ω')) spec)
    (hZ : ∀ t < spec.num_periods, ∀ k < spec.num_agents_sim,
      Measurable (fun ω => ((Spec.normalDraws (withNormals base hermite disk (N ω)) spec).getD t []).getD k 0))
    (hind : iIndepFun (fun (p : ℕ × ℕ) ω =>
      ((Spec.normalDraws (withNormals base hermite disk (N ω)) spec).getD p.1 []).getD p.2 0) P)
    {rows : Ω → List (OutRow ℝ)}
    (hout : ∀ ω, ∃ frame a w, Spec.Output (withNormals base hermite disk (N ω)) frame a biased false w par spec (rows ω))
    (ω0 : Ω) {agents : Finset ℕ} (hne : agents.Nonempty) (hin : ∀ i ∈ agents, ∃ r ∈ rows ω0, r.id = (i : ℤ))
    (H : Set (ℕ → Set (State × ℝ × ℤ))) {ε : ℝ} (hε : 0 ≤ ε) :
    P.real {ω | ε ≤ |((agents.filter fun i => history (rows ω) i ∈ H).card : ℝ) / agents.card
        - (∑ i ∈ agents, P.real {ω | history (rows ω) i ∈ H}) / agents.card|}
      ≤ 2 * Real.exp (-2 * agents.card * ε ^ 2) := by
  obtain ⟨B, hBdef⟩ : ∃ B : ℕ → Set Ω, ∀ i, B i = {ω | history (rows ω) i ∈ H} := ⟨_, fun _ => rfl⟩
  have hall := C117_independent_careers hrules hu hlast hgen hnodes hZ hind hout ω0
  have hBm : ∀ i : agents, MeasurableSet (B i.1) := by
    intro i
    rw [hBdef]
    exact (hall agents hin fun _ => H).1 i.1 i.2
  have hset : iIndepSet (fun i : agents => B i.1) P := by
    refine (iIndepSet_iff_meas_biInter hBm).2 fun s => ?_
    have h := (hall (s.map (Function.Embedding.subtype _)) (fun i hi => by
      obtain ⟨j, -, rfl⟩ := Finset.mem_map.1 hi
      exact hin j.1 j.2) fun _ => H).2
    rw [Finset.prod_map] at h
    refine Eq.trans (congrArg P ?_) (h.trans (Finset.prod_congr rfl fun i _ => by rw [hBdef]; rfl))
    ext ω
    simp only [Set.mem_iInter, hBdef, Set.mem_setOf_eq, Finset.mem_map]
    constructor
    · rintro h i ⟨j, hj, rfl⟩
      exact h j hj
    · intro h j hj
      exact h j.1 ⟨j, hj, rfl⟩
  let f : agents → Ω → ℝ := fun i => (B i.1).indicator fun _ => 1
  let q : ℕ → ℝ := fun i => P.real (B i)
  have hf : ∀ i, Measurable (f i) := fun i => measurable_const.indicator (hBm i)
  have hindep0 : iIndepFun f P := hset.iIndepFun_indicator
  have hindep : iIndepFun (fun (i : agents) ω => f i ω - q i) P :=
    hindep0.comp (fun i z => z - q i) fun i => measurable_id.sub_const (q i)
  have hindep' : iIndepFun (fun (i : agents) ω => -(f i ω - q i)) P :=
    hindep0.comp (fun i z => -(z - q i)) fun i => (measurable_id.sub_const (q i)).neg
  have hsub : ∀ i : agents, HasSubgaussianMGF (fun ω => f i ω - q i) ((‖(1 : ℝ) - 0‖₊ / 2) ^ 2) P := by
    intro i
    have hmean : ∫ ω, f i ω ∂P = q i := integral_indicator_one (hBm i)
    have := hasSubgaussianMGF_of_mem_Icc (μ := P) (X := f i) (a := 0) (b := 1)
      (hf i).aemeasurable (ae_of_all _ fun ω => by
        show (B i).indicator _ _ ∈ Set.Icc (0 : ℝ) 1
        rw [Set.indicator_apply]
        split_ifs <;> simp)
    rwa [hmean] at this
  have hn : (0 : ℝ) < agents.card := by exact_mod_cast hne.card_pos
  have hnε : 0 ≤ agents.card * ε := by positivity
  have h1 := HasSubgaussianMGF.measure_sum_ge_le_of_iIndepFun hindep (s := Finset.univ) (fun i _ => hsub i) hnε
  have h2 := HasSubgaussianMGF.measure_sum_ge_le_of_iIndepFun hindep' (s := Finset.univ) (fun i _ => (hsub i).neg) hnε
  have hexp : -(agents.card * ε) ^ 2 / (2 * ((∑ _i : agents, (‖(1 : ℝ) - 0‖₊ / 2) ^ 2 : NNReal) : ℝ)) = -2 * agents.card * ε ^ 2 := by
    have hn' : (agents.card : ℝ) ≠ 0 := hn.ne'
    simp
    field_simp
  rw [hexp] at h1 h2
  refine (measureReal_mono (s₂ := {ω | agents.card * ε ≤ ∑ i : agents, (f i ω - q i)} ∪
      {ω | agents.card * ε ≤ ∑ i : agents, -(f i ω - q i)}) ?_).trans
    ((measureReal_union_le _ _).trans (by linarith))
  intro ω hdev
  have hcount : ((agents.filter fun i => history (rows ω) i ∈ H).card : ℝ) = ∑ i : agents, f i ω := by
    rw [Finset.card_filter, Nat.cast_sum, ← Finset.sum_coe_sort agents]
    refine Finset.sum_congr rfl fun i _ => ?_
    show _ = (B i).indicator _ _
    rw [Set.indicator_apply, Nat.cast_ite, Nat.cast_one, Nat.cast_zero]
    exact if_congr (by rw [hBdef]; rfl) rfl rfl
  have hdev : ε ≤ |((agents.filter fun i => history (rows ω) i ∈ H).card : ℝ) / agents.card
      - (∑ i ∈ agents, q i) / agents.card| := by
    show ε ≤ |_ - (∑ i ∈ agents, P.real (B i)) / _|
    simp only [hBdef]
    exact hdev
  rw [hcount, ← Finset.sum_coe_sort agents] at hdev
  have hsum : ∑ i : agents, (f i ω - q i)
      = agents.card * ((∑ i : agents, f i ω) / agents.card - (∑ i : agents, q i) / agents.card) := by
    rw [Finset.sum_sub_distrib]
    field_simp
  rcases le_abs.1 hdev with hd | hd
  · left
    show agents.card * ε ≤ _
    rw [hsum]
    exact mul_le_mul_of_nonneg_left hd hn.le
  · right
    show agents.card * ε ≤ _
    rw [Finset.sum_neg_distrib, hsum, ← mul_neg]
    exact mul_le_mul_of_nonneg_left hd hn.le

end Soepy.Props
