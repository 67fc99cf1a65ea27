import Verif.Spec.Vocabulary
import Verif.Proof.Api
import Verif.Proof.StateSpace

/-! Invariants of the agents of a simulation and what is recorded about them. -/

set_option linter.unusedSectionVars false

namespace Soepy
variable {S K : Type} [Field K] [LinearOrder K] [FloorRing K] [Transc K]

/-- The arrays of the state space are those of the specification. -/
structure SpaceOf (spec : ModelSpec K) (inp : SimInput K) : Prop where
  states : inp.states = (createDiscreteStateSpace spec).1
  indexer : inp.indexer = (createDiscreteStateSpace spec).2
  covariates : inp.covariates = (createDiscreteStateSpace spec).1.map (covOf spec)
  rule : inp.childAgeUpdateRule
    = childAgeUpdateRule spec.child_age_max (createDiscreteStateSpace spec).1

theorem CachedOk.space_eq {env : Env S K} {spec : ModelSpec K} {biased : Bool} {g g' : S} {c : Cached K}
    (h : CachedOk env spec biased g g' c) : c.space =
      { states := (createDiscreteStateSpace spec).1
        indexer := (createDiscreteStateSpace spec).2
        covariates := (createDiscreteStateSpace spec).1.map (covOf spec)
        childAgeUpdateRule := childAgeUpdateRule spec.child_age_max (createDiscreteStateSpace spec).1
        childStateIndexes := (createDiscreteStateSpace spec).1.map (childOf spec) } := by
  have := h.space
  rw [createStateSpaceObjects_eq] at this
  exact (Except.ok.inj this).symm

theorem CachedOk.spaceOf {env : Env S K} {spec : ModelSpec K} {biased : Bool} {g g' : S} {c : Cached K}
    (h : CachedOk env spec biased g g' c) (sol : Solution K) : SpaceOf spec (c.input sol) := by
  have := h.space_eq
  constructor <;> simp [Cached.input, this]

theorem agentIndex_state {spec : ModelSpec K} {inp : SimInput K} (hS : SpaceOf spec inp) {a : Agent K}
    (h : Spec.InRange spec a.state) : agentIndex inp.indexer a = .ok (rowOf spec a.state : Int) := by
  unfold agentIndex
  have := indexer_get h
  obtain ⟨-, -, -, d4⟩ := indexer_dims spec
  rw [hS.indexer]
  have e : (if a.age = -1 then (((createDiscreteStateSpace spec).2.nKids : Nat) : Int) - 1 else a.age)
      = Spec.slot spec a.state.age := by
    have hlo := h.ageLo
    have hhi := h.ageHi
    show _ = if a.age = -1 then _ else a.age
    change -1 ≤ a.age at hlo
    change a.age ≤ _ at hhi
    rw [d4]
    unfold nKidsOf
    split_ifs <;> omega
  dsimp only
  rw [e]
  exact this

theorem laggedChoiceInitial_lt (x : K) : laggedChoiceInitial x < 3 := by
  unfold laggedChoiceInitial
  dsimp only
  split_ifs <;> omega

/-- The pieces of an outcome. -/
theorem agentOutcome_ok {par : ModelParams K} {spec : ModelSpec K} {inp : SimInput K} {biased : Bool}
    {t : Nat} {a : Agent K} {shock : K} {o : Outcome K}
    (h : agentOutcome par spec inp biased t a shock = .ok o) :
    agentIndex inp.indexer a = .ok o.idx ∧
    o.ptIncrement = getPtIncrement par a.educ a.age biased ∧
    o.logWage = calculateLogWage par a.educ a.stock spec.init_exp_max
      (getPtIncrement par a.educ a.age biased) t ∧
    o.wage = Transc.exp (o.logWage + shock) * spec.elasticity_scale ∧
    (∀ c, o.value c = o.flow c + par.delta * o.cont c) ∧
    o.choice = argmax3 o.value ∧
    (∃ cov, npGet inp.covariates o.idx = .ok cov ∧ o.maleWage = cov.maleWage) ∧
    npGet inp.nonConsumptionUtilities o.idx = .ok o.ncu ∧
    (∃ cells, npGet inp.emaxs o.idx = .ok cells ∧
      ∀ c, interpUniformGrid (cells.map fun cell => cell.cont c) a.stock = .ok (o.cont c)) := by
  unfold agentOutcome at h
  obtain ⟨idx, h1, h⟩ := bind_ok.1 h
  obtain ⟨cells, h2, h⟩ := bind_ok.1 h
  obtain ⟨v0, hv0, h⟩ := bind_ok.1 h
  obtain ⟨v1, hv1, h⟩ := bind_ok.1 h
  obtain ⟨v2, hv2, h⟩ := bind_ok.1 h
  dsimp only at h
  obtain ⟨ncu, h3, h⟩ := bind_ok.1 h
  obtain ⟨cov, h4, h⟩ := bind_ok.1 h
  obtain ⟨s, h5, h⟩ := bind_ok.1 h
  obtain ⟨nonEmp, h6, h⟩ := bind_ok.1 h
  rw [pure_ok] at h
  subst h
  refine ⟨h1, rfl, rfl, rfl, fun _ => rfl, rfl, ⟨cov, h4, rfl⟩, h3, cells, h2, ?_⟩
  intro c
  fin_cases c
  · exact hv0
  · exact hv1
  · exact hv2

theorem argmax3_spec (v : Fin 3 → K) :
    (∀ c, v c ≤ v (argmax3 v)) ∧ ∀ c, c < argmax3 v → v c < v (argmax3 v) := by
  unfold argmax3
  split_ifs with h1 h2
  · refine ⟨?_, ?_⟩
    · intro c
      fin_cases c
      · exact le_refl _
      · exact h1.1
      · exact h1.2
    · intro c hc
      exact absurd hc (by simp)
  · rw [not_and_or, not_le, not_le] at h1
    have h01 : v 0 < v 1 := by
      rcases h1 with h1 | h1
      · exact h1
      · exact lt_of_lt_of_le h1 h2
    refine ⟨?_, ?_⟩
    · intro c
      fin_cases c
      · exact h01.le
      · exact le_refl _
      · exact h2
    · intro c hc
      fin_cases c
      · exact h01
      · exact absurd hc (by simp)
      · exact absurd hc (by simp)
  · rw [not_and_or, not_le, not_le] at h1
    rw [not_le] at h2
    have h02 : v 0 < v 2 := by
      rcases h1 with h1 | h1
      · exact h1.trans h2
      · exact h1
    refine ⟨?_, ?_⟩
    · intro c
      fin_cases c
      · exact h02.le
      · exact h2.le
      · exact le_refl _
    · intro c hc
      fin_cases c
      · exact h02
      · exact h2
      · exact absurd hc (by simp)

namespace Run
variable {rng : Rng S K} {par : ModelParams K} {spec : ModelSpec K} {inp : SimInput K} {biased : Bool}
  {draws : List (List K)} {initial : List (Agent K)} {maxEntry : Nat} {g : S}
  (R : Run rng par spec inp biased draws initial maxEntry g)

/-- The outcome of every row, with the shock it uses. -/
theorem out_ok {t : Nat} (ht : t < spec.num_periods) {i : Nat} {r : Row K}
    (hr : (R.rows t)[i]? = some r) :
    ∃ row e, draws[t]? = some row ∧ row[i]? = some e ∧
      agentOutcome par spec inp biased t r.agent e = .ok r.out := by
  obtain ⟨row, hrow, hle, ha, ho⟩ := periodRows_ok.1 (R.rows_ok t ht)
  have hi : i < row.length := by
    have h1 : i < (R.rows t).length := (List.getElem?_eq_some_iff.1 hr).1
    have h2 : (R.rows t).length = (withEntrants maxEntry initial t (R.prev t)).length := by
      rw [← ha, List.length_map]
    omega
  exact ⟨row, row[i], npGet_nat hrow, List.getElem?_eq_getElem hi,
    ho i r _ hr (List.getElem?_eq_getElem hi)⟩

theorem out_ok_mem {t : Nat} (ht : t < spec.num_periods) {r : Row K} (hr : r ∈ R.rows t) :
    ∃ e, agentOutcome par spec inp biased t r.agent e = .ok r.out := by
  obtain ⟨i, hi⟩ := List.mem_iff_getElem?.1 hr
  obtain ⟨row, e, -, -, h⟩ := R.out_ok ht hi
  exact ⟨e, h⟩

/-- The period column. -/
theorem period_eq (L : RngLaws rng) : ∀ t, t < spec.num_periods → ∀ r ∈ R.rows t, r.agent.period = t :=
  R.induct L (fun t a => a.period = t) (fun _ _ => rfl) (by
    intro t _ r _ h x q _ _
    show r.agent.period + 1 = t + 1
    rw [h])

/-- Education and entry never change. -/
theorem educ_eq (L : RngLaws rng) : ∀ t, t < spec.num_periods → ∀ r ∈ R.rows t,
    ∃ a ∈ initial, a.id = r.agent.id ∧ a.educ = r.agent.educ ∧ a.type = r.agent.type ∧ a.period ≤ t :=
  R.induct L (fun t b => ∃ a ∈ initial, a.id = b.id ∧ a.educ = b.educ ∧ a.type = b.type ∧ a.period ≤ t)
    (fun a ha => ⟨a, ha, rfl, rfl, rfl, le_refl _⟩) (by
    intro t _ r _ ⟨a, ha, h1, h2, h3, h4⟩ x q _ _
    exact ⟨a, ha, h1, h2, h3, by omega⟩)

end Run

/-- What the theorems about simulated states ask of a specification: children at the start are not
older than the oldest age of a child in the state space, and there is an age 0. -/
structure AgesFit (spec : ModelSpec K) : Prop where
  ages : 0 ≤ spec.child_age_max
  init : spec.child_age_init_max ≤ spec.child_age_max

theorem EntryOk.inRange {par : ModelParams K} {spec : ModelSpec K} {biased : Bool}
    {pca : List (List K)} {pp : List K} {ppt pft : List (List K)} {educs : List Nat} {i : Nat} {a : Agent K}
    (h : EntryOk par spec biased pca pp ppt pft educs i a) (hA : AgesFit spec)
    (hp : a.period < spec.num_periods) : Spec.InRange spec a.state := by
  obtain ⟨j, ⟨p, y, -, hl, hj, -⟩, ha⟩ := h.age
  have hj' : j < p.length := (List.getElem?_eq_some_iff.1 hj).1
  have h1 := hA.ages
  have h2 := hA.init
  obtain ⟨y', ht, -⟩ := h.type
  have ht' := (List.getElem?_eq_some_iff.1 ht).1
  refine ⟨hp, h.educ_lt, ?_, ?_, ?_, ?_, ?_⟩
  · show a.lagged < 3
    rw [h.lagged]; exact laggedChoiceInitial_lt _
  · show a.type < _
    rw [← h.types]; exact ht'
  · show -1 ≤ a.age
    omega
  · show a.age ≤ _
    omega
  · show a.partner < 2
    obtain ⟨p, -, -, -, hd⟩ := h.partner
    rcases hd with ⟨h, -⟩ | ⟨h, -⟩ <;> omega

theorem AgeStep.succ {spec : ModelSpec K} {inp : SimInput K} {t : Nat} {r : Row K} {x : Int}
    (hS : SpaceOf spec inp) (hr : Spec.InRange spec r.agent.state)
    (hi : r.out.idx = (rowOf spec r.agent.state : Int)) (hT : t + 1 < spec.num_periods)
    (h : AgeStep spec inp t r x) :
    (x = 0 ∧ (t : Int) ≤ spec.last_child_bearing_period ∧
      ∃ p, birthProb inp t r.agent.educ = .ok p ∧ p ≠ 0) ∨
    x = Spec.older spec.child_age_max r.agent.age := by
  have hrule : npGet inp.childAgeUpdateRule r.out.idx = .ok (Spec.older spec.child_age_max r.agent.age) := by
    rw [hS.rule, hi]
    exact rule_get hr
  cases h with
  | final h => omega
  | birth h1 hl hp h0 => exact Or.inl ⟨rfl, hl, _, hp, h0⟩
  | noBirth h1 hl hp h1' hx =>
    rw [hrule] at hx
    exact Or.inr (Except.ok.inj hx).symm
  | late h1 hl hx =>
    rw [hrule] at hx
    exact Or.inr (Except.ok.inj hx).symm

theorem PartnerStep.lt {inp : SimInput K} {t : Nat} {a : Agent K} {q : Nat} (h : PartnerStep inp t a q)
    (ha : a.partner < 2) : q < 2 := by
  cases h <;> omega

namespace Run
variable {rng : Rng S K} {par : ModelParams K} {spec : ModelSpec K} {inp : SimInput K} {biased : Bool}
  {draws : List (List K)} {initial : List (Agent K)} {maxEntry : Nat} {g : S}
  (R : Run rng par spec inp biased draws initial maxEntry g)

/-- Every agent of every period is in range, and the looked-up row is the agent's own. -/
theorem inRange (L : RngLaws rng) (hS : SpaceOf spec inp) (hA : AgesFit spec)
    (h0 : ∀ a ∈ initial, a.period < spec.num_periods → Spec.InRange spec a.state) :
    ∀ t, t < spec.num_periods → ∀ r ∈ R.rows t, Spec.InRange spec r.agent.state ∧
      r.out.idx = (rowOf spec r.agent.state : Int) := by
  have key := R.induct L (fun t a => a.period = t ∧ (t < spec.num_periods → Spec.InRange spec a.state))
    (fun a ha => ⟨rfl, h0 a ha⟩) (by
    intro t ht r hr ⟨h1, h2⟩ x q hx hq
    refine ⟨by show r.agent.period + 1 = t + 1; rw [h1], fun _ => ?_⟩
    have hin := h2 (by omega)
    obtain ⟨e, ho⟩ := R.out_ok_mem (by omega) hr
    have hi := (agentOutcome_ok ho).1
    rw [agentIndex_state hS hin] at hi
    have hx' := hx.succ hS hin (Except.ok.inj hi).symm ht
    have hq' : q < 2 := hq.lt hin.partner
    have := hA.ages
    have hlo := hin.ageLo
    have hhi := hin.ageHi
    have ho := older_range hin.ageLo hin.ageHi
    refine ⟨?_, hin.educ, ?_, hin.type, ?_, ?_, hq'⟩
    · show r.agent.period + 1 < _; omega
    · exact r.out.choice.2
    · show -1 ≤ x
      rcases hx' with ⟨h, -⟩ | h
      · omega
      · rw [h]; exact ho.1
    · show x ≤ _
      rcases hx' with ⟨h, -⟩ | h
      · omega
      · rw [h]; exact ho.2)
  intro t ht r hr
  have hin := (key t ht r hr).2 ht
  obtain ⟨e, ho⟩ := R.out_ok_mem ht hr
  have hi := (agentOutcome_ok ho).1
  rw [agentIndex_state hS hin] at hi
  exact ⟨hin, (Except.ok.inj hi).symm⟩

end Run

theorem SimFacts.inRange {rng : Rng S K} {par : ModelParams K} {spec : ModelSpec K} {inp : SimInput K}
    {probs : InitProbs K} {biased : Bool} {initial : List (Agent K)} {draws : List (List K)}
    {maxEntry : Nat} (F : SimFacts rng par spec inp probs biased initial draws maxEntry)
    (hA : AgesFit spec) : ∀ a ∈ initial, a.period < spec.num_periods → Spec.InRange spec a.state := by
  intro a ha hp
  obtain ⟨i, hi⟩ := List.mem_iff_getElem?.1 ha
  exact (F.entry i a hi).inRange hA hp

/-! ## From recorded rows back to rows of the loop -/

theorem mem_recorded {T : Nat} {f : Nat → List (Row K)} {sparse : Bool} {o : OutRow K} :
    o ∈ ((List.range T).map f).flatten.map (recorded sparse) ↔
      ∃ t < T, ∃ r ∈ f t, recorded sparse r = o := by
  simp only [List.mem_map, List.mem_flatten, List.mem_range]
  constructor
  · rintro ⟨r, ⟨l, ⟨t, ht, rfl⟩, hr⟩, rfl⟩
    exact ⟨t, ht, r, hr, rfl⟩
  · rintro ⟨t, ht, r, hr, rfl⟩
    exact ⟨r, ⟨_, ⟨t, ht, rfl⟩, hr⟩, rfl⟩

theorem recorded_full (r : Row K) : recorded false r =
    { outRow false r with wage := if r.out.choice = 0 then none else some r.out.wage } := by
  unfold recorded maskWage
  simp only [Bool.false_eq_true, if_false]
  have : ((outRow false r).choice = 0) ↔ r.out.choice = 0 := by
    show (((r.out.choice : Fin 3) : Nat) : Int) = 0 ↔ _
    rw [Int.natCast_eq_zero, Fin.val_eq_zero_iff]
  by_cases h : r.out.choice = 0
  · rw [if_pos (this.2 h), if_pos h]
  · rw [if_neg (fun h' => h (this.1 h')), if_neg h]
    rfl

end Soepy
