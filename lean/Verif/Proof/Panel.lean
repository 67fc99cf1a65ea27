import Verif.Proof.Usable
import Verif.Spec.Panel

/-! Counting rows of the simulated panel; translating rows of the loop into rows of the data frame. -/

set_option linter.unusedSectionVars false

namespace Soepy
variable {S K : Type} [Field K] [LinearOrder K] [IsStrictOrderedRing K] [FloorRing K] [Transc K]

/-- A sum with at most one non-zero term. -/
theorem sum_range_single (f : Nat → Nat) (t : Nat) (T : Nat) (h : ∀ s < T, s ≠ t → f s = 0) :
    ((List.range T).map f).sum = if t < T then f t else 0 := by
  induction T with
  | zero => simp
  | succ T ih =>
    rw [List.range_succ, List.map_append, List.sum_append, ih fun s hs => h s (by omega)]
    simp only [List.map_cons, List.map_nil, List.sum_cons, List.sum_nil, add_zero]
    by_cases h1 : t < T
    · rw [if_pos h1, if_pos (by omega), h T (by omega) (by omega), add_zero]
    · rw [if_neg h1]
      by_cases h2 : t = T
      · rw [if_pos (by omega), h2, zero_add]
      · rw [if_neg (by omega), h T (by omega) (Ne.symm h2)]

/-- Number of periods in which somebody who enters in `p` is present. -/
theorem sum_range_present (p T : Nat) :
    ((List.range T).map fun t => if p ≤ t then 1 else 0).sum = T - p := by
  induction T with
  | zero => simp
  | succ T ih =>
    rw [List.range_succ, List.map_append, List.sum_append, ih]
    simp only [List.map_cons, List.map_nil, List.sum_cons, List.sum_nil, add_zero]
    split_ifs <;> omega

theorem sum_swap {α : Type} (l : List α) (f : α → Nat → Nat) (T : Nat) :
    ((List.range T).map fun t => (l.map fun a => f a t).sum).sum
      = (l.map fun a => ((List.range T).map (f a)).sum).sum := by
  induction l with
  | nil => simp
  | cons a l ih =>
    simp only [List.map_cons, List.sum_cons]
    rw [← ih, List.sum_map_add]

theorem length_filter_sum {α : Type} (l : List α) (p : α → Bool) :
    (l.filter p).length = (l.map fun a => if p a then 1 else 0).sum := by
  induction l with
  | nil => rfl
  | cons a l ih =>
    rw [List.filter_cons, List.map_cons, List.sum_cons, ← ih]
    by_cases h : p a <;> simp [h]; omega

/-! ## Rows of the frame -/

section recorded
variable (q : Row K)

theorem recorded_id : (recorded false q).id = q.agent.id := by rw [recorded_full]; rfl
theorem recorded_period : (recorded false q).period = q.agent.period := by rw [recorded_full]; rfl
theorem recorded_educ : (recorded false q).educ = q.agent.educ := by rw [recorded_full]; rfl
theorem recorded_stock : (recorded false q).stock = q.agent.stock := by rw [recorded_full]; rfl
theorem recorded_choice : (recorded false q).choice = ((q.out.choice : Nat) : Int) := by
  rw [recorded_full]; rfl
theorem recorded_age : (recorded false q).age = q.agent.age := by rw [recorded_full]; rfl
theorem recorded_partner : (recorded false q).partner = q.agent.partner := by rw [recorded_full]; rfl
theorem recorded_detail : (recorded false q).detail = some
    { maleWage := q.out.maleWage, ncu := q.out.ncu, flow := q.out.flow, cont := q.out.cont,
      value := q.out.value } := by rw [recorded_full]; rfl
theorem recorded_wage : (recorded false q).wage = if q.out.choice = 0 then none else some q.out.wage := by
  rw [recorded_full]

theorem recorded_rowIs : Spec.RowIs (recorded false q) q.agent.state := by
  rw [recorded_full]
  exact ⟨rfl, rfl, rfl, rfl, rfl, rfl⟩

end recorded

/-- A row describes one state only. -/
theorem rowIs_unique {r : OutRow K} {s s' : State} (h : Spec.RowIs r s) (h' : Spec.RowIs r s') : s = s' := by
  have e1 := h.period.symm.trans h'.period
  have e2 := h.educ.symm.trans h'.educ
  have e3 := h.lagged.symm.trans h'.lagged
  have e4 := h.type.symm.trans h'.type
  have e5 := h.age.symm.trans h'.age
  have e6 := h.partner.symm.trans h'.partner
  obtain ⟨p, e, l, t, a, q⟩ := s
  obtain ⟨p', e', l', t', a', q'⟩ := s'
  simp only at e1 e2 e3 e4 e5 e6
  simp only [State.mk.injEq]
  omega

namespace Run
variable {rng : Rng S K} {par : ModelParams K} {spec : ModelSpec K} {inp : SimInput K} {biased : Bool}
  {draws : List (List K)} {initial : List (Agent K)} {maxEntry : Nat} {g : S}
  (R : Run rng par spec inp biased draws initial maxEntry g)

theorem rows_ids (L : RngLaws rng) (hm : ∀ a ∈ initial, a.period ≤ maxEntry) {t : Nat}
    (ht : t < spec.num_periods) :
    (R.rows t).map (fun q => q.agent.id) = (entrantsUpTo initial t).map Agent.id := by
  rw [← R.agents_ids L hm t ht, ← R.rows_agent ht, List.map_map]
  rfl

/-- How many rows agent `i` has in period `t`. -/
theorem count_id (L : RngLaws rng) (hm : ∀ a ∈ initial, a.period ≤ maxEntry)
    (hid : (initial.map Agent.id).Nodup) {t : Nat} (ht : t < spec.num_periods) (i : Nat) :
    (R.rows t).countP (fun q => decide (q.agent.id = i))
      = if ∃ a ∈ initial, a.id = i ∧ a.period ≤ t then 1 else 0 := by
  have h1 : (R.rows t).countP (fun q => decide (q.agent.id = i))
      = ((R.rows t).map fun q => q.agent.id).count i := by
    rw [List.count, List.countP_map]
    refine List.countP_congr fun q _ => ?_
    simp
  rw [h1, R.rows_ids L hm ht]
  have hmem : i ∈ (entrantsUpTo initial t).map Agent.id ↔ ∃ a ∈ initial, a.id = i ∧ a.period ≤ t := by
    rw [List.mem_map]
    constructor
    · rintro ⟨a, ha, rfl⟩
      have := (entrantsUpTo_perm initial t).subset ha
      rw [List.mem_filter] at this
      exact ⟨a, this.1, rfl, of_decide_eq_true this.2⟩
    · rintro ⟨a, ha, rfl, hp⟩
      exact ⟨a, (entrantsUpTo_perm initial t).symm.subset (List.mem_filter.2 ⟨ha, decide_eq_true hp⟩), rfl⟩
  by_cases h : ∃ a ∈ initial, a.id = i ∧ a.period ≤ t
  · rw [if_pos h]
    exact List.count_eq_one_of_mem (entrantsUpTo_nodup hid t) (hmem.2 h)
  · rw [if_neg h]
    exact List.count_eq_zero.2 fun hc => h (hmem.1 hc)

/-- How many rows a period has. -/
theorem rows_length (L : RngLaws rng) (hm : ∀ a ∈ initial, a.period ≤ maxEntry) {t : Nat}
    (ht : t < spec.num_periods) :
    (R.rows t).length = (initial.map fun a => if a.period ≤ t then 1 else 0).sum := by
  have h := congrArg List.length (R.rows_ids L hm ht)
  rw [List.length_map, List.length_map, (entrantsUpTo_perm initial t).length_eq, length_filter_sum] at h
  rw [h]
  simp

/-- A row of a period is the row of an entrant or has a predecessor. -/
theorem origin (L : RngLaws rng) (hm : ∀ a ∈ initial, a.period ≤ maxEntry) {t : Nat}
    (ht : t < spec.num_periods) {r : Row K} (hr : r ∈ R.rows t) :
    (r.agent ∈ initial ∧ r.agent.period = t) ∨
    ∃ t', t' + 1 = t ∧ ∃ r0 ∈ R.rows t', ∃ x q, AgeStep spec inp t' r0 x ∧ PartnerStep inp t' r0.agent q ∧
      r.agent = stepAgent spec t' r0 x q := by
  have h1 : r.agent ∈ R.agents t := by
    rw [← R.rows_agent ht]; exact List.mem_map_of_mem hr
  rw [R.agents_eq hm, List.mem_append, List.mem_filter] at h1
  rcases h1 with h1 | ⟨h1, h2⟩
  · right
    cases t with
    | zero => rw [R.prev_zero] at h1; cases h1
    | succ t' =>
      obtain ⟨r0, hr0, x, q, hx, hq, he⟩ := forall₂_mem (R.step L (by omega)) h1
      exact ⟨t', rfl, r0, hr0, x, q, hx, hq, he⟩
  · exact Or.inl ⟨h1, of_decide_eq_true h2⟩

end Run

/-- The increment of the simulation, for processed parameters. -/
theorem ptIncrement_true {frame : Frame K} {par : ModelParams K} (hp : readModelParams frame = .ok par)
    {a : Agent K} (h : a.educ < 3) : getPtIncrement par a.educ a.age false = Spec.ptIncrement par false a.state := by
  unfold readModelParams at hp
  obtain ⟨⟨d, der⟩, -, h2⟩ := bind_ok.1 hp
  obtain ⟨-, -, h3, -⟩ := groupParameters_lengths h2
  unfold getPtIncrement Spec.ptIncrement
  simp only [Bool.false_eq_true, if_false]
  rw [jget_getD _ (lt_of_lt_of_le h h3)]
  show _ + ind (decide (0 ≤ a.age) && decide (a.age ≤ 2)) * _ = par.gamma_p.getD a.educ 0
    + if 0 ≤ a.age ∧ a.age ≤ 2 then _ else 0
  by_cases h0 : 0 ≤ a.age <;> by_cases h2 : a.age ≤ 2 <;> simp [ind, h0, h2]

/-- Members of the list of initial agents. -/
theorem SimFacts.mem {rng : Rng S K} {par : ModelParams K} {spec : ModelSpec K} {inp : SimInput K}
    {probs : InitProbs K} {biased : Bool} {initial : List (Agent K)} {draws : List (List K)}
    {maxEntry : Nat} (F : SimFacts rng par spec inp probs biased initial draws maxEntry) {a : Agent K}
    (ha : a ∈ initial) : initial[a.id]? = some a ∧ EntryOk par spec biased probs.childAge
      probs.partnerPresent probs.expPt probs.expFt
      (rng.choice (rng.seed spec.seed_sim) spec.num_agents_sim probs.educ).1 a.id a := by
  obtain ⟨i, hi⟩ := List.mem_iff_getElem?.1 ha
  have h := F.entry i a hi
  have he := h.id
  rw [he]
  exact ⟨hi, h⟩

end Soepy
