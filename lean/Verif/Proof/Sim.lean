import Verif.Model.Simulate
import Verif.Proof.Draws

/-! The simulation loop as a sequence of periods. -/

set_option linter.unusedSectionVars false

namespace Soepy
variable {S K : Type} [Field K] [LinearOrder K] [FloorRing K] [Transc K]

/-- The local variables of a successful simulation, period by period. -/
structure Run (rng : Rng S K) (par : ModelParams K) (spec : ModelSpec K) (inp : SimInput K)
    (biased : Bool) (draws : List (List K)) (initial : List (Agent K)) (maxEntry : Nat) (g : S) where
  /-- agents at the end of the previous period -/
  prev : Nat → List (Agent K)
  rows : Nat → List (Row K)
  ages : Nat → List Int
  partners : Nat → List Nat
  gen : Nat → S
  mid : Nat → S
  prev_zero : prev 0 = []
  gen_zero : gen 0 = g
  rows_ok : ∀ t, t < spec.num_periods →
    periodRows par spec inp biased draws t (withEntrants maxEntry initial t (prev t)) = .ok (rows t)
  ages_ok : ∀ t, t < spec.num_periods →
    nextChildAges rng spec inp t (rows t) (gen t) = .ok (ages t, mid t)
  partners_ok : ∀ t, t < spec.num_periods →
    nextPartners rng inp t (withEntrants maxEntry initial t (prev t)) (mid t)
      = .ok (partners t, gen (t + 1))
  prev_succ : ∀ t, t < spec.num_periods → prev (t + 1) = stepAgents spec t (rows t) (ages t) (partners t)

section run
variable {rng : Rng S K} {par : ModelParams K} {spec : ModelSpec K} {inp : SimInput K} {biased : Bool}
  {draws : List (List K)} {initial : List (Agent K)} {maxEntry : Nat} {g : S}

theorem simPeriod_ok {st st' : SimState S K} {t : Nat} :
    simPeriod rng par spec inp biased draws initial maxEntry st t = .ok st' ↔
      ∃ rows ages mid partners gen,
        periodRows par spec inp biased draws t (withEntrants maxEntry initial t st.current) = .ok rows ∧
        nextChildAges rng spec inp t rows st.rng = .ok (ages, mid) ∧
        nextPartners rng inp t (withEntrants maxEntry initial t st.current) mid = .ok (partners, gen) ∧
        st' = { current := stepAgents spec t rows ages partners, data := st.data ++ [rows], rng := gen } := by
  unfold simPeriod
  constructor
  · intro h
    obtain ⟨rows, h1, h⟩ := bind_ok.1 h
    obtain ⟨⟨ages, mid⟩, h2, h⟩ := bind_ok.1 h
    obtain ⟨⟨partners, gen⟩, h3, h⟩ := bind_ok.1 h
    exact ⟨rows, ages, mid, partners, gen, h1, h2, h3, (pure_ok.1 h).symm⟩
  · rintro ⟨rows, ages, mid, partners, gen, h1, h2, h3, rfl⟩
    dsimp only
    rw [h1, ok_bind, h2, ok_bind]
    dsimp only
    rw [h3, ok_bind]
    rfl

/-- The loop up to period `n`. -/
theorem loop_run (n : Nat) (st : SimState S K)
    (h : foldlE (simPeriod rng par spec inp biased draws initial maxEntry)
      { current := [], data := [], rng := g } (List.range n) = .ok st) :
    ∃ (prev : Nat → List (Agent K)) (rows : Nat → List (Row K)) (ages : Nat → List Int)
      (partners : Nat → List Nat) (gen mid : Nat → S),
      prev 0 = [] ∧ gen 0 = g ∧
      (∀ t, t < n → periodRows par spec inp biased draws t (withEntrants maxEntry initial t (prev t))
        = .ok (rows t)) ∧
      (∀ t, t < n → nextChildAges rng spec inp t (rows t) (gen t) = .ok (ages t, mid t)) ∧
      (∀ t, t < n → nextPartners rng inp t (withEntrants maxEntry initial t (prev t)) (mid t)
        = .ok (partners t, gen (t + 1))) ∧
      (∀ t, t < n → prev (t + 1) = stepAgents spec t (rows t) (ages t) (partners t)) ∧
      st = { current := prev n, data := (List.range n).map rows, rng := gen n } := by
  induction n generalizing st with
  | zero =>
    simp only [List.range_zero, foldlE, Except.ok.injEq] at h
    exact ⟨fun _ => [], fun _ => [], fun _ => [], fun _ => [], fun _ => g, fun _ => g, rfl, rfl,
      by simp, by simp, by simp, by simp, by rw [← h]; rfl⟩
  | succ n ih =>
    rw [List.range_succ, foldlE_append] at h
    cases hb : foldlE (simPeriod rng par spec inp biased draws initial maxEntry)
      { current := [], data := [], rng := g } (List.range n) with
    | error e => rw [hb] at h; simp at h
    | ok b =>
      rw [hb] at h
      simp only [foldlE] at h
      cases hc : simPeriod rng par spec inp biased draws initial maxEntry b n with
      | error e => rw [hc] at h; simp at h
      | ok c =>
        rw [hc] at h
        simp only [Except.ok.injEq] at h
        subst h
        obtain ⟨prev, rows, ages, partners, gen, mid, h0, hg, h1, h2, h3, h4, rfl⟩ := ih b hb
        obtain ⟨rows', ages', mid', partners', gen', k1, k2, k3, rfl⟩ := simPeriod_ok.1 hc
        dsimp only at k1 k2 k3
        refine ⟨fun t => if t = n + 1 then stepAgents spec n rows' ages' partners' else prev t,
          fun t => if t = n then rows' else rows t, fun t => if t = n then ages' else ages t,
          fun t => if t = n then partners' else partners t,
          fun t => if t = n + 1 then gen' else gen t,
          fun t => if t = n then mid' else mid t, ?_, ?_, ?_, ?_, ?_, ?_, ?_⟩
        · simpa using h0
        · simpa using hg
        · intro t ht
          rcases Nat.lt_succ_iff_lt_or_eq.1 ht with ht | rfl
          · simp [ht.ne, (Nat.lt_succ_of_lt ht).ne, h1 t ht]
          · simp [k1]
        · intro t ht
          rcases Nat.lt_succ_iff_lt_or_eq.1 ht with ht | rfl
          · simp [ht.ne, (Nat.lt_succ_of_lt ht).ne, h2 t ht]
          · simp [k2]
        · intro t ht
          rcases Nat.lt_succ_iff_lt_or_eq.1 ht with ht | rfl
          · simp [ht.ne, (Nat.lt_succ_of_lt ht).ne, h3 t ht]
          · simp [k3]
        · intro t ht
          rcases Nat.lt_succ_iff_lt_or_eq.1 ht with ht | rfl
          · simp [ht.ne, h4 t ht]
          · simp
        · rw [List.range_succ, List.map_append]
          simp only [if_true, List.map_cons, List.map_nil]
          congr 2
          apply List.map_congr_left
          intro t ht
          have := (List.mem_range.1 ht).ne
          simp [this]

/-- Every successful simulation is such a sequence of periods. -/
theorem simulate_run {data : List (List (Row K))} {g' : S}
    (h : simulateAgentsOverPeriods rng par spec inp biased draws initial g = .ok (data, g')) :
    ∃ maxEntry, maxEntryYear spec.educ_years = .ok maxEntry ∧
    ∃ r : Run rng par spec inp biased draws initial maxEntry g,
      data = (List.range spec.num_periods).map r.rows ∧ g' = r.gen spec.num_periods := by
  unfold simulateAgentsOverPeriods at h
  obtain ⟨maxEntry, hm, h⟩ := bind_ok.1 h
  obtain ⟨st, hst, h⟩ := bind_ok.1 h
  obtain ⟨prev, rows, ages, partners, gen, mid, h0, hg, h1, h2, h3, h4, rfl⟩ := loop_run _ _ hst
  simp only [pure_ok, Prod.mk.injEq] at h
  exact ⟨maxEntry, hm, ⟨prev, rows, ages, partners, gen, mid, h0, hg, h1, h2, h3, h4⟩, h.1.symm,
    h.2.symm⟩

end run

theorem maxEntryYear_ge {l : List Nat} {m : Nat} (h : maxEntryYear l = .ok m) : ∀ x ∈ l, x ≤ m := by
  have key : ∀ (xs : List Nat) (a : Nat), a ≤ xs.foldl max a ∧ ∀ x ∈ xs, x ≤ xs.foldl max a := by
    intro xs
    induction xs with
    | nil => intro a; simp
    | cons y ys ih =>
      intro a
      obtain ⟨h1, h2⟩ := ih (max a y)
      simp only [List.foldl_cons, List.mem_cons, forall_eq_or_imp]
      refine ⟨le_trans (le_max_left _ _) h1, le_trans (le_max_right _ _) h1, h2⟩
  cases l with
  | nil => simp [maxEntryYear] at h
  | cons x xs =>
    simp only [maxEntryYear, Except.ok.injEq] at h
    subst h
    intro y hy
    rcases List.mem_cons.1 hy with rfl | hy
    · exact (key xs y).1
    · exact (key xs x).2 y hy

theorem maxEntryYear_mem {l : List Nat} {m : Nat} (h : maxEntryYear l = .ok m) : m ∈ l := by
  have key : ∀ (xs : List Nat) (a : Nat), xs.foldl max a = a ∨ xs.foldl max a ∈ xs := by
    intro xs
    induction xs with
    | nil => intro a; simp
    | cons y ys ih =>
      intro a
      simp only [List.foldl_cons, List.mem_cons]
      rcases ih (max a y) with h | h
      · rw [h]; rcases max_choice a y with h' | h' <;> simp [h']
      · exact Or.inr (Or.inr h)
  cases l with
  | nil => simp [maxEntryYear] at h
  | cons x xs =>
    simp only [maxEntryYear, Except.ok.injEq] at h
    subst h
    rcases key xs x with h | h
    · rw [h]; simp
    · exact List.mem_cons_of_mem _ h

/-! ## The pieces of one period -/

/-- The probability of a birth the simulator uses in period `t`. -/
def birthProb (inp : SimInput K) (t educ : Nat) : Except PyErr K := do
  let row ← npGet inp.probChild ((t : Int) + 1)
  npGet row educ

/-- How the age of the youngest child can change. -/
inductive AgeStep (spec : ModelSpec K) (inp : SimInput K) (t : Nat) (r : Row K) : Int → Prop
  | final (h : (t : Int) = (spec.num_periods : Int) - 1) : AgeStep spec inp t r r.agent.age
  | birth {p : K} (h : (t : Int) ≠ (spec.num_periods : Int) - 1)
      (hl : (t : Int) ≤ spec.last_child_bearing_period) (hp : birthProb inp t r.agent.educ = .ok p)
      (h0 : p ≠ 0) : AgeStep spec inp t r 0
  | noBirth {p : K} {x : Int} (h : (t : Int) ≠ (spec.num_periods : Int) - 1)
      (hl : (t : Int) ≤ spec.last_child_bearing_period) (hp : birthProb inp t r.agent.educ = .ok p)
      (h1 : p ≠ 1) (hx : npGet inp.childAgeUpdateRule r.out.idx = .ok x) : AgeStep spec inp t r x
  | late {x : Int} (h : (t : Int) ≠ (spec.num_periods : Int) - 1)
      (hl : ¬ (t : Int) ≤ spec.last_child_bearing_period)
      (hx : npGet inp.childAgeUpdateRule r.out.idx = .ok x) : AgeStep spec inp t r x

/-- How the partner status can change. -/
inductive PartnerStep (inp : SimInput K) (t : Nat) (a : Agent K) : Nat → Prop
  | arrive {p : K} (h : a.partner = 0) (hp : partnerProb inp t a.educ 0 1 = .ok p) (h0 : p ≠ 0) :
      PartnerStep inp t a 1
  | single {p : K} (h : a.partner = 0) (hp : partnerProb inp t a.educ 0 1 = .ok p) (h1 : p ≠ 1) :
      PartnerStep inp t a 0
  | separate {p : K} (h : a.partner = 1) (hp : partnerProb inp t a.educ 1 0 = .ok p) (h0 : p ≠ 0) :
      PartnerStep inp t a 0
  | together {p : K} (h : a.partner = 1) (hp : partnerProb inp t a.educ 1 0 = .ok p) (h1 : p ≠ 1) :
      PartnerStep inp t a 1
  | other (h : a.partner ≠ 0) (h' : a.partner ≠ 1) : PartnerStep inp t a a.partner

section pieces
variable {rng : Rng S K} {spec : ModelSpec K} {inp : SimInput K} {par : ModelParams K}

theorem nextChildAges_forall₂ (L : RngLaws rng) {t : Nat} {rows : List (Row K)} {g g' : S}
    {ages : List Int} (h : nextChildAges rng spec inp t rows g = .ok (ages, g')) :
    List.Forall₂ (AgeStep spec inp t) rows ages := by
  unfold nextChildAges at h
  split_ifs at h with h1 h2
  · simp only [pure_ok, Prod.mk.injEq] at h
    rw [← h.1]
    exact forall₂_map_self fun r _ => AgeStep.final h1
  · obtain ⟨ps, hps, h⟩ := bind_ok.1 h
    obtain ⟨⟨ds, g1⟩, hds, h⟩ := bind_ok.1 h
    obtain ⟨rules, hrules, h⟩ := bind_ok.1 h
    simp only [pure_ok, Prod.mk.injEq] at h
    rw [← h.1]
    obtain ⟨hv, he⟩ := npBinomial_ok_iff.1 hds
    have hd : List.Forall₂ Drawn ps ds := by
      have := binomial_drawn L (g := g) hv
      rw [← he] at this
      exact this
    refine forall₂_zipWith (forall₂_comp (mapE_ok_iff.1 hps) hd) (mapE_ok_iff.1 hrules) ?_
    rintro r d x - ⟨p, hp, hd⟩ hx
    rcases hd with ⟨rfl, hd⟩ | ⟨rfl, hd⟩
    · exact AgeStep.noBirth h1 h2 hp hd hx
    · exact AgeStep.birth h1 h2 hp hd
  · obtain ⟨rules, hrules, h⟩ := bind_ok.1 h
    simp only [pure_ok, Prod.mk.injEq] at h
    rw [← h.1]
    exact (mapE_ok_iff.1 hrules).imp fun r x hx => AgeStep.late h1 h2 hx

theorem nextPartners_forall₂ (L : RngLaws rng) {t : Nat} {agents : List (Agent K)} {g g' : S}
    {qs : List Nat} (h : nextPartners rng inp t agents g = .ok (qs, g')) :
    List.Forall₂ (PartnerStep inp t) agents qs := by
  unfold nextPartners at h
  obtain ⟨⟨new1, g1⟩, hn, h⟩ := bind_ok.1 h
  have h1 : List.Forall₂ (fun a q => if decide (a.partner = 0) then PartnerStep inp t a q
      else q = a.partner) agents new1 := by
    by_cases he : (agents.filter fun a => decide (a.partner = 0)).isEmpty
    · rw [if_pos he] at hn
      simp only [pure_ok, Prod.mk.injEq] at hn
      rw [← hn.1]
      refine forall₂_map_self fun a ha => ?_
      have : a.partner ≠ 0 := by
        intro h0
        have hm : a ∈ agents.filter fun a => decide (a.partner = 0) := by simp [ha, h0]
        rw [List.isEmpty_iff.1 he] at hm
        simp at hm
      simp [this]
    · rw [if_neg he] at hn
      obtain ⟨ps, hps, hn⟩ := bind_ok.1 hn
      obtain ⟨⟨ds, g2⟩, hds, hn⟩ := bind_ok.1 hn
      simp only [pure_ok, Prod.mk.injEq] at hn
      rw [← hn.1]
      obtain ⟨hv, heq⟩ := npBinomial_ok_iff.1 hds
      have hd : List.Forall₂ Drawn ps ds := by
        have := binomial_drawn L (g := g) hv
        rw [← heq] at this
        exact this
      have hR := forall₂_comp (mapE_ok_iff.1 hps) hd
      have hR' : List.Forall₂ (PartnerStep inp t) (agents.filter fun a => decide (a.partner = 0)) ds := by
        refine forall₂_imp_mem hR ?_
        rintro a d ha - ⟨p, hp, hd⟩
        have h0 : a.partner = 0 := by simpa using (List.mem_filter.1 ha).2
        rcases hd with ⟨rfl, hd⟩ | ⟨rfl, hd⟩
        · exact PartnerStep.single h0 hp hd
        · exact PartnerStep.arrive h0 hp hd
      have hQ : List.Forall₂ (fun (a : Agent K) q => q = a.partner) agents (agents.map Agent.partner) :=
        forall₂_map_self fun a _ => rfl
      have := scatter_forall₂ hR' hQ
      rw [List.map_map]
      exact this
  have h2 : List.Forall₂ (fun a q => if decide (a.partner = 1) then PartnerStep inp t a q
      else if decide (a.partner = 0) then PartnerStep inp t a q else q = a.partner) agents qs := by
    dsimp only at h
    by_cases he : (agents.filter fun a => decide (a.partner = 1)).isEmpty
    · rw [if_pos he] at h
      simp only [pure_ok, Prod.mk.injEq] at h
      rw [← h.1]
      refine forall₂_imp_mem h1 fun a q ha _ hq => ?_
      have : a.partner ≠ 1 := by
        intro h0
        have hm : a ∈ agents.filter fun a => decide (a.partner = 1) := by simp [ha, h0]
        rw [List.isEmpty_iff.1 he] at hm
        simp at hm
      simpa [this] using hq
    · rw [if_neg he] at h
      obtain ⟨ps, hps, hn⟩ := bind_ok.1 h
      obtain ⟨⟨ds, g2⟩, hds, hn⟩ := bind_ok.1 hn
      simp only [pure_ok, Prod.mk.injEq] at hn
      rw [← hn.1]
      obtain ⟨hv, heq⟩ := npBinomial_ok_iff.1 hds
      have hd : List.Forall₂ Drawn ps ds := by
        have := binomial_drawn L (g := g1) hv
        rw [← heq] at this
        exact this
      have hR := forall₂_comp (mapE_ok_iff.1 hps) hd
      have hR' : List.Forall₂ (PartnerStep inp t) (agents.filter fun a => decide (a.partner = 1))
          (List.zipWith (fun (a : Agent K) d => a.partner - d)
            (agents.filter fun a => decide (a.partner = 1)) ds) := by
        refine forall₂_zipWith (R := fun a b => a = b) (List.forall₂_refl _) hR ?_
        rintro a _ d ha rfl ⟨p, hp, hd⟩
        have h0 : a.partner = 1 := by simpa using (List.mem_filter.1 ha).2
        rw [h0]
        rcases hd with ⟨rfl, hd⟩ | ⟨rfl, hd⟩
        · exact PartnerStep.together h0 hp hd
        · exact PartnerStep.separate h0 hp hd
      have := scatter_forall₂ hR' h1
      rw [List.map_map]
      exact this
  refine h2.imp fun a q hq => ?_
  by_cases h1 : a.partner = 1
  · simpa [h1] using hq
  · by_cases h0 : a.partner = 0
    · simpa [h0, h1] using hq
    · simp only [h0, h1, decide_false, Bool.false_eq_true, if_false] at hq
      rw [hq]
      exact PartnerStep.other h0 h1

theorem stepAgents_forall₂ {t : Nat} {rows : List (Row K)} {ages : List Int} {qs : List Nat}
    (h1 : List.Forall₂ (AgeStep spec inp t) rows ages)
    (h2 : List.Forall₂ (fun r q => PartnerStep inp t r.agent q) rows qs) :
    List.Forall₂ (fun r a' => ∃ x q, AgeStep spec inp t r x ∧ PartnerStep inp t r.agent q ∧
      a' = stepAgent spec t r x q) rows (stepAgents spec t rows ages qs) := by
  induction rows generalizing ages qs with
  | nil => cases h1; cases h2; exact List.Forall₂.nil
  | cons r rs ih =>
    cases h1 with
    | cons a1 b1 =>
      cases h2 with
      | cons a2 b2 => exact List.Forall₂.cons ⟨_, _, a1, a2, rfl⟩ (ih b1 b2)

/-- The rows of a period: every agent in order, with the outcome for the shock in the agent's column. -/
theorem periodRows_ok {biased : Bool} {draws : List (List K)} {t : Nat} {agents : List (Agent K)}
    {rows : List (Row K)} :
    periodRows par spec inp biased draws t agents = .ok rows ↔
      ∃ row, npGet draws t = .ok row ∧ agents.length ≤ row.length ∧ rows.map Row.agent = agents ∧
        ∀ (i : Nat) r e, rows[i]? = some r → row[i]? = some e →
          agentOutcome par spec inp biased t r.agent e = .ok r.out := by
  unfold periodRows
  constructor
  · intro h
    obtain ⟨row, hrow, h⟩ := bind_ok.1 h
    by_cases hl : (row.take agents.length).length ≠ agents.length
    · rw [if_pos hl] at h; cases h
    · rw [if_neg hl] at h
      rw [not_not, List.length_take] at hl
      have hle : agents.length ≤ row.length := by omega
      have hF := mapE_ok_iff.1 h
      have hz : (agents.zip (row.take agents.length)).length = agents.length := by
        simp; omega
      have hlen : rows.length = agents.length := by
        rw [← hF.length_eq, hz]
      refine ⟨row, hrow, hle, ?_, ?_⟩
      · apply List.ext_getElem?
        intro i
        rw [List.getElem?_map]
        by_cases hi : i < agents.length
        · have hzi : (agents.zip (row.take agents.length))[i]? = some (agents[i], row[i]'(by omega)) := by
            rw [List.getElem?_eq_getElem (by omega)]
            simp
          obtain ⟨r, hr, hr'⟩ := forall₂_get hF hzi
          obtain ⟨o, -, ho⟩ := bind_ok.1 hr'
          rw [hr, List.getElem?_eq_getElem hi]
          rw [pure_ok] at ho
          rw [← ho]
          rfl
        · rw [List.getElem?_eq_none (by omega), List.getElem?_eq_none (by omega)]
          rfl
      · intro i r e hr he
        obtain ⟨⟨a, e'⟩, hz', hr'⟩ := forall₂_get' hF hr
        obtain ⟨o, ho, ho'⟩ := bind_ok.1 hr'
        rw [pure_ok] at ho'
        rw [← ho']
        have hi : i < agents.length := by
          rw [← hlen]; exact (List.getElem?_eq_some_iff.1 hr).1
        rw [List.getElem?_zip_eq_some] at hz'
        have h2 := hz'.2
        rw [List.getElem?_take_of_lt hi, he] at h2
        obtain rfl := Option.some.inj h2
        exact ho
  · rintro ⟨row, hrow, hle, ha, ho⟩
    rw [hrow, ok_bind]
    have hl : ¬ (row.take agents.length).length ≠ agents.length := by
      rw [not_not, List.length_take]; omega
    rw [if_neg hl, mapE_ok_iff]
    have hlen : rows.length = agents.length := by rw [← ha, List.length_map]
    refine forall₂_of_get (by simp; omega) ?_
    rintro i ⟨a, e⟩ r hz hr
    rw [List.getElem?_zip_eq_some] at hz
    have hi : i < agents.length := (List.getElem?_eq_some_iff.1 hz.1).1
    have h2 := hz.2
    rw [List.getElem?_take_of_lt hi] at h2
    have h1 : r.agent = a := by
      have := hz.1
      rw [← ha, List.getElem?_map, hr] at this
      exact Option.some.inj this
    have := ho i r e hr h2
    rw [h1] at this
    dsimp only
    rw [this, ok_bind, ← h1]
    rfl

end pieces

/-! ## The whole run -/

namespace Run
variable {rng : Rng S K} {par : ModelParams K} {spec : ModelSpec K} {inp : SimInput K} {biased : Bool}
  {draws : List (List K)} {initial : List (Agent K)} {maxEntry : Nat} {g : S}
  (R : Run rng par spec inp biased draws initial maxEntry g)

/-- The agents of period `t`. -/
def agents (t : Nat) : List (Agent K) := withEntrants maxEntry initial t (R.prev t)

theorem rows_agent {t : Nat} (ht : t < spec.num_periods) : (R.rows t).map Row.agent = R.agents t := by
  obtain ⟨row, -, -, h, -⟩ := periodRows_ok.1 (R.rows_ok t ht)
  exact h

theorem step (L : RngLaws rng) {t : Nat} (ht : t < spec.num_periods) :
    List.Forall₂ (fun r a' => ∃ x q, AgeStep spec inp t r x ∧ PartnerStep inp t r.agent q ∧
      a' = stepAgent spec t r x q) (R.rows t) (R.prev (t + 1)) := by
  rw [R.prev_succ t ht]
  refine stepAgents_forall₂ (nextChildAges_forall₂ L (R.ages_ok t ht)) ?_
  have := nextPartners_forall₂ L (R.partners_ok t ht)
  have h2 := R.rows_agent ht
  unfold agents at h2
  rw [← h2] at this
  rwa [List.forall₂_map_left_iff] at this

/-- Entrants of period `t` (given that entry periods do not exceed the largest one). -/
theorem agents_eq (hm : ∀ a ∈ initial, a.period ≤ maxEntry) (t : Nat) :
    R.agents t = R.prev t ++ initial.filter fun a => decide (a.period = t) := by
  unfold agents withEntrants
  split_ifs with h
  · rfl
  · have : (initial.filter fun a => decide (a.period = t)) = [] := by
      rw [List.filter_eq_nil_iff]
      intro a ha
      have := hm a ha
      simp only [decide_eq_true_eq]
      omega
    rw [this, List.append_nil]

/-- Induction over the periods of a run: a property of agents that entrants have and that one period
preserves holds of every row. -/
theorem induct (L : RngLaws rng) (P : Nat → Agent K → Prop)
    (h0 : ∀ a ∈ initial, P a.period a)
    (hs : ∀ t, t + 1 < spec.num_periods → ∀ r ∈ R.rows t, P t r.agent → ∀ x q,
      AgeStep spec inp t r x → PartnerStep inp t r.agent q → P (t + 1) (stepAgent spec t r x q)) :
    ∀ t, t < spec.num_periods → ∀ r ∈ R.rows t, P t r.agent := by
  have key : ∀ t, t < spec.num_periods → ∀ a ∈ R.agents t, P t a := by
    intro t
    induction t with
    | zero =>
      intro _ a ha
      unfold agents withEntrants at ha
      rw [if_pos (Nat.zero_le _), R.prev_zero, List.nil_append, List.mem_filter] at ha
      have := h0 a ha.1
      rwa [of_decide_eq_true ha.2] at this
    | succ t ih =>
      intro ht a ha
      have ht' : t < spec.num_periods := by omega
      have hp : ∀ a ∈ R.prev (t + 1), P (t + 1) a := by
        intro a ha
        obtain ⟨r, hr, x, q, h1, h2, rfl⟩ := forall₂_mem (R.step L ht') ha
        refine hs t ht r hr (ih ht' _ ?_) x q h1 h2
        rw [← R.rows_agent ht']
        exact List.mem_map_of_mem hr
      unfold agents withEntrants at ha
      split_ifs at ha with hle
      · rcases List.mem_append.1 ha with ha | ha
        · exact hp a ha
        · rw [List.mem_filter] at ha
          have := h0 a ha.1
          rwa [of_decide_eq_true ha.2] at this
      · exact hp a ha
  intro t ht r hr
  apply key t ht
  rw [← R.rows_agent ht]
  exact List.mem_map_of_mem hr


/-! ### Positions and identifiers -/

/-- The entrants of all periods up to `t`, in order of entry. -/
def entrantsUpTo (initial : List (Agent K)) (t : Nat) : List (Agent K) :=
  (List.range (t + 1)).flatMap fun s => initial.filter fun a => decide (a.period = s)

theorem entrantsUpTo_succ (initial : List (Agent K)) (t : Nat) :
    entrantsUpTo initial (t + 1)
      = entrantsUpTo initial t ++ initial.filter fun a => decide (a.period = t + 1) := by
  unfold entrantsUpTo
  rw [List.range_succ, List.flatMap_append]
  simp

theorem entrantsUpTo_perm (initial : List (Agent K)) (t : Nat) :
    (entrantsUpTo initial t).Perm (initial.filter fun a => decide (a.period ≤ t)) := by
  induction t with
  | zero =>
    simp only [entrantsUpTo, Nat.zero_add, List.range_one, List.flatMap_cons, List.flatMap_nil,
      List.append_nil, Nat.le_zero_eq]
    exact List.Perm.refl _
  | succ t ih =>
    rw [entrantsUpTo_succ]
    have h := List.filter_append_perm (fun a : Agent K => decide (a.period ≤ t))
      (initial.filter fun a => decide (a.period ≤ t + 1))
    refine List.Perm.trans ?_ h
    rw [List.filter_filter, List.filter_filter]
    have h1 : (initial.filter fun a => decide (a.period ≤ t) && decide (a.period ≤ t + 1))
        = initial.filter fun a => decide (a.period ≤ t) := by
      apply List.filter_congr
      intro a _
      rw [Bool.eq_iff_iff]
      simp only [Bool.and_eq_true, decide_eq_true_eq]
      omega
    have h2 : (initial.filter fun a => (!decide (a.period ≤ t)) && decide (a.period ≤ t + 1))
        = initial.filter fun a => decide (a.period = t + 1) := by
      apply List.filter_congr
      intro a _
      rw [Bool.eq_iff_iff]
      simp only [Bool.and_eq_true, Bool.not_eq_true', decide_eq_false_iff_not, decide_eq_true_eq]
      omega
    rw [h1, h2]
    exact ih.append_right _

theorem entrantsUpTo_prefix (initial : List (Agent K)) {s t : Nat} (h : s ≤ t) :
    entrantsUpTo initial s <+: entrantsUpTo initial t := by
  induction t with
  | zero => obtain rfl : s = 0 := by omega
            exact List.prefix_refl _
  | succ t ih =>
    rcases Nat.lt_or_ge t s with h' | h'
    · obtain rfl : s = t + 1 := by omega
      exact List.prefix_refl _
    · rw [entrantsUpTo_succ]
      exact (ih h').trans (List.prefix_append _ _)

theorem entrantsUpTo_nodup {initial : List (Agent K)} (h : (initial.map Agent.id).Nodup) (t : Nat) :
    ((entrantsUpTo initial t).map Agent.id).Nodup := by
  rw [((entrantsUpTo_perm initial t).map Agent.id).nodup_iff]
  exact h.sublist (List.Sublist.map _ List.filter_sublist)

/-- The agents of period `t` are the entrants of all periods up to `t`, in order of entry. -/
theorem agents_ids (L : RngLaws rng) (hm : ∀ a ∈ initial, a.period ≤ maxEntry) :
    ∀ t, t < spec.num_periods →
      (R.agents t).map Agent.id = (entrantsUpTo initial t).map Agent.id := by
  intro t
  induction t with
  | zero =>
    intro _
    rw [R.agents_eq hm, R.prev_zero]
    simp [entrantsUpTo]
  | succ t ih =>
    intro ht
    have ht' : t < spec.num_periods := by omega
    rw [R.agents_eq hm, entrantsUpTo_succ, List.map_append, List.map_append, ← ih ht',
      ← R.rows_agent ht', List.map_map]
    congr 1
    have h := R.step L ht'
    generalize R.rows t = rows at h
    generalize R.prev (t + 1) = prev at h
    induction h with
    | nil => rfl
    | cons h1 _ ih2 =>
      obtain ⟨x, q, -, -, rfl⟩ := h1
      simp only [List.map_cons, ih2]
      rfl

theorem agents_nodup (L : RngLaws rng) (hm : ∀ a ∈ initial, a.period ≤ maxEntry)
    (hid : (initial.map Agent.id).Nodup) {t : Nat} (ht : t < spec.num_periods) :
    ((R.agents t).map Agent.id).Nodup := by
  rw [R.agents_ids L hm t ht]
  exact entrantsUpTo_nodup hid t

/-- An agent keeps the position in the frame. -/
theorem next_at (L : RngLaws rng) (hm : ∀ a ∈ initial, a.period ≤ maxEntry) {t : Nat}
    (ht : t + 1 < spec.num_periods) {i : Nat} {r : Row K} (hr : (R.rows t)[i]? = some r) :
    ∃ r', (R.rows (t + 1))[i]? = some r' ∧ ∃ x q, AgeStep spec inp t r x ∧
      PartnerStep inp t r.agent q ∧ r'.agent = stepAgent spec t r x q := by
  obtain ⟨a', ha', x, q, h1, h2, rfl⟩ := forall₂_get (R.step L (by omega : t < spec.num_periods)) hr
  have h3 : (R.agents (t + 1))[i]? = some (stepAgent spec t r x q) := by
    rw [R.agents_eq hm, List.getElem?_append_left (List.getElem?_eq_some_iff.1 ha').1, ha']
  rw [← R.rows_agent ht, List.getElem?_map] at h3
  cases hr' : (R.rows (t + 1))[i]? with
  | none => rw [hr'] at h3; simp at h3
  | some r' =>
    rw [hr'] at h3
    exact ⟨r', rfl, x, q, h1, h2, Option.some.inj h3⟩

/-- Rows of the same agent in consecutive periods. -/
theorem next_row (L : RngLaws rng) (hm : ∀ a ∈ initial, a.period ≤ maxEntry)
    (hid : (initial.map Agent.id).Nodup) {t : Nat} (ht : t + 1 < spec.num_periods) {r r' : Row K}
    (hr : r ∈ R.rows t) (hr' : r' ∈ R.rows (t + 1)) (h : r'.agent.id = r.agent.id) :
    ∃ x q, AgeStep spec inp t r x ∧ PartnerStep inp t r.agent q ∧
      r'.agent = stepAgent spec t r x q := by
  obtain ⟨i, hi⟩ := List.mem_iff_getElem?.1 hr
  obtain ⟨r2, h2, x, q, h3, h4, h5⟩ := R.next_at L hm ht hi
  obtain ⟨j, hj⟩ := List.mem_iff_getElem?.1 hr'
  have hnd := R.agents_nodup L hm hid ht
  rw [← R.rows_agent ht, List.map_map] at hnd
  have e1 : ((R.rows (t + 1)).map (Agent.id ∘ Row.agent))[i]? = some r.agent.id := by
    rw [List.getElem?_map, h2]
    simp [h5, stepAgent]
  have e2 : ((R.rows (t + 1)).map (Agent.id ∘ Row.agent))[j]? = some r.agent.id := by
    rw [List.getElem?_map, hj]
    simp [h]
  have hij : i = j := by
    obtain ⟨hi', hi''⟩ := List.getElem?_eq_some_iff.1 e1
    obtain ⟨hj', hj''⟩ := List.getElem?_eq_some_iff.1 e2
    exact (List.Nodup.getElem_inj_iff hnd).1 (hi''.trans hj''.symm)
  subst hij
  rw [h2] at hj
  obtain rfl := Option.some.inj hj
  exact ⟨x, q, h3, h4, h5⟩

/-- The row of an agent in any later period. -/
theorem row_at (L : RngLaws rng) (hm : ∀ a ∈ initial, a.period ≤ maxEntry) {t : Nat} {i : Nat} {r : Row K}
    (hr : (R.rows t)[i]? = some r) (k : Nat) (ht : t + k < spec.num_periods) :
    ∃ r', (R.rows (t + k))[i]? = some r' ∧ r'.agent.id = r.agent.id := by
  induction k with
  | zero => exact ⟨r, hr, rfl⟩
  | succ k ih =>
    obtain ⟨r1, h1, h2⟩ := ih (by omega)
    obtain ⟨r2, h3, x, q, -, -, h4⟩ := R.next_at L hm (by omega : t + k + 1 < spec.num_periods) h1
    exact ⟨r2, h3, by rw [h4, ← h2]; rfl⟩

end Run
end Soepy
