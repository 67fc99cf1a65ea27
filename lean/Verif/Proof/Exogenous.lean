import Verif.Spec.Exogenous
import Verif.Proof.Shocks
import Verif.Proof.Usable

/-! # Births and partners in the simulator -/

set_option linter.unusedSectionVars false

namespace Soepy
open Soepy.Spec (Person)
variable {S K : Type} [Field K] [LinearOrder K] [IsStrictOrderedRing K] [FloorRing K] [Transc K]

/-! ## Tables -/

theorem tableEntry_get {values : List K} {T m : Nat} {t e : Nat}
    (ht : t < T) (he : e < m) (hl : values.length = T * m) :
    ((reshape T m values).getD t []).getD e 0 = values.getD (t * m + e) 0 := by
  have h1 : t < (reshape T m values).length := by rw [reshape_length]; exact ht
  have h2 : t * m + e < values.length := by
    rw [hl]
    calc t * m + e < t * m + m := by omega
      _ = (t + 1) * m := by ring
      _ ≤ T * m := Nat.mul_le_mul_right _ ht
  have h3 : e < ((values.drop (t * m)).take m).length := by simp; omega
  simp only [List.getD_eq_getElem?_getD, List.getElem?_eq_getElem h1, Option.getD_some, reshape_get ht,
    List.getElem?_eq_getElem h3, List.getElem?_eq_getElem h2, chunk_get he h2]

theorem probChild_entry {disk : String → List (Nat × K)} {spec : ModelSpec K} {l : List (List K)}
    (hlast : -1 ≤ spec.last_child_bearing_period)
    (h : genProbChildVector (readFiles disk spec.files) spec = .ok l) {t e : Nat}
    (ht : t < spec.num_periods) (he : e < 3) :
    (l.getD t []).getD e 0 = Spec.birthTable disk spec t e := by
  unfold genProbChildVector at h
  dsimp only at h
  split_ifs at h with hl
  · rw [not_not] at hl
    obtain rfl := Except.ok.inj h
    have hstop : t < sliceEnd spec.num_periods (min (spec.last_child_bearing_period + 1) spec.num_periods)
        ↔ (t : Int) ≤ spec.last_child_bearing_period := by
      unfold sliceEnd
      rw [if_neg (by omega)]
      omega
    unfold Spec.birthTable
    have hget : ∀ f : Nat → List K, ((List.range spec.num_periods).map f).getD t [] = f t := by
      intro f
      rw [List.getD_eq_getElem?_getD, List.getElem?_map, List.getElem?_range ht, Option.map_some,
        Option.getD_some]
    rw [hget]
    by_cases h1 : (t : Int) ≤ spec.last_child_bearing_period
    · rw [if_pos (hstop.2 h1), if_pos h1, show ((0 : K) + ·) = id from funext fun x => zero_add x,
        List.map_id, tableEntry_get ht he hl]
      rfl
    · rw [if_neg (fun h => h1 (hstop.1 h)), if_neg h1]
      simp only [List.getD_eq_getElem?_getD]
      rw [List.getElem?_replicate]
      split_ifs <;> rfl

theorem partnerTable_entry {rows : List (Nat × K)} {T E : Nat} {l : List (List K)}
    (h : partnerTable rows T E = .ok l) {t e : Nat} (ht : t < T) (he : e < E) :
    (l.getD t []).getD e 0 = Spec.tableEntry rows T E t e := by
  unfold partnerTable at h
  split_ifs at h with h1
  · dsimp only at h
    split_ifs at h with hl
    · rw [not_not] at hl
      obtain rfl := Except.ok.inj h
      rw [tableEntry_get ht he hl]
      rfl

theorem probPartner_entry {disk : String → List (Nat × K)} {spec : ModelSpec K}
    {l : List (List (Fin 2 → Fin 2 → K))}
    (h : genProbPartner (readFiles disk spec.files) spec = .ok l) {t e : Nat}
    (ht : t < spec.num_periods) (he : e < spec.num_educ_levels) :
    (l.getD t []).getD e (fun _ _ => 0)
      = ![![1 - Spec.arrivalTable disk spec t e, Spec.arrivalTable disk spec t e],
          ![Spec.separationTable disk spec t e, 1 - Spec.separationTable disk spec t e]] := by
  obtain ⟨sep, arr, hs, ha, rfl⟩ := genProbPartner_ok.1 h
  obtain ⟨s1, s2⟩ := partnerTable_shape hs
  obtain ⟨a1, a2⟩ := partnerTable_shape ha
  have e1 := partnerTable_entry hs ht he
  have e2 := partnerTable_entry ha ht he
  have ks : t < sep.length := by rw [s1]; exact ht
  have ka : t < arr.length := by rw [a1]; exact ht
  have ks' : e < (sep[t]).length := by rw [s2 _ (List.getElem_mem _)]; exact he
  have ka' : e < (arr[t]).length := by rw [a2 _ (List.getElem_mem _)]; exact he
  simp only [List.getD_eq_getElem?_getD, List.getElem?_eq_getElem ks, List.getElem?_eq_getElem ka,
    Option.getD_some, List.getElem?_eq_getElem ks', List.getElem?_eq_getElem ka'] at e1 e2
  simp only [List.getD_eq_getElem?_getD, List.getElem?_zipWith, List.getElem?_eq_getElem ks,
    List.getElem?_eq_getElem ka, Option.getD_some, List.getElem?_eq_getElem ks',
    List.getElem?_eq_getElem ka']
  rw [e1, e2]
  rfl

/-! ## One period -/

/-- Demographic state of an agent. -/
def Agent.person (a : Agent K) : Person := { educ := a.educ, age := a.age, partner := a.partner }

/-- The tables used by the simulator are those of the files. -/
structure ExoOf (env : Env S K) (spec : ModelSpec K) (inp : SimInput K) : Prop where
  child : genProbChildVector (readFiles env.disk spec.files) spec = .ok inp.probChild
  partner : genProbPartner (readFiles env.disk spec.files) spec = .ok inp.probPartner

theorem CachedOk.exoOf {env : Env S K} {spec : ModelSpec K} {biased : Bool} {g g' : S} {c : Cached K}
    (h : CachedOk env spec biased g g' c) (sol : Solution K) : ExoOf env spec (c.input sol) :=
  ⟨h.probChild, h.probPartner⟩

theorem npGet_getD {α : Type} {l : List α} {i : Nat} {x d : α} (h : npGet l (i : Int) = .ok x) :
    i < l.length ∧ l.getD i d = x := by
  have h1 := npGet_nat h
  refine ⟨(List.getElem?_eq_some_iff.1 h1).1, ?_⟩
  rw [List.getD_eq_getElem?_getD, h1, Option.getD_some]

theorem birthProb_eq {env : Env S K} {spec : ModelSpec K} {inp : SimInput K} (hX : ExoOf env spec inp)
    (hlast : -1 ≤ spec.last_child_bearing_period) {t e : Nat} {p : K}
    (h : birthProb inp t e = .ok p) : p = Spec.birthTable env.disk spec (t + 1) e := by
  unfold birthProb at h
  obtain ⟨row, h1, h2⟩ := bind_ok.1 h
  rw [show ((t : Int) + 1) = ((t + 1 : Nat) : Int) by push_cast; ring] at h1
  obtain ⟨s1, s2⟩ := genProbChildVector_shape hX.child
  obtain ⟨k1, k2⟩ := npGet_getD (d := []) h1
  obtain ⟨k3, k4⟩ := npGet_getD (d := 0) h2
  rw [s1] at k1
  rw [s2 row (List.mem_of_getElem? (npGet_nat h1))] at k3
  rw [← probChild_entry hlast hX.child k1 k3, k2, k4]

theorem partnerProb_eq {env : Env S K} {spec : ModelSpec K} {inp : SimInput K} (hX : ExoOf env spec inp)
    {t e : Nat} {old new : Fin 2} {p : K} (h : partnerProb inp t e old new = .ok p) :
    p = (![![1 - Spec.arrivalTable env.disk spec t e, Spec.arrivalTable env.disk spec t e],
          ![Spec.separationTable env.disk spec t e, 1 - Spec.separationTable env.disk spec t e]] :
          Fin 2 → Fin 2 → K) old new := by
  unfold partnerProb at h
  obtain ⟨row, h1, h⟩ := bind_ok.1 h
  obtain ⟨m, h2, h⟩ := bind_ok.1 h
  rw [pure_ok] at h
  obtain ⟨s1, s2⟩ := genProbPartner_shape hX.partner
  obtain ⟨k1, k2⟩ := npGet_getD (d := []) h1
  obtain ⟨k3, k4⟩ := npGet_getD (d := fun _ _ => 0) h2
  rw [s1] at k1
  rw [s2 row (List.mem_of_getElem? (npGet_nat h1))] at k3
  rw [← h, ← k4, ← k2, probPartner_entry hX.partner k1 k3]

theorem mapE_eq_map {α β : Type} {f : α → Except PyErr β} {g : α → β} {xs : List α} {ys : List β}
    (h : mapE f xs = .ok ys) (hg : ∀ x ∈ xs, ∀ y, f x = .ok y → y = g x) : ys = xs.map g := by
  have h1 : mapE f xs = .ok (xs.map g) := by
    refine mapE_of_forall fun x hx => ?_
    obtain ⟨i, hi, rfl⟩ := List.getElem_of_mem hx
    have hl := mapE_length h
    have h2 := mapE_get h i hi (hl ▸ hi)
    rw [h2, ← hg _ (List.getElem_mem _) _ h2]
  rw [h] at h1
  exact Except.ok.inj h1

theorem nextChildAges_eq {env : Env S K} (L : RngLaws env.rng) {spec : ModelSpec K} {inp : SimInput K}
    (hS : SpaceOf spec inp) (hX : ExoOf env spec inp) (hlast : -1 ≤ spec.last_child_bearing_period) {t : Nat}
    (ht : t + 1 < spec.num_periods) {rows : List (Row K)}
    (hr : ∀ r ∈ rows, Spec.InRange spec r.agent.state ∧ r.out.idx = (rowOf spec r.agent.state : Int))
    {g g' : S} {ages : List Int} (h : nextChildAges env.rng spec inp t rows g = .ok (ages, g')) :
    ages = Spec.agesNext spec (rows.map fun r => r.agent.person)
      (Spec.births env spec t (rows.map fun r => r.agent.person) g).1 ∧
    g' = (Spec.births env spec t (rows.map fun r => r.agent.person) g).2 := by
  have hrule : ∀ {rules}, mapE (fun r : Row K => npGet inp.childAgeUpdateRule r.out.idx) rows
      = .ok rules → rules = rows.map fun r => Spec.older spec.child_age_max r.agent.age := by
    intro rules h
    refine mapE_eq_map h fun r hx y hy => ?_
    rw [hS.rule, (hr r hx).2, rule_get (hr r hx).1] at hy
    exact (Except.ok.inj hy).symm
  unfold nextChildAges at h
  rw [if_neg (by omega)] at h
  unfold Spec.births Spec.agesNext
  split_ifs at h with h2
  · obtain ⟨ps, hps, h⟩ := bind_ok.1 h
    obtain ⟨⟨ds, g1⟩, hds, h⟩ := bind_ok.1 h
    obtain ⟨rules, hrules, h⟩ := bind_ok.1 h
    simp only [pure_ok, Prod.mk.injEq] at h
    obtain ⟨rfl, rfl⟩ := h
    obtain ⟨hv, he⟩ := npBinomial_ok_iff.1 hds
    have hp : ps = rows.map fun r => Spec.birthTable env.disk spec (t + 1) r.agent.educ :=
      mapE_eq_map hps fun r _ y hy => birthProb_eq hX hlast hy
    rw [if_pos h2, List.map_map]
    have : ((fun p : Person => Spec.birthTable env.disk spec (t + 1) p.educ) ∘ fun r : Row K => r.agent.person)
        = fun r => Spec.birthTable env.disk spec (t + 1) r.agent.educ := rfl
    rw [this, ← hp, ← he, hrule hrules]
    refine ⟨?_, rfl⟩
    rw [List.zipWith_map_left, List.zipWith_map_right, List.zipWith_comm]
    rfl
  · obtain ⟨rules, hrules, h⟩ := bind_ok.1 h
    simp only [pure_ok, Prod.mk.injEq] at h
    obtain ⟨rfl, rfl⟩ := h
    rw [if_neg h2, hrule hrules]
    refine ⟨?_, rfl⟩
    rw [List.zipWith_map_right, List.zipWith_self, List.map_map]
    rfl

theorem scatter_nil {α : Type} (mask : List Bool) (old : List α) : scatter mask [] old = old := by
  induction mask generalizing old with
  | nil => cases old <;> rfl
  | cons b ms ih =>
    cases old with
    | nil => cases b <;> rfl
    | cons o os => cases b <;> simp [scatter, ih]

theorem partnersNext_eq : ∀ (agents : List (Agent K)) (arr sep : List Nat),
    (∀ a ∈ agents, a.partner < 2) →
    arr.length = (agents.filter fun a => decide (a.partner = 0)).length →
    sep.length = (agents.filter fun a => decide (a.partner = 1)).length →
    scatter (agents.map fun a => decide (a.partner = 1))
      (List.zipWith (fun (a : Agent K) d => a.partner - d)
        (agents.filter fun a => decide (a.partner = 1)) sep)
      (scatter (agents.map fun a => decide (a.partner = 0)) arr (agents.map Agent.partner))
    = Spec.partnersNext (agents.map Agent.person) arr sep
  | [], arr, sep, _, _, _ => by simp [scatter, Spec.partnersNext]
  | a :: as, arr, sep, hp, h0, h1 => by
    have ha := hp a List.mem_cons_self
    have hp' := fun b hb => hp b (List.mem_cons_of_mem _ hb)
    have : a.partner = 0 ∨ a.partner = 1 := by omega
    rcases this with hq | hq
    · have e0 : ((a :: as).filter fun a => decide (a.partner = 0))
          = a :: as.filter fun a => decide (a.partner = 0) := List.filter_cons_of_pos (by simp [hq])
      have e1 : ((a :: as).filter fun a => decide (a.partner = 1))
          = as.filter fun a => decide (a.partner = 1) := List.filter_cons_of_neg (by simp [hq])
      rw [e0] at h0
      rw [e1] at h1 ⊢
      cases arr with
      | nil => simp at h0
      | cons x xs =>
        have ih := partnersNext_eq as xs sep hp' (by simpa using h0) h1
        simp only [List.map_cons, hq, decide_true, show (decide ((0 : Nat) = 1)) = false from rfl, scatter,
          Spec.partnersNext, Agent.person, if_true, List.headD_cons, List.tail_cons]
        rw [← ih]
    · have e0 : ((a :: as).filter fun a => decide (a.partner = 0))
          = as.filter fun a => decide (a.partner = 0) := List.filter_cons_of_neg (by simp [hq])
      have e1 : ((a :: as).filter fun a => decide (a.partner = 1))
          = a :: as.filter fun a => decide (a.partner = 1) := List.filter_cons_of_pos (by simp [hq])
      rw [e0] at h0
      rw [e1] at h1 ⊢
      cases sep with
      | nil => simp at h1
      | cons x xs =>
        have ih := partnersNext_eq as arr xs hp' h0 (by simpa using h1)
        simp only [List.map_cons, hq, decide_true, Spec.partnersNext, Agent.person, List.headD_cons, List.tail_cons, List.zipWith_cons_cons,
          one_ne_zero, if_false]
        rw [← ih]
        rfl

theorem nextPartners_eq {env : Env S K} (L : RngLaws env.rng) {spec : ModelSpec K} {inp : SimInput K}
    (hX : ExoOf env spec inp) {t : Nat} {agents : List (Agent K)} (hp : ∀ a ∈ agents, a.partner < 2)
    {g g' : S} {qs : List Nat} (h : nextPartners env.rng inp t agents g = .ok (qs, g')) :
    qs = Spec.partnersNext (agents.map Agent.person)
      (Spec.arrivals env spec t (agents.map Agent.person) g).1
      (Spec.separations env spec t (agents.map Agent.person)
        (Spec.arrivals env spec t (agents.map Agent.person) g).2).1 ∧
    g' = (Spec.separations env spec t (agents.map Agent.person)
        (Spec.arrivals env spec t (agents.map Agent.person) g).2).2 := by
  unfold nextPartners at h
  obtain ⟨⟨new1, g1⟩, hn, h⟩ := bind_ok.1 h
  dsimp only at h
  have filt : ∀ k : Nat, (agents.map Agent.person).filter (fun p => decide (p.partner = k))
      = (agents.filter fun a => decide (a.partner = k)).map Agent.person := by
    intro k
    rw [List.filter_map]
    rfl
  have h1 : (Spec.arrivals env spec t (agents.map Agent.person) g).1.length
        = (agents.filter fun a => decide (a.partner = 0)).length ∧
      g1 = (Spec.arrivals env spec t (agents.map Agent.person) g).2 ∧
      new1 = scatter (agents.map fun a => decide (a.partner = 0))
        (Spec.arrivals env spec t (agents.map Agent.person) g).1 (agents.map Agent.partner) := by
    unfold Spec.arrivals
    dsimp only
    rw [filt 0]
    by_cases he : (agents.filter fun a => decide (a.partner = 0)).isEmpty
    · rw [if_pos he] at hn
      simp only [pure_ok, Prod.mk.injEq] at hn
      obtain ⟨rfl, rfl⟩ := hn
      rw [List.isEmpty_iff.1 he, List.map_nil, if_pos rfl, scatter_nil]
      exact ⟨rfl, rfl, rfl⟩
    · rw [if_neg he] at hn
      obtain ⟨ps, hps, hn⟩ := bind_ok.1 hn
      obtain ⟨⟨ds, g2⟩, hds, hn⟩ := bind_ok.1 hn
      simp only [pure_ok, Prod.mk.injEq] at hn
      obtain ⟨rfl, rfl⟩ := hn
      obtain ⟨hv, heq⟩ := npBinomial_ok_iff.1 hds
      have hps' := mapE_eq_map (g := fun a : Agent K => Spec.arrivalTable env.disk spec t a.educ) hps
        fun a _ y hy => partnerProb_eq hX hy
      rw [if_neg (by
        intro h
        rw [List.map_eq_nil_iff] at h
        rw [h] at he
        exact he rfl), List.map_map]
      have : ((fun p : Person => Spec.arrivalTable env.disk spec t p.educ) ∘ Agent.person (K := K))
          = fun a => Spec.arrivalTable env.disk spec t a.educ := rfl
      rw [this, ← hps', ← heq]
      refine ⟨?_, rfl, by rw [List.map_map]; rfl⟩
      have := L.binomial_length g ps hv
      rw [← heq] at this
      rw [this, mapE_length hps]
  obtain ⟨hl, rfl, rfl⟩ := h1
  have h2 : (Spec.separations env spec t (agents.map Agent.person)
        (Spec.arrivals env spec t (agents.map Agent.person) g).2).1.length
        = (agents.filter fun a => decide (a.partner = 1)).length ∧
      g' = (Spec.separations env spec t (agents.map Agent.person)
        (Spec.arrivals env spec t (agents.map Agent.person) g).2).2 ∧
      qs = scatter (agents.map fun a => decide (a.partner = 1))
        (List.zipWith (fun (a : Agent K) d => a.partner - d)
          (agents.filter fun a => decide (a.partner = 1))
          (Spec.separations env spec t (agents.map Agent.person)
            (Spec.arrivals env spec t (agents.map Agent.person) g).2).1)
        (scatter (agents.map fun a => decide (a.partner = 0))
          (Spec.arrivals env spec t (agents.map Agent.person) g).1 (agents.map Agent.partner)) := by
    generalize Spec.arrivals env spec t (agents.map Agent.person) g = arr at *
    unfold Spec.separations
    dsimp only
    rw [filt 1]
    by_cases he : (agents.filter fun a => decide (a.partner = 1)).isEmpty
    · rw [if_pos he] at h
      simp only [pure_ok, Prod.mk.injEq] at h
      obtain ⟨rfl, rfl⟩ := h
      rw [List.isEmpty_iff.1 he, List.map_nil, if_pos rfl]
      refine ⟨rfl, rfl, ?_⟩
      rw [List.zipWith_nil_left, scatter_nil]
    · rw [if_neg he] at h
      obtain ⟨ps, hps, h⟩ := bind_ok.1 h
      obtain ⟨⟨ds, g2⟩, hds, h⟩ := bind_ok.1 h
      simp only [pure_ok, Prod.mk.injEq] at h
      obtain ⟨rfl, rfl⟩ := h
      obtain ⟨hv, heq⟩ := npBinomial_ok_iff.1 hds
      have hps' := mapE_eq_map (g := fun a : Agent K => Spec.separationTable env.disk spec t a.educ) hps
        fun a _ y hy => partnerProb_eq hX hy
      rw [if_neg (by
        intro h
        rw [List.map_eq_nil_iff] at h
        rw [h] at he
        exact he rfl), List.map_map]
      have : ((fun p : Person => Spec.separationTable env.disk spec t p.educ) ∘ Agent.person (K := K))
          = fun a => Spec.separationTable env.disk spec t a.educ := rfl
      rw [this, ← hps', ← heq]
      refine ⟨?_, rfl, by rw [List.map_map]; rfl⟩
      have := L.binomial_length arr.2 ps hv
      rw [← heq] at this
      rw [this, mapE_length hps]
  obtain ⟨hl', rfl, rfl⟩ := h2
  exact ⟨partnersNext_eq agents _ _ hp hl hl', rfl⟩

/-! ## The whole simulation -/

/-- What does not depend on choices: number, period, demographic state, and the type if `ty` is set. -/
def Agent.exo (ty : Bool) (a : Agent K) : Nat × Nat × Person × Nat :=
  (a.id, a.period, a.person, if ty then a.type else 0)

theorem stepAgents_get {spec : ModelSpec K} {t : Nat} : ∀ {rows : List (Row K)} {ages : List Int}
    {qs : List Nat} {k : Nat} {a' : Agent K}, (stepAgents spec t rows ages qs)[k]? = some a' →
    ∃ r x q, rows[k]? = some r ∧ ages[k]? = some x ∧ qs[k]? = some q ∧ a' = stepAgent spec t r x q
  | [], _, _, k, a', h => by simp [stepAgents] at h
  | r :: rs, [], _, k, a', h => by simp [stepAgents] at h
  | r :: rs, x :: xs, [], k, a', h => by simp [stepAgents] at h
  | r :: rs, x :: xs, q :: qs, 0, a', h => by
    simp only [stepAgents, List.getElem?_cons_zero, Option.some.injEq] at h
    exact ⟨r, x, q, rfl, rfl, rfl, h.symm⟩
  | r :: rs, x :: xs, q :: qs, k + 1, a', h => by
    simp only [stepAgents, List.getElem?_cons_succ] at h
    obtain ⟨r', x', q', h1, h2, h3, h4⟩ := stepAgents_get h
    exact ⟨r', x', q', by simpa using h1, by simpa using h2, by simpa using h3, h4⟩

theorem stepAgents_exo {spec : ModelSpec K} {t : Nat} {ty : Bool} : ∀ {rows rows' : List (Row K)}
    {ages : List Int} {qs : List Nat},
    rows.map (fun r => r.agent.exo ty) = rows'.map (fun r => r.agent.exo ty) →
    (stepAgents spec t rows ages qs).map (Agent.exo ty)
      = (stepAgents spec t rows' ages qs).map (Agent.exo ty)
  | [], [], _, _, _ => rfl
  | [], r' :: rs', _, _, h => by simp at h
  | r :: rs, [], _, _, h => by simp at h
  | r :: rs, r' :: rs', [], _, _ => rfl
  | r :: rs, r' :: rs', x :: xs, [], _ => rfl
  | r :: rs, r' :: rs', x :: xs, q :: qs, h => by
    simp only [List.map_cons, List.cons.injEq] at h
    obtain ⟨h1, h2⟩ := h
    simp only [stepAgents, List.map_cons, stepAgents_exo h2, List.cons.injEq, and_true]
    simp only [Agent.exo, Agent.person, stepAgent, Prod.mk.injEq, Person.mk.injEq] at h1 ⊢
    exact ⟨h1.1, by rw [h1.2.1], ⟨h1.2.2.1.1, trivial, trivial⟩, h1.2.2.2⟩

theorem zipInit_exo {par par' : ModelParams K} {spec : ModelSpec K} {biased biased' : Bool} {ty : Bool} :
    ∀ (id : Nat) (es ps : List Nat) (as : List Int) (qs xs ys ts ts' : List Nat),
    ts.length = ts'.length → (ty = true → ts = ts') →
    (zipInit par spec biased id es ps as qs xs ys ts).map (Agent.exo ty)
      = (zipInit par' spec biased' id es ps as qs xs ys ts').map (Agent.exo ty)
  | id, e :: es, p :: ps, a :: as, q :: qs, x :: xs, y :: ys, t :: ts, t' :: ts', hl, ht => by
    simp only [zipInit, List.map_cons]
    rw [zipInit_exo (id + 1) es ps as qs xs ys ts ts' (by simpa using hl)
      (fun h => (List.cons.inj (ht h)).2)]
    congr 1
    simp only [Agent.exo, Agent.person, initAgent]
    cases ty with
    | false => rfl
    | true => rw [(List.cons.inj (ht rfl)).1]
  | id, [], ps, as, qs, xs, ys, ts, ts', _, _ => by simp [zipInit]
  | id, e :: es, [], as, qs, xs, ys, ts, ts', _, _ => by simp [zipInit]
  | id, e :: es, p :: ps, [], qs, xs, ys, ts, ts', _, _ => by simp [zipInit]
  | id, e :: es, p :: ps, a :: as, [], xs, ys, ts, ts', _, _ => by simp [zipInit]
  | id, e :: es, p :: ps, a :: as, q :: qs, [], ys, ts, ts', _, _ => by simp [zipInit]
  | id, e :: es, p :: ps, a :: as, q :: qs, x :: xs, [], ts, ts', _, _ => by simp [zipInit]
  | id, e :: es, p :: ps, a :: as, q :: qs, x :: xs, y :: ys, [], [], _, _ => by simp [zipInit]
  | id, e :: es, p :: ps, a :: as, q :: qs, x :: xs, y :: ys, [], t' :: ts', hl, _ => by simp at hl
  | id, e :: es, p :: ps, a :: as, q :: qs, x :: xs, y :: ys, t :: ts, [], hl, _ => by simp at hl

/-- Initial states of two simulations with different parameters. -/
theorem prepare_common {rng : Rng S K} (L : RngLaws rng) {par par' : ModelParams K} {spec : ModelSpec K}
    {probEduc : List K} {probChildAge : List (List K)} {probPartner : List K}
    {probExpPt probExpFt : List (List K)} {biased biased' : Bool} {g : S}
    {i1 i2 : List (Agent K)} {d1 d2 : List (List K)} {g1 g2 : S} {ty : Bool}
    (ht : ty = true → par.type_shares = par'.type_shares)
    (h : prepareSimulationData rng par spec probEduc probChildAge probPartner probExpPt probExpFt biased g
      = .ok ((i1, d1), g1))
    (h' : prepareSimulationData rng par' spec probEduc probChildAge probPartner probExpPt probExpFt biased' g
      = .ok ((i2, d2), g2)) :
    i1.map (Agent.exo ty) = i2.map (Agent.exo ty) := by
  unfold prepareSimulationData at h h'
  dsimp only at h h'
  obtain ⟨⟨educs, s1⟩, a1, h⟩ := bind_ok.1 h
  obtain ⟨periods, a2, h⟩ := bind_ok.1 h
  obtain ⟨⟨arrs, s2⟩, a3, h⟩ := bind_ok.1 h
  obtain ⟨ages, a4, h⟩ := bind_ok.1 h
  obtain ⟨partners, a5, h⟩ := bind_ok.1 h
  obtain ⟨pts, a6, h⟩ := bind_ok.1 h
  obtain ⟨fts, a7, h⟩ := bind_ok.1 h
  obtain ⟨⟨types, s3⟩, a8, h⟩ := bind_ok.1 h
  rw [a1, ok_bind] at h'
  dsimp only at h'
  rw [a2, ok_bind, a3, ok_bind] at h'
  dsimp only at h'
  rw [a4, ok_bind, a5, ok_bind, a6, ok_bind, a7, ok_bind] at h'
  obtain ⟨⟨types', s4⟩, b8, h'⟩ := bind_ok.1 h'
  simp only [pure_ok, Prod.mk.injEq] at h h'
  obtain ⟨⟨rfl, -⟩, -⟩ := h
  obtain ⟨⟨rfl, -⟩, -⟩ := h'
  obtain ⟨-, -, v1, e1⟩ := npChoice_ok_iff.1 a8
  obtain ⟨-, -, v2, e2⟩ := npChoice_ok_iff.1 b8
  refine zipInit_exo 0 _ _ _ _ _ _ _ _ ?_ ?_
  · have l1 := L.choice_length s2 spec.num_agents_sim par.type_shares v1
    have l2 := L.choice_length s2 spec.num_agents_sim par'.type_shares v2
    rw [← e1] at l1
    rw [← e2] at l2
    exact l1.trans l2.symm
  · intro hty
    rw [← ht hty, ← e1] at e2
    exact (Prod.mk.inj e2).1.symm

section two
variable {env : Env S K} {par par' : ModelParams K} {spec : ModelSpec K} {inp inp' : SimInput K}
  {biased biased' : Bool} {draws draws' : List (List K)} {initial initial' : List (Agent K)}
  {m : Nat} {g : S}

theorem exo_filter {ty : Bool} {t : Nat} {xs ys : List (Agent K)}
    (h : xs.map (Agent.exo ty) = ys.map (Agent.exo ty)) :
    (xs.filter fun a => decide (a.period = t)).map (Agent.exo ty)
      = (ys.filter fun a => decide (a.period = t)).map (Agent.exo ty) := by
  have key : ∀ zs : List (Agent K), (zs.filter fun a => decide (a.period = t)).map (Agent.exo ty)
      = (zs.map (Agent.exo ty)).filter fun p => decide (p.2.1 = t) := by
    intro zs
    rw [List.filter_map]
    rfl
  rw [key, key, h]

theorem exo_person {ty : Bool} {xs ys : List (Agent K)} (h : xs.map (Agent.exo ty) = ys.map (Agent.exo ty)) :
    xs.map Agent.person = ys.map Agent.person := by
  have := congrArg (List.map fun p : Nat × Nat × Person × Nat => p.2.2.1) h
  simpa [List.map_map, Function.comp_def, Agent.exo] using this

/-- Draws, ages and partners of period `t` as functions of the persons present. -/
theorem Run.demography (L : RngLaws env.rng) (R : Run env.rng par spec inp biased draws initial m g)
    (hS : SpaceOf spec inp) (hX : ExoOf env spec inp) (hA : AgesFit spec)
    (hlast : -1 ≤ spec.last_child_bearing_period)
    (h0 : ∀ a ∈ initial, a.period < spec.num_periods → Spec.InRange spec a.state) {t : Nat}
    (ht : t + 1 < spec.num_periods) :
    let pop := (R.rows t).map fun r => r.agent.person
    let b := Spec.births env spec t pop (R.gen t)
    let ar := Spec.arrivals env spec t pop b.2
    let se := Spec.separations env spec t pop ar.2
    R.ages t = Spec.agesNext spec pop b.1 ∧ R.partners t = Spec.partnersNext pop ar.1 se.1 ∧
      R.gen (t + 1) = se.2 := by
  intro pop b ar se
  have hin := R.inRange L hS hA h0 t (by omega)
  obtain ⟨e1, e2⟩ := nextChildAges_eq L hS hX hlast ht hin (R.ages_ok t (by omega))
  have hag : (R.agents t).map Agent.person = pop := by
    rw [← R.rows_agent (by omega), List.map_map]
    rfl
  have hp : ∀ x ∈ R.agents t, x.partner < 2 := by
    intro x hx
    rw [← R.rows_agent (by omega)] at hx
    obtain ⟨r, hr, rfl⟩ := List.mem_map.1 hx
    exact (hin r hr).1.partner
  obtain ⟨e3, e4⟩ := nextPartners_eq L hX hp (R.partners_ok t (by omega))
  rw [hag, e2] at e3 e4
  exact ⟨e1, e3, e4⟩

/-- Two simulations whose initial states agree in the demographic variables agree in them always. -/
theorem Run.common (L : RngLaws env.rng) (R : Run env.rng par spec inp biased draws initial m g)
    (R' : Run env.rng par' spec inp' biased' draws' initial' m g)
    (hS : SpaceOf spec inp) (hS' : SpaceOf spec inp') (hX : ExoOf env spec inp) (hX' : ExoOf env spec inp')
    (hA : AgesFit spec) (hlast : -1 ≤ spec.last_child_bearing_period)
    (h0 : ∀ a ∈ initial, a.period < spec.num_periods → Spec.InRange spec a.state)
    (h0' : ∀ a ∈ initial', a.period < spec.num_periods → Spec.InRange spec a.state) {ty : Bool}
    (hi : initial.map (Agent.exo ty) = initial'.map (Agent.exo ty)) :
    ∀ t, t < spec.num_periods →
      (R.rows t).map (fun r => r.agent.exo ty) = (R'.rows t).map (fun r => r.agent.exo ty) ∧
      R.gen t = R'.gen t := by
  have fromPrev : ∀ t, t < spec.num_periods →
      (R.prev t).map (Agent.exo ty) = (R'.prev t).map (Agent.exo ty) →
      (R.rows t).map (fun r => r.agent.exo ty) = (R'.rows t).map (fun r => r.agent.exo ty) := by
    intro t ht h
    have e1 : (R.rows t).map (fun r => r.agent.exo ty) = (R.agents t).map (Agent.exo ty) := by
      rw [← R.rows_agent ht, List.map_map]; rfl
    have e2 : (R'.rows t).map (fun r => r.agent.exo ty) = (R'.agents t).map (Agent.exo ty) := by
      rw [← R'.rows_agent ht, List.map_map]; rfl
    rw [e1, e2]
    unfold Run.agents withEntrants
    split_ifs
    · rw [List.map_append, List.map_append, h, exo_filter hi]
    · exact h
  intro t
  induction t with
  | zero =>
    intro ht
    refine ⟨fromPrev 0 ht (by rw [R.prev_zero, R'.prev_zero]), by rw [R.gen_zero, R'.gen_zero]⟩
  | succ t ih =>
    intro ht
    obtain ⟨e1, e2⟩ := ih (by omega)
    have hpop : ((R.rows t).map fun r => r.agent.person) = (R'.rows t).map fun r => r.agent.person := by
      have := exo_person (ty := ty) (xs := (R.rows t).map Row.agent) (ys := (R'.rows t).map Row.agent)
        (by rw [List.map_map, List.map_map]; exact e1)
      rw [List.map_map, List.map_map] at this
      exact this
    obtain ⟨d1, d2, d3⟩ := R.demography L hS hX hA hlast h0 ht
    obtain ⟨d1', d2', d3'⟩ := R'.demography L hS' hX' hA hlast h0' ht
    refine ⟨fromPrev (t + 1) ht ?_, ?_⟩
    · rw [R.prev_succ t (by omega), R'.prev_succ t (by omega), d1, d1', d2, d2', hpop, e2]
      exact stepAgents_exo e1
    · rw [d3, d3', hpop, e2]

end two

theorem flatten_range_single {α : Type} (f : Nat → List α) (t T : Nat) (h : ∀ s < T, s ≠ t → f s = []) :
    ((List.range T).map f).flatten = if t < T then f t else [] := by
  induction T with
  | zero => simp
  | succ T ih =>
    rw [List.range_succ, List.map_append, List.flatten_append, ih fun s hs => h s (by omega)]
    simp only [List.map_cons, List.map_nil, List.flatten_cons, List.flatten_nil, List.append_nil]
    by_cases e : T = t
    · subst e; simp
    · rw [h T (by omega) e, List.append_nil]
      by_cases h1 : t < T
      · rw [if_pos h1, if_pos (by omega)]
      · rw [if_neg h1, if_neg (by omega)]

theorem personOf_recorded (q : Row K) : Spec.personOf (recorded false q) = q.agent.person := by
  simp [Spec.personOf, Agent.person, recorded_educ, recorded_age, recorded_partner]

/-- The rows of one period. -/
theorem Run.filter_period {rng : Rng S K} (L : RngLaws rng) {par : ModelParams K} {spec : ModelSpec K}
    {inp : SimInput K} {biased : Bool} {draws : List (List K)} {initial : List (Agent K)} {m : Nat} {g : S}
    (R : Run rng par spec inp biased draws initial m g) {t : Nat} (ht : t < spec.num_periods) :
    (((List.range spec.num_periods).map R.rows).flatten.map (recorded false)).filter
      (fun r => decide (r.period = (t : Int))) = (R.rows t).map (recorded false) := by
  rw [List.map_flatten, List.filter_flatten, List.map_map, List.map_map,
    flatten_range_single _ t, if_pos ht]
  · show ((R.rows t).map (recorded false)).filter _ = _
    rw [List.filter_eq_self]
    intro r hr
    obtain ⟨q, hq, rfl⟩ := List.mem_map.1 hr
    rw [recorded_period, R.period_eq L t ht q hq]
    simp
  · intro s hs hne
    show ((R.rows s).map (recorded false)).filter _ = _
    rw [List.filter_eq_nil_iff]
    intro r hr
    obtain ⟨q, hq, rfl⟩ := List.mem_map.1 hr
    rw [recorded_period, R.period_eq L s hs q hq]
    simpa using hne

end Soepy
