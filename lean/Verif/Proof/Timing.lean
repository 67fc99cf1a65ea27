import Verif.Proof.Units
import Verif.Proof.Reference
import Verif.Spec.Timing

/-! Which periods of the tables matter for what. -/

set_option linter.unusedSectionVars false

namespace Soepy
variable {S K : Type} [Field K] [LinearOrder K] [IsStrictOrderedRing K] [FloorRing K] [Transc K]

/-! ## The solver -/

/-- Two economies that differ in the probabilities only, and in these only before `t0` and in the last period. -/
structure Later (t0 : Nat) (e e' : Spec.Economy K) : Prop where
  spec : e'.spec = e.spec
  par : e'.par = e.par
  biased : e'.biased = e.biased
  regime : e'.elterngeldRegime = e.elterngeldRegime
  draws : e'.draws = e.draws
  weights : e'.weights = e.weights
  birth : ∀ t, t0 ≤ t → t + 1 < e.spec.num_periods → ∀ ed, e'.birth t ed = e.birth t ed
  partner : ∀ t, t0 ≤ t → t + 1 < e.spec.num_periods → ∀ ed p q, e'.partner t ed p q = e.partner t ed p q

theorem Later.flow {t0 : Nat} {e e' : Spec.Economy K} (h : Later t0 e e') : Spec.flow e' = Spec.flow e := by
  obtain ⟨spec, par, biased, regime, draws, weights, b, p⟩ := e
  obtain ⟨spec', par', biased', regime', draws', weights', b', p'⟩ := e'
  obtain ⟨h1, h2, h3, h4, -, -, -, -⟩ := h
  dsimp only at h1 h2 h3 h4
  subst h1 h2 h3 h4
  rfl

theorem Later.stock {t0 : Nat} {e e' : Spec.Economy K} (h : Later t0 e e') : Spec.stockNext e' = Spec.stockNext e := by
  funext s x c
  unfold Spec.stockNext
  rw [h.spec, h.par, h.biased]

theorem continuation_nothing (e : Spec.Economy K) (s : State) (x : K) (c : Fin 3) :
    Spec.continuation e (Spec.W e 0) s x c = 0 := by
  have hW : ∀ s, Spec.W e 0 s = fun _ => 0 := fun s => funext fun x => rfl
  unfold Spec.continuation
  simp only [hW, interp_zero, mul_zero, add_zero]

theorem Later.continuation {t0 : Nat} {e e' : Spec.Economy K} (h : Later t0 e e') {r : Nat}
    (ih : ∀ s : State, t0 ≤ s.period → s.period + r ≤ e.spec.num_periods → ∀ x, Spec.W e' r s x = Spec.W e r s x)
    {s : State} (hs : t0 ≤ s.period) (ht : s.period + 1 + r ≤ e.spec.num_periods) (x : K) (c : Fin 3) :
    Spec.continuation e' (Spec.W e' r) s x c = Spec.continuation e (Spec.W e r) s x c := by
  rcases Nat.eq_zero_or_pos r with rfl | hr
  · rw [continuation_nothing, continuation_nothing]
  · have hi : ∀ b q, Spec.W e' r (Spec.successor e.spec.child_age_max s c b q)
        = Spec.W e r (Spec.successor e.spec.child_age_max s c b q) := fun b q => funext fun y =>
      ih _ (show t0 ≤ s.period + 1 by omega) (show s.period + 1 + r ≤ _ from ht) y
    unfold Spec.continuation
    dsimp only
    rw [h.stock, h.spec, h.birth s.period hs (by omega)]
    simp only [hi, h.partner s.period hs (by omega)]

theorem Later.W {t0 : Nat} {e e' : Spec.Economy K} (h : Later t0 e e') : ∀ (r : Nat) (s : State), t0 ≤ s.period →
    s.period + r ≤ e.spec.num_periods → ∀ x, Spec.W e' r s x = Spec.W e r s x
  | 0, _, _, _, _ => rfl
  | r + 1, s, hs, ht, x => by
    have ih := h.W r
    unfold Spec.W
    rw [h.draws, h.weights, h.par]
    unfold Spec.best
    simp only [h.flow, h.par, h.continuation ih hs (show s.period + 1 + r ≤ _ by omega)]

theorem Later.cell {t0 : Nat} {e e' : Spec.Economy K} (h : Later t0 e e') {s : State} (hs : t0 ≤ s.period)
    (hT : s.period < e.spec.num_periods) : cellOf e' s = cellOf e s := by
  funext x
  unfold cellOf
  rw [h.spec, h.W _ s hs (by omega)]
  congr 1
  funext c
  exact h.continuation (h.W _) hs (by omega) x c

/-! ## The simulator -/

section simulator
variable {t : Nat} {env env' : Env S K} {spec : ModelSpec K} {par par' : ModelParams K} {biased biased' : Bool}

/-- What does not depend on choices. -/
def fixedOf (a : Spec.Subject K) : Nat × Nat × Nat × Nat × Int × Nat :=
  (a.id, a.state.period, a.state.educ, a.state.type, a.state.age, a.state.partner)

def personOfFixed (x : Nat × Nat × Nat × Nat × Int × Nat) : Spec.Person :=
  { educ := x.2.2.1, age := x.2.2.2.2.1, partner := x.2.2.2.2.2 }

theorem person_fixed (a : Spec.Subject K) : a.person = personOfFixed (fixedOf a) := rfl

theorem SameUntil.education (h : Spec.SameUntil t spec env env') :
    Spec.drawnEducation env' spec = Spec.drawnEducation env spec := by
  unfold Spec.drawnEducation
  rw [h.rng, h.educ]

theorem SameUntil.level (h : Spec.SameUntil t spec env env') (e n : Nat) (g : S) :
    Spec.levelDraws env' spec e n g = Spec.levelDraws env spec e n g := by
  unfold Spec.levelDraws
  rw [h.rng, h.ages, h.partners, h.pt, h.ft]

theorem SameUntil.before (h : Spec.SameUntil t spec env env') :
    ∀ e, Spec.beforeLevel env' spec e = Spec.beforeLevel env spec e
  | 0 => by
    unfold Spec.beforeLevel
    rw [h.rng, h.educ]
  | e + 1 => by
    unfold Spec.beforeLevel
    rw [SameUntil.education h, SameUntil.before h e, SameUntil.level h]

theorem SameUntil.entryYear (h : Spec.SameUntil t spec env env') (i : Nat) :
    Spec.entryYear env' spec i = Spec.entryYear env spec i := by
  unfold Spec.entryYear
  rw [SameUntil.education h]

theorem SameUntil.entrant (h : Spec.SameUntil t spec env env') (hs : par'.type_shares = par.type_shares) (i : Nat) :
    fixedOf (Spec.entrant env' par' spec i) = fixedOf (Spec.entrant env par spec i) := by
  have h1 : Spec.drawnTypes env' par' spec = Spec.drawnTypes env par spec := by
    unfold Spec.drawnTypes
    rw [h.rng, SameUntil.before h, hs]
  have h2 : ∀ e, Spec.drawsOfLevel env' spec e = Spec.drawsOfLevel env spec e := fun e => by
    unfold Spec.drawsOfLevel
    rw [SameUntil.education h, SameUntil.before h, SameUntil.level h]
  have h3 : ∀ e i, Spec.rank env' spec e i = Spec.rank env spec e i := fun e i => by
    unfold Spec.rank
    rw [SameUntil.education h]
  unfold fixedOf Spec.entrant
  dsimp only
  rw [SameUntil.education h, h1, h2, h3]

theorem SameUntil.entrants (h : Spec.SameUntil t spec env env') (hs : par'.type_shares = par.type_shares) (u : Nat) :
    (Spec.entrants env' par' spec u).map fixedOf = (Spec.entrants env par spec u).map fixedOf := by
  unfold Spec.entrants
  rw [List.map_map, List.map_map]
  simp only [SameUntil.entryYear h]
  exact List.map_congr_left fun i _ => SameUntil.entrant h hs i

/-- One period of births and partners. -/
theorem SameUntil.grow (h : Spec.SameUntil t spec env env') {u : Nat} (hu : u < t) {pop pop' : List (Spec.Subject K)}
    {g : S} (hp : pop'.map fixedOf = pop.map fixedOf) (hE : ∀ a ∈ pop, a.state.educ < spec.num_educ_levels) :
    (Spec.grow env' par' spec biased' u pop' g).1.map fixedOf = (Spec.grow env par spec biased u pop g).1.map fixedOf ∧
    (Spec.grow env' par' spec biased' u pop' g).2 = (Spec.grow env par spec biased u pop g).2 := by
  have hpeople : pop'.map Spec.Subject.person = pop.map Spec.Subject.person := by
    have := congrArg (List.map personOfFixed) hp
    rwa [List.map_map, List.map_map] at this
  have hE' : ∀ p ∈ pop.map Spec.Subject.person, p.educ < spec.num_educ_levels := by
    intro p hp
    obtain ⟨a, ha, rfl⟩ := List.mem_map.1 hp
    exact hE a ha
  have hb : ∀ g, Spec.births env' spec u (pop.map Spec.Subject.person) g
      = Spec.births env spec u (pop.map Spec.Subject.person) g := by
    intro g
    unfold Spec.births
    rw [h.rng, List.map_congr_left fun p hp => h.births (u + 1) p.educ (by omega) (hE' p hp)]
  have ha : ∀ g, Spec.arrivals env' spec u (pop.map Spec.Subject.person) g
      = Spec.arrivals env spec u (pop.map Spec.Subject.person) g := by
    intro g
    unfold Spec.arrivals
    dsimp only
    rw [h.rng, List.map_congr_left fun p hp => h.arrivals u p.educ hu (hE' p (List.mem_filter.1 hp).1)]
  have hs : ∀ g, Spec.separations env' spec u (pop.map Spec.Subject.person) g
      = Spec.separations env spec u (pop.map Spec.Subject.person) g := by
    intro g
    unfold Spec.separations
    dsimp only
    rw [h.rng, List.map_congr_left fun p hp => h.separations u p.educ hu (hE' p (List.mem_filter.1 hp).1)]
  unfold Spec.grow
  dsimp only
  rw [hpeople, hb, ha, hs]
  refine ⟨?_, rfl⟩
  have hz : (pop'.zipIdx.map fun p => (fixedOf p.1, p.2)) = pop.zipIdx.map fun p => (fixedOf p.1, p.2) := by
    have h1 : ∀ l : List (Spec.Subject K), (l.zipIdx.map fun p => (fixedOf p.1, p.2)) = (l.map fixedOf).zipIdx := by
      intro l
      rw [List.zipIdx_map]
      rfl
    rw [h1, h1, hp]
  rw [List.map_map, List.map_map]
  have h2 := congrArg (List.map fun x : (Nat × Nat × Nat × Nat × Int × Nat) × Nat =>
    (x.1.1, x.1.2.1 + 1, x.1.2.2.1, x.1.2.2.2.1,
      (Spec.agesNext spec (pop.map Spec.Subject.person) (Spec.births env spec u (pop.map Spec.Subject.person) g).1).getD x.2 0,
      (Spec.partnersNext (pop.map Spec.Subject.person)
        (Spec.arrivals env spec u (pop.map Spec.Subject.person) (Spec.births env spec u (pop.map Spec.Subject.person) g).2).1
        (Spec.separations env spec u (pop.map Spec.Subject.person) (Spec.arrivals env spec u (pop.map Spec.Subject.person)
          (Spec.births env spec u (pop.map Spec.Subject.person) g).2).2).1).getD x.2 0)) hz
  rw [List.map_map, List.map_map] at h2
  exact h2

/-- The populations up to period `t` agree in everything that does not depend on choices. -/
theorem SameUntil.population (h : Spec.SameUntil t spec env env') (hs : par'.type_shares = par.type_shares) :
    ∀ u, u ≤ t →
      (∀ v < u, ∀ a ∈ (Spec.population env par spec biased v).1, a.state.educ < spec.num_educ_levels) →
      (Spec.population env' par' spec biased' u).1.map fixedOf
        = (Spec.population env par spec biased u).1.map fixedOf ∧
      (Spec.population env' par' spec biased' u).2 = (Spec.population env par spec biased u).2
  | 0, _, _ => by
    unfold Spec.population
    exact ⟨SameUntil.entrants h hs 0, by dsimp only; rw [h.rng]⟩
  | u + 1, hu, hE => by
    obtain ⟨h1, h2⟩ := SameUntil.population h hs u (by omega) fun v hv => hE v (by omega)
    unfold Spec.population
    dsimp only
    rw [h2, List.map_append, List.map_append, SameUntil.entrants h hs]
    obtain ⟨h3, h4⟩ := SameUntil.grow (par := par) (par' := par') (biased := biased) (biased' := biased') h
      (show u < t by omega) (g := (Spec.population env par spec biased u).2) h1 (hE u (by omega))
    exact ⟨by rw [h3], h4⟩

/-- Everybody in the population of period `u` is in period `u`. -/
theorem population_period : ∀ u, ∀ a ∈ (Spec.population env par spec biased u).1, a.state.period = u := by
  have he : ∀ u, ∀ a ∈ Spec.entrants env par spec u, a.state.period = u := by
    intro u a ha
    obtain ⟨i, hi, rfl⟩ := List.mem_map.1 ha
    have hy := of_decide_eq_true (List.mem_filter.1 hi).2
    unfold Spec.entryYear at hy
    obtain ⟨e, h1, h2⟩ := Option.bind_eq_some_iff.1 hy
    show spec.educ_years.getD ((Spec.drawnEducation env spec).getD i 0) 0 = u
    rw [List.getD_eq_getElem?_getD, List.getD_eq_getElem?_getD, h1, Option.getD_some, h2]
    rfl
  intro u
  induction u with
  | zero => exact he 0
  | succ u ih =>
    intro a ha
    rcases List.mem_append.1 ha with ha | ha
    · obtain ⟨p, hp, rfl⟩ := List.mem_map.1 ha
      show p.1.state.period + 1 = u + 1
      rw [ih p.1 (List.fst_mem_of_mem_zipIdx hp)]
    · exact he (u + 1) a ha

/-- What a row shows of an agent that does not depend on choices. -/
def fixedRow (r : OutRow K) : Int × Int × Int × Int × Int × Int := (r.id, r.period, r.educ, r.type, r.age, r.partner)

theorem SameUntil.panel (h : Spec.SameUntil t spec env env') (hs : par'.type_shares = par.type_shares)
    (hE : ∀ u < t, u < spec.num_periods → ∀ a ∈ (Spec.population env par spec biased u).1,
      a.state.educ < spec.num_educ_levels) :
    ((Spec.panel env' par' spec biased').filter fun r => decide (r.period ≤ (t : Int))).map fixedRow
      = ((Spec.panel env par spec biased).filter fun r => decide (r.period ≤ (t : Int))).map fixedRow := by
  unfold Spec.panel
  rw [List.filter_flatMap, List.filter_flatMap, List.map_flatMap, List.map_flatMap]
  have key : ∀ u ∈ List.range spec.num_periods,
      ((((Spec.population env' par' spec biased' u).1.zipIdx.map fun p => Spec.entryOf env' par' spec biased' p.2 p.1)
        ).filter fun r => decide (r.period ≤ (t : Int))).map fixedRow
      = ((((Spec.population env par spec biased u).1.zipIdx.map fun p => Spec.entryOf env par spec biased p.2 p.1)
        ).filter fun r => decide (r.period ≤ (t : Int))).map fixedRow := by
    intro u hu
    have hu := List.mem_range.1 hu
    by_cases hut : u ≤ t
    · have conv : ∀ (env : Env S K) (par : ModelParams K) (biased : Bool),
          ((((Spec.population env par spec biased u).1.zipIdx.map fun p => Spec.entryOf env par spec biased p.2 p.1)
            ).filter fun r => decide (r.period ≤ (t : Int))).map fixedRow
          = ((Spec.population env par spec biased u).1.map fixedOf).map fun x =>
            ((x.1 : Int), (x.2.1 : Int), (x.2.2.1 : Int), (x.2.2.2.1 : Int), x.2.2.2.2.1, (x.2.2.2.2.2 : Int)) := by
        intro env par biased
        rw [List.filter_eq_self.2]
        · rw [List.map_map, List.map_map]
          conv_rhs => rw [← List.zipIdx_map_fst 0 (Spec.population env par spec biased u).1, List.map_map]
          rfl
        · intro r hr
          obtain ⟨p, hp, rfl⟩ := List.mem_map.1 hr
          have := population_period u p.1 (List.fst_mem_of_mem_zipIdx hp)
          simp only [Spec.entryOf, decide_eq_true_eq, this]
          omega
      rw [conv, conv, (SameUntil.population h hs u hut fun v hv => hE v (by omega) (by omega)).1]
    · have none : ∀ (env : Env S K) (par : ModelParams K) (biased : Bool),
          ((((Spec.population env par spec biased u).1.zipIdx.map fun p => Spec.entryOf env par spec biased p.2 p.1)
            ).filter fun r => decide (r.period ≤ (t : Int))) = [] := by
        intro env par biased
        rw [List.filter_eq_nil_iff]
        intro r hr
        obtain ⟨p, hp, rfl⟩ := List.mem_map.1 hr
        have := population_period u p.1 (List.fst_mem_of_mem_zipIdx hp)
        simp only [Spec.entryOf, decide_eq_true_eq, this]
        omega
      rw [none, none]
  rw [List.flatMap_def, List.flatMap_def, List.map_congr_left key]

end simulator

end Soepy
