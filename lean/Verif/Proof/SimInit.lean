import Verif.Proof.Sim

/-! The initial states of the simulation. -/

set_option linter.unusedSectionVars false

namespace Soepy
variable {S K : Type} [Field K] [LinearOrder K]

theorem forall₂_of_mem {α β : Type} {R : α → β → Prop} {xs : List α} {ys : List β}
    (hl : xs.length = ys.length) (h : ∀ x ∈ xs, ∀ y ∈ ys, R x y) : List.Forall₂ R xs ys :=
  forall₂_of_get hl fun _ x y hx hy => h x (List.mem_of_getElem? hx) y (List.mem_of_getElem? hy)

/-- A possible draw of an option from a table of probabilities by education: positive probability. -/
def DrawnFrom (table : List (List K)) (nOptions : Nat) (e : Nat) (x : Nat) : Prop :=
  ∃ p y, table[e]? = some p ∧ p.length = nOptions ∧ p[x]? = some y ∧ 0 < y

/-- A possible partner status at entry. -/
def DrawnPartner (probs : List K) (e : Nat) (x : Nat) : Prop :=
  ∃ p, probs[e]? = some p ∧ 0 ≤ p ∧ p ≤ 1 ∧ Drawn p x

theorem npGet_nat {α : Type} {a : List α} {i : Nat} {x : α} (h : npGet a (i : Int) = .ok x) :
    a[i]? = some x := by
  obtain ⟨hi, rfl⟩ := npGet_nat_ok h
  exact List.getElem?_eq_getElem hi

/-- What the loop has written for the agents of the education levels below `k`. -/
structure InitInv (spec : ModelSpec K) (probChildAge : List (List K)) (probPartner : List K)
    (probExpPt probExpFt : List (List K)) (educs : List Nat) (k : Nat) (arrs : InitArrays) : Prop where
  age : List.Forall₂ (fun e v => e < k → ∃ j : Nat,
    DrawnFrom probChildAge (spec.child_age_init_max + 2).toNat e j ∧ v = some ((j : Int) - 1))
    educs arrs.childAge
  partner : List.Forall₂ (fun e v => e < k → ∃ x, DrawnPartner probPartner e x ∧ v = some x)
    educs arrs.partner
  pt : List.Forall₂ (fun e v => e < k → ∃ x, DrawnFrom probExpPt (spec.init_exp_max + 1) e x ∧ v = some x)
    educs arrs.expPt
  ft : List.Forall₂ (fun e v => e < k → ∃ x, DrawnFrom probExpFt (spec.init_exp_max + 1) e x ∧ v = some x)
    educs arrs.expFt

theorem scatter_inv {β : Type} {V : Nat → β → Prop} {educs : List Nat} {k : Nat} {vs : List β}
    {old : List (Option β)}
    (hl : vs.length = (educs.filter fun e => decide (e = k)).length) (hv : ∀ v ∈ vs, V k v)
    (ho : List.Forall₂ (fun e v => e < k → ∃ x, V e x ∧ v = some x) educs old) :
    List.Forall₂ (fun e v => e < k + 1 → ∃ x, V e x ∧ v = some x) educs
      (scatter (educs.map fun e => decide (e = k)) (vs.map some) old) := by
  have hR : List.Forall₂ (fun e v => ∃ x, V e x ∧ v = some x)
      (educs.filter fun e => decide (e = k)) (vs.map some) := by
    refine forall₂_of_mem (by simp [hl]) ?_
    intro e he v hvm
    obtain ⟨x, hx, rfl⟩ := List.mem_map.1 hvm
    obtain rfl : e = k := by simpa using (List.mem_filter.1 he).2
    exact ⟨x, hv x hx, rfl⟩
  refine (scatter_forall₂ hR ho).imp ?_
  intro e v h hlt
  by_cases hek : e = k
  · simpa [hek] using h
  · simp only [hek, decide_false, Bool.false_eq_true, if_false] at h
    exact h (by omega)

theorem initBody_inv {rng : Rng S K} (L : RngLaws rng) {spec : ModelSpec K}
    {probChildAge : List (List K)} {probPartner : List K} {probExpPt probExpFt : List (List K)}
    {educs : List Nat} {k : Nat} {acc acc' : InitArrays × S}
    (hi : InitInv spec probChildAge probPartner probExpPt probExpFt educs k acc.1)
    (h : initBody rng spec probChildAge probPartner probExpPt probExpFt educs acc k = .ok acc') :
    InitInv spec probChildAge probPartner probExpPt probExpFt educs (k + 1) acc'.1 := by
  have hsize : (educs.map fun e => decide (e = k)).count true
      = (educs.filter fun e => decide (e = k)).length := by
    rw [List.count_eq_countP, List.countP_map, List.countP_eq_length_filter]
    congr 1
    apply List.filter_congr
    intro e _
    simp
  unfold initBody at h
  dsimp only at h
  rw [hsize] at h
  obtain ⟨pAge, hpAge, h⟩ := bind_ok.1 h
  obtain ⟨⟨ages, g1⟩, hages, h⟩ := bind_ok.1 h
  obtain ⟨pPartner, hpPartner, h⟩ := bind_ok.1 h
  obtain ⟨⟨partners, g2⟩, hpartners, h⟩ := bind_ok.1 h
  obtain ⟨pPt, hpPt, h⟩ := bind_ok.1 h
  obtain ⟨⟨pts, g3⟩, hpts, h⟩ := bind_ok.1 h
  obtain ⟨pFt, hpFt, h⟩ := bind_ok.1 h
  obtain ⟨⟨fts, g4⟩, hfts, h⟩ := bind_ok.1 h
  rw [pure_ok] at h
  subst h
  obtain ⟨-, ha1, ha2, ha3⟩ := npChoice_ok_iff.1 hages
  obtain ⟨hp1, hp2⟩ := npBinomialScalar_ok_iff.1 hpartners
  obtain ⟨-, hb1, hb2, hb3⟩ := npChoice_ok_iff.1 hpts
  obtain ⟨-, hc1, hc2, hc3⟩ := npChoice_ok_iff.1 hfts
  have ea : ages = (rng.choice acc.2 (educs.filter fun e => decide (e = k)).length pAge).1 := by
    rw [← ha3]
  have ep : partners = (rng.binomial g1
      (List.replicate (educs.filter fun e => decide (e = k)).length pPartner)).1 := by rw [← hp2]
  have eb : pts = (rng.choice g2 (educs.filter fun e => decide (e = k)).length pPt).1 := by rw [← hb3]
  have ec : fts = (rng.choice g3 (educs.filter fun e => decide (e = k)).length pFt).1 := by rw [← hc3]
  have hrep : ∀ x ∈ List.replicate (educs.filter fun e => decide (e = k)).length pPartner,
      0 ≤ x ∧ x ≤ 1 := by
    intro x hx; rw [List.eq_of_mem_replicate hx]; exact hp1
  have from_ : ∀ {table : List (List K)} {p : List K} {m : Nat} {gg : S} {vs : List Nat},
      npGet table (k : Int) = .ok p → p.length = m → ValidProbs p →
      vs = (rng.choice gg (educs.filter fun e => decide (e = k)).length p).1 →
      vs.length = (educs.filter fun e => decide (e = k)).length ∧ ∀ v ∈ vs, DrawnFrom table m k v := by
    intro table p m gg vs h1 h2 h3 h4
    subst h4
    refine ⟨L.choice_length _ _ _ h3, ?_⟩
    intro v hv
    obtain ⟨y, hy, hpos⟩ := L.choice_pos _ _ _ h3 v hv
    exact ⟨p, y, npGet_nat h1, h2, hy, hpos⟩
  obtain ⟨la, va⟩ := from_ hpAge ha1 ha2 ea
  obtain ⟨lb, vb⟩ := from_ hpPt hb1 hb2 eb
  obtain ⟨lc, vc⟩ := from_ hpFt hc1 hc2 ec
  refine ⟨?_, ?_, scatter_inv lb vb hi.pt, scatter_inv lc vc hi.ft⟩
  · have := scatter_inv (V := fun e (x : Int) => ∃ j : Nat,
      DrawnFrom probChildAge (spec.child_age_init_max + 2).toNat e j ∧ x = (j : Int) - 1)
      (educs := educs) (k := k) (vs := ages.map fun i : Nat => (i : Int) - 1) (old := acc.1.childAge)
      (by simp [la]) (by
        intro v hv
        obtain ⟨j, hj, rfl⟩ := List.mem_map.1 hv
        exact ⟨j, va j hj, rfl⟩)
      (hi.age.imp fun e v hv he => by
        obtain ⟨j, hj, rfl⟩ := hv he
        exact ⟨_, ⟨j, hj, rfl⟩, rfl⟩)
    rw [List.map_map] at this
    refine this.imp fun e v hv he => ?_
    obtain ⟨x, ⟨j, hj, rfl⟩, rfl⟩ := hv he
    exact ⟨j, hj, rfl⟩
  · have hd := binomial_drawn L (g := g1) hrep
    rw [← ep] at hd
    refine scatter_inv (by rw [← hd.length_eq, List.length_replicate]) ?_ hi.partner
    intro v hv
    obtain ⟨p, hp, hpd⟩ := forall₂_mem hd hv
    rw [List.eq_of_mem_replicate hp] at hpd
    exact ⟨pPartner, npGet_nat hpPartner, hp1.1, hp1.2, hpd⟩

theorem zipInit_get [FloorRing K] {par : ModelParams K} {spec : ModelSpec K} {biased : Bool} :
    ∀ (es ps : List Nat) (as : List Int) (qs xs ys ts : List Nat) (id i : Nat) (a : Agent K),
      (zipInit par spec biased id es ps as qs xs ys ts)[i]? = some a →
      ∃ e p g q x y t, es[i]? = some e ∧ ps[i]? = some p ∧ as[i]? = some g ∧ qs[i]? = some q ∧
        xs[i]? = some x ∧ ys[i]? = some y ∧ ts[i]? = some t ∧
        a = initAgent par spec biased (id + i) e p g q x y t := by
  intro es
  induction es with
  | nil => intro ps as qs xs ys ts id i a h; simp [zipInit] at h
  | cons e es ih =>
    intro ps as qs xs ys ts id i a h
    cases ps with
    | nil => simp [zipInit] at h
    | cons p ps =>
    cases as with
    | nil => simp [zipInit] at h
    | cons g as =>
    cases qs with
    | nil => simp [zipInit] at h
    | cons q qs =>
    cases xs with
    | nil => simp [zipInit] at h
    | cons x xs =>
    cases ys with
    | nil => simp [zipInit] at h
    | cons y ys =>
    cases ts with
    | nil => simp [zipInit] at h
    | cons t ts =>
      cases i with
      | zero =>
        simp only [zipInit, List.getElem?_cons_zero, Option.some.injEq] at h
        exact ⟨e, p, g, q, x, y, t, rfl, rfl, rfl, rfl, rfl, rfl, rfl, by rw [← h]; rfl⟩
      | succ i =>
        simp only [zipInit, List.getElem?_cons_succ] at h
        obtain ⟨e', p', g', q', x', y', t', h1, h2, h3, h4, h5, h6, h7, h8⟩ :=
          ih ps as qs xs ys ts (id + 1) i a h
        refine ⟨e', p', g', q', x', y', t', h1, h2, h3, h4, h5, h6, h7, ?_⟩
        rw [h8]
        congr 1
        omega

theorem zipInit_length [FloorRing K] {par : ModelParams K} {spec : ModelSpec K} {biased : Bool} (n : Nat) :
    ∀ (es ps : List Nat) (as : List Int) (qs xs ys ts : List Nat) (id : Nat),
      es.length = n → ps.length = n → as.length = n → qs.length = n → xs.length = n → ys.length = n →
      ts.length = n → (zipInit par spec biased id es ps as qs xs ys ts).length = n := by
  induction n with
  | zero =>
    intro es ps as qs xs ys ts id h1 _ _ _ _ _ _
    obtain rfl := List.length_eq_zero_iff.1 h1
    simp [zipInit]
  | succ n ih =>
    intro es ps as qs xs ys ts id h1 h2 h3 h4 h5 h6 h7
    match es, ps, as, qs, xs, ys, ts, h1, h2, h3, h4, h5, h6, h7 with
    | e :: es, p :: ps, a :: as, q :: qs, x :: xs, y :: ys, t :: ts, h1, h2, h3, h4, h5, h6, h7 =>
      simp only [List.length_cons, Nat.succ_inj] at h1 h2 h3 h4 h5 h6 h7
      simp [zipInit, ih es ps as qs xs ys ts (id + 1) h1 h2 h3 h4 h5 h6 h7]

theorem noNan_forall₂ {α : Type} {xs : List (Option α)} {ys : List α} (h : noNan xs = .ok ys) :
    List.Forall₂ (fun x y => x = some y) xs ys := by
  refine (mapE_ok_iff.1 h).imp fun x y hxy => ?_
  cases x with
  | none => simp at hxy
  | some v => simp only [Except.ok.injEq] at hxy; rw [hxy]

/-- What is known about agent `i` at entry. -/
structure EntryOk [FloorRing K] (par : ModelParams K) (spec : ModelSpec K) (biased : Bool)
    (probChildAge : List (List K)) (probPartner : List K) (probExpPt probExpFt : List (List K))
    (educs : List Nat) (i : Nat) (a : Agent K) : Prop where
  id : a.id = i
  educ : educs[i]? = some a.educ
  educ_lt : a.educ < spec.num_educ_levels
  period : spec.educ_years[a.educ]? = some a.period
  age : ∃ j : Nat, DrawnFrom probChildAge (spec.child_age_init_max + 2).toNat a.educ j ∧
    a.age = (j : Int) - 1
  partner : DrawnPartner probPartner a.educ a.partner
  pt : DrawnFrom probExpPt (spec.init_exp_max + 1) a.educ a.expPT
  ft : DrawnFrom probExpFt (spec.init_exp_max + 1) a.educ a.expFT
  type : ∃ y, par.type_shares[a.type]? = some y ∧ 0 < y
  types : par.type_shares.length = spec.num_types
  stock : a.stock = expYearsToStock ((a.expPT : K) * getPtIncrement par a.educ a.age biased + (a.expFT : K))
    0 (spec.init_exp_max : K) (getPtIncrement par a.educ a.age biased)
  lagged : a.lagged = laggedChoiceInitial
    ((a.expPT : K) * getPtIncrement par a.educ a.age biased + (a.expFT : K))

theorem prepare_ok [FloorRing K] {rng : Rng S K} (L : RngLaws rng) {par : ModelParams K}
    {spec : ModelSpec K} {probEduc : List K} {probChildAge : List (List K)} {probPartner : List K}
    {probExpPt probExpFt : List (List K)} {biased : Bool} {g g' : S} {initial : List (Agent K)}
    {draws : List (List K)}
    (h : prepareSimulationData rng par spec probEduc probChildAge probPartner probExpPt probExpFt biased g
      = .ok ((initial, draws), g')) :
    initial.length = spec.num_agents_sim ∧
    (rng.choice g spec.num_agents_sim probEduc).1.length = spec.num_agents_sim ∧
    (∀ (i : Nat) a, initial[i]? = some a → EntryOk par spec biased probChildAge probPartner probExpPt
      probExpFt (rng.choice g spec.num_agents_sim probEduc).1 i a) ∧
    draws = (rng.normal (rng.seed spec.seed_sim) spec.num_periods spec.num_agents_sim).1.map
      (fun row => row.map (· * par.shock_sd)) ∧
    g' = (rng.normal (rng.seed spec.seed_sim) spec.num_periods spec.num_agents_sim).2 := by
  unfold prepareSimulationData at h
  dsimp only at h
  obtain ⟨⟨educs, g1⟩, heduc, h⟩ := bind_ok.1 h
  obtain ⟨periods, hper, h⟩ := bind_ok.1 h
  obtain ⟨⟨arrs, g2⟩, hloop, h⟩ := bind_ok.1 h
  obtain ⟨ages, hage, h⟩ := bind_ok.1 h
  obtain ⟨partners, hpart, h⟩ := bind_ok.1 h
  obtain ⟨pts, hpt, h⟩ := bind_ok.1 h
  obtain ⟨fts, hft, h⟩ := bind_ok.1 h
  obtain ⟨⟨types, g3⟩, hty, h⟩ := bind_ok.1 h
  simp only [pure_ok, Prod.mk.injEq, drawZeroOneShocks] at h
  obtain ⟨⟨rfl, rfl⟩, rfl⟩ := h
  obtain ⟨-, he1, he2, he3⟩ := npChoice_ok_iff.1 heduc
  obtain ⟨-, ht1, ht2, ht3⟩ := npChoice_ok_iff.1 hty
  have ee : educs = (rng.choice g spec.num_agents_sim probEduc).1 := by rw [← he3]
  have et : types = (rng.choice g2 spec.num_agents_sim par.type_shares).1 := by rw [← ht3]
  have hel : educs.length = spec.num_agents_sim := by rw [ee]; exact L.choice_length _ _ _ he2
  have htl : types.length = spec.num_agents_sim := by rw [et]; exact L.choice_length _ _ _ ht2
  have helt : ∀ e ∈ educs, e < spec.num_educ_levels := by
    intro e he
    rw [ee] at he
    rw [← he1]
    exact choice_lt L he2 he
  have hinv : InitInv spec probChildAge probPartner probExpPt probExpFt educs spec.num_educ_levels
      (arrs, g2).1 := by
    refine foldlE_range (P := fun k acc => InitInv spec probChildAge probPartner probExpPt probExpFt
      educs k acc.1) ?_ (fun k b c _ hb hc => initBody_inv L hb hc) hloop
    refine ⟨?_, ?_, ?_, ?_⟩ <;>
      exact forall₂_of_mem (by simp [hel]) (fun e _ v _ he => absurd he (Nat.not_lt_zero _))
  have nan : ∀ {β : Type} {V : Nat → β → Prop} {arr : List (Option β)} {ys : List β},
      List.Forall₂ (fun e v => e < spec.num_educ_levels → ∃ x, V e x ∧ v = some x) educs arr →
      noNan arr = .ok ys → List.Forall₂ V educs ys := by
    intro β V arr ys h1 h2
    refine forall₂_imp_mem (forall₂_comp h1 (noNan_forall₂ h2)) ?_
    rintro e y he - ⟨v, hv, rfl⟩
    obtain ⟨x, hx, hv⟩ := hv (helt e he)
    rw [Option.some.inj hv]
    exact hx
  have fpart := nan hinv.partner hpart
  have fpt := nan hinv.pt hpt
  have fft := nan hinv.ft hft
  have fage := nan (V := fun e (x : Int) => ∃ j : Nat,
      DrawnFrom probChildAge (spec.child_age_init_max + 2).toNat e j ∧ x = (j : Int) - 1)
    (hinv.age.imp fun e v hv he => by
      obtain ⟨j, hj, rfl⟩ := hv he
      exact ⟨_, ⟨j, hj, rfl⟩, rfl⟩) hage
  have fper := mapE_ok_iff.1 hper
  refine ⟨zipInit_length _ _ _ _ _ _ _ _ _ hel (by rw [← fper.length_eq, hel])
    (by rw [← fage.length_eq, hel]) (by rw [← fpart.length_eq, hel]) (by rw [← fpt.length_eq, hel])
    (by rw [← fft.length_eq, hel]) htl, by rw [← ee, hel], ?_, rfl, rfl⟩
  intro i a ha
  obtain ⟨e, p, ag, q, x, y, t, h1, h2, h3, h4, h5, h6, h7, rfl⟩ := zipInit_get _ _ _ _ _ _ _ _ _ _ ha
  rw [← ee]
  obtain ⟨p', k2, hp⟩ := forall₂_get fper h1
  rw [h2] at k2; obtain rfl := Option.some.inj k2
  obtain ⟨ag', k3, hag⟩ := forall₂_get fage h1
  rw [h3] at k3; obtain rfl := Option.some.inj k3
  obtain ⟨q', k4, hq⟩ := forall₂_get fpart h1
  rw [h4] at k4; obtain rfl := Option.some.inj k4
  obtain ⟨x', k5, hx⟩ := forall₂_get fpt h1
  rw [h5] at k5; obtain rfl := Option.some.inj k5
  obtain ⟨y', k6, hy⟩ := forall₂_get fft h1
  rw [h6] at k6; obtain rfl := Option.some.inj k6
  refine ⟨by simp [initAgent], h1, helt e (List.mem_of_getElem? h1), npGet_nat hp, hag, hq, hx, hy, ?_,
    ht1, rfl, rfl⟩
  refine L.choice_pos g2 spec.num_agents_sim par.type_shares ht2 t ?_
  rw [← et]
  exact List.mem_of_getElem? h7

end Soepy
