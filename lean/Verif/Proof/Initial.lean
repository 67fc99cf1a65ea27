import Verif.Spec.Initial
import Verif.Proof.Api

/-! The exact initial conditions. -/

set_option linter.unusedSectionVars false

namespace Soepy

theorem scatter_get {β : Type} (mask : List Bool) (vs old : List β) (i : Nat) (hi : i < old.length)
    (hm : mask[i]? = some true) {v : β} (hv : vs[(mask.take i).count true]? = some v) :
    (scatter mask vs old)[i]? = some v := by
  induction mask generalizing vs old i with
  | nil => simp at hm
  | cons m ms ih =>
    cases old with
    | nil => simp at hi
    | cons o os =>
      cases i with
      | zero =>
        simp only [List.getElem?_cons_zero, Option.some.injEq] at hm
        subst hm
        cases vs with
        | nil => simp at hv
        | cons w ws => simpa [scatter] using hv
      | succ i =>
        simp only [List.getElem?_cons_succ] at hm
        simp only [List.length_cons, Nat.add_lt_add_iff_right] at hi
        cases m with
        | true =>
          cases vs with
          | nil => simp at hv
          | cons w ws =>
            simp only [List.take_succ_cons, List.count_cons_self, List.getElem?_cons_succ] at hv
            simpa [scatter] using ih ws os i hi hm hv
        | false =>
          have hv' : vs[(ms.take i).count true]? = some v := by simpa using hv
          have := ih vs os i hi hm hv'
          cases vs with
          | nil => simp at hv'
          | cons w ws => simpa [scatter] using this

theorem scatter_get_other {β : Type} (mask : List Bool) (vs old : List β) (i : Nat)
    (hm : mask[i]? = some false) : (scatter mask vs old)[i]? = old[i]? := by
  induction mask generalizing vs old i with
  | nil => simp at hm
  | cons m ms ih =>
    cases old with
    | nil => cases m <;> cases vs <;> simp [scatter]
    | cons o os =>
      cases i with
      | zero =>
        simp only [List.getElem?_cons_zero, Option.some.injEq] at hm
        subst hm
        cases vs <;> simp [scatter]
      | succ i =>
        simp only [List.getElem?_cons_succ] at hm
        cases m <;> cases vs <;> simp [scatter, ih _ _ _ hm]

variable {S K : Type} [Field K] [LinearOrder K] [IsStrictOrderedRing K] [FloorRing K] [Transc K]

open Spec

theorem count_mask (educs : List Nat) (k : Nat) :
    (educs.map fun e => decide (e = k)).count true = educs.count k := by
  rw [List.count_eq_countP, List.countP_map, List.count_eq_countP]
  apply List.countP_congr
  intro e _
  simp

theorem sharesOfEduc_spec {rows : List (Nat × K)} {e : Nat} {l : List K} (h : sharesOfEduc rows e = .ok l) :
    l = initialShares rows e := by
  unfold sharesOfEduc at h
  unfold initialShares
  have : (rows.filter fun r => r.1 == e) = rows.filter fun r => decide (r.1 = e) := by
    apply List.filter_congr; intro r _; rfl
  rw [this] at h
  cases hc : (rows.filter fun r => decide (r.1 = e)).map Prod.snd with
  | nil => rw [hc] at h; cases h
  | cons a rest =>
    rw [hc] at h
    simpa using (Except.ok.inj h).symm

theorem mapE_range_get {β : Type} {f : Nat → Except PyErr β} {n : Nat} {ys : List β}
    (h : mapE f (List.range n) = .ok ys) {e : Nat} {y : β} (hy : ys[e]? = some y) : f e = .ok y := by
  have hl := mapE_length h
  rw [List.length_range] at hl
  obtain ⟨he, rfl⟩ := List.getElem?_eq_some_iff.1 hy
  have := mapE_get h e (by simpa using hl ▸ he) he
  rwa [List.getElem_range] at this

/-- What the loop has written for agent `i`. -/
structure Written (env : Env S K) (spec : ModelSpec K) (arrs : InitArrays) (i e : Nat) : Prop where
  age : ∃ j, (drawsOfLevel env spec e).ages[rank env spec e i]? = some j ∧
    arrs.childAge[i]? = some (some ((j : Int) - 1))
  partner : ∃ j, (drawsOfLevel env spec e).partners[rank env spec e i]? = some j ∧
    arrs.partner[i]? = some (some j)
  pt : ∃ j, (drawsOfLevel env spec e).partTime[rank env spec e i]? = some j ∧
    arrs.expPt[i]? = some (some j)
  ft : ∃ j, (drawsOfLevel env spec e).fullTime[rank env spec e i]? = some j ∧
    arrs.expFt[i]? = some (some j)

structure Levels (env : Env S K) (spec : ModelSpec K) (k : Nat) (acc : InitArrays × S) : Prop where
  gen : acc.2 = beforeLevel env spec k
  len1 : acc.1.childAge.length = (drawnEducation env spec).length
  len2 : acc.1.partner.length = (drawnEducation env spec).length
  len3 : acc.1.expPt.length = (drawnEducation env spec).length
  len4 : acc.1.expFt.length = (drawnEducation env spec).length
  written : ∀ (i e : Nat), (drawnEducation env spec)[i]? = some e → e < k → Written env spec acc.1 i e

theorem initBody_levels {env : Env S K} (L : RngLaws env.rng) {spec : ModelSpec K} {biased : Bool} {g g' : S}
    {c : Cached K} (hc : CachedOk env spec biased g g' c) {k : Nat} {acc acc' : InitArrays × S}
    (hi : Levels env spec k acc)
    (h : initBody env.rng spec c.probs.childAge c.probs.partnerPresent c.probs.expPt c.probs.expFt
      (drawnEducation env spec) acc k = .ok acc') : Levels env spec (k + 1) acc' := by
  unfold initBody at h
  dsimp only at h
  rw [count_mask] at h
  obtain ⟨pAge, hpAge, h⟩ := bind_ok.1 h
  obtain ⟨⟨ages, g1⟩, hages, h⟩ := bind_ok.1 h
  obtain ⟨pPartner, hpPartner, h⟩ := bind_ok.1 h
  obtain ⟨⟨partners, g2⟩, hpartners, h⟩ := bind_ok.1 h
  obtain ⟨pPt, hpPt, h⟩ := bind_ok.1 h
  obtain ⟨⟨pts, g3⟩, hpts, h⟩ := bind_ok.1 h
  obtain ⟨pFt, hpFt, h⟩ := bind_ok.1 h
  obtain ⟨⟨fts, g4⟩, hfts, hres⟩ := bind_ok.1 h
  rw [pure_ok] at hres
  obtain ⟨-, -, ha2, ha3⟩ := npChoice_ok_iff.1 hages
  obtain ⟨hp1, hp2⟩ := npBinomialScalar_ok_iff.1 hpartners
  obtain ⟨-, -, hb2, hb3⟩ := npChoice_ok_iff.1 hpts
  obtain ⟨-, -, hc2, hc3⟩ := npChoice_ok_iff.1 hfts
  obtain rfl := sharesOfEduc_spec (mapE_range_get hc.childAge (npGet_nat hpAge))
  obtain rfl := sharesOfEduc_spec (mapE_range_get hc.expPt (npGet_nat hpPt))
  obtain rfl := sharesOfEduc_spec (mapE_range_get hc.expFt (npGet_nat hpFt))
  have hpp := npGet_nat hpPartner
  rw [hc.partnerPresent] at hpp
  have hpp' : pPartner = ((env.disk spec.files.partner_shares).map Prod.snd).getD k 0 := by
    rw [List.getD_eq_getElem?_getD, hpp]; rfl
  rw [hi.gen] at ha3
  dsimp only [readFiles] at ha2 ha3 hb2 hb3 hc2 hc3
  have e1 : ages = (drawsOfLevel env spec k).ages := congrArg Prod.fst ha3
  have eg1 : g1 = _ := congrArg Prod.snd ha3
  rw [eg1, hpp'] at hp2
  have e2 : partners = (drawsOfLevel env spec k).partners := congrArg Prod.fst hp2
  have eg2 : g2 = _ := congrArg Prod.snd hp2
  rw [eg2] at hb3
  have e3 : pts = (drawsOfLevel env spec k).partTime := congrArg Prod.fst hb3
  have eg3 : g3 = _ := congrArg Prod.snd hb3
  rw [eg3] at hc3
  have e4 : fts = (drawsOfLevel env spec k).fullTime := congrArg Prod.fst hc3
  have eg4 : g4 = beforeLevel env spec (k + 1) := congrArg Prod.snd hc3
  have l1 : ages.length = (drawnEducation env spec).count k := by
    rw [show ages = _ from congrArg Prod.fst ha3]; exact L.choice_length _ _ _ ha2
  have l2 : partners.length = (drawnEducation env spec).count k := by
    rw [show partners = _ from congrArg Prod.fst hp2, L.binomial_length, List.length_replicate]
    intro x hx
    rw [List.eq_of_mem_replicate hx, ← hpp']
    exact hp1
  have l3 : pts.length = (drawnEducation env spec).count k := by
    rw [show pts = _ from congrArg Prod.fst hb3]; exact L.choice_length _ _ _ hb2
  have l4 : fts.length = (drawnEducation env spec).count k := by
    rw [show fts = _ from congrArg Prod.fst hc3]; exact L.choice_length _ _ _ hc2
  subst hres
  refine ⟨eg4, by rw [scatter_length]; exact hi.len1, by rw [scatter_length]; exact hi.len2,
    by rw [scatter_length]; exact hi.len3, by rw [scatter_length]; exact hi.len4, ?_⟩
  intro i e he hek
  have hil := (List.getElem?_eq_some_iff.1 he).1
  by_cases h0 : e = k
  · subst h0
    have hm : ((drawnEducation env spec).map fun e' => decide (e' = e))[i]? = some true := by
      rw [List.getElem?_map, he]; simp
    have hr : (((drawnEducation env spec).map fun e' => decide (e' = e)).take i).count true
        = rank env spec e i := by
      rw [← List.map_take, count_mask]; rfl
    have hlt : rank env spec e i < (drawnEducation env spec).count e := by
      have h1 : (drawnEducation env spec).count e
          = rank env spec e i + ((drawnEducation env spec).drop i).count e := by
        conv_lhs => rw [← List.take_append_drop i (drawnEducation env spec)]
        rw [List.count_append]; rfl
      have h2 : 0 < ((drawnEducation env spec).drop i).count e := by
        rw [List.count_pos_iff]
        exact List.mem_of_getElem? (i := 0) (by rw [List.getElem?_drop]; simpa using he)
      omega
    have put : ∀ {β : Type} {vs : List Nat} (f : Nat → β) {old : List β},
        vs.length = (drawnEducation env spec).count e → old.length = (drawnEducation env spec).length →
        ∃ j, vs[rank env spec e i]? = some j ∧
          (scatter ((drawnEducation env spec).map fun e' => decide (e' = e)) (vs.map f) old)[i]?
            = some (f j) := by
      intro β vs f old h1 h2
      obtain ⟨j, hj⟩ : ∃ j, vs[rank env spec e i]? = some j := ⟨_, List.getElem?_eq_getElem (h1 ▸ hlt)⟩
      refine ⟨j, hj, scatter_get _ _ _ _ (h2 ▸ hil) hm ?_⟩
      rw [hr, List.getElem?_map, hj]; rfl
    refine ⟨?_, ?_, ?_, ?_⟩
    · rw [← e1]; exact put (fun j : Nat => some ((j : Int) - 1)) l1 hi.len1
    · rw [← e2]; exact put some l2 hi.len2
    · rw [← e3]; exact put some l3 hi.len3
    · rw [← e4]; exact put some l4 hi.len4
  · have hm : ((drawnEducation env spec).map fun e' => decide (e' = k))[i]? = some false := by
      rw [List.getElem?_map, he]; simp [h0]
    obtain ⟨w1, w2, w3, w4⟩ := hi.written i e he (by omega)
    refine ⟨?_, ?_, ?_, ?_⟩ <;> dsimp only <;> rw [scatter_get_other _ _ _ _ hm] <;> assumption

/-- What agent `i` starts with. -/
structure Start (env : Env S K) (par : ModelParams K) (spec : ModelSpec K) (i : Nat) (a : Agent K) : Prop where
  educ : (drawnEducation env spec)[i]? = some a.educ
  age : ∃ j : Nat, (drawsOfLevel env spec a.educ).ages[rank env spec a.educ i]? = some j ∧
    a.age = (j : Int) - 1
  partner : (drawsOfLevel env spec a.educ).partners[rank env spec a.educ i]? = some a.partner
  pt : (drawsOfLevel env spec a.educ).partTime[rank env spec a.educ i]? = some a.expPT
  ft : (drawsOfLevel env spec a.educ).fullTime[rank env spec a.educ i]? = some a.expFT
  type : (drawnTypes env par spec)[i]? = some a.type
  share : ∃ y, ((env.disk spec.files.educ_shares).map Prod.snd)[a.educ]? = some y ∧ 0 < y

theorem prepare_start {env : Env S K} (L : RngLaws env.rng) {par : ModelParams K} {spec : ModelSpec K}
    {biased biased' : Bool} {g g' g2' : S} {c : Cached K} (hc : CachedOk env spec biased g g' c)
    {initial : List (Agent K)} {draws : List (List K)}
    (h : prepareSimulationData env.rng par spec c.probs.educ c.probs.childAge c.probs.partnerPresent
      c.probs.expPt c.probs.expFt biased' (env.rng.seed spec.seed_sim) = .ok ((initial, draws), g2')) :
    ∀ (i : Nat) a, initial[i]? = some a → Start env par spec i a := by
  unfold prepareSimulationData at h
  dsimp only at h
  obtain ⟨⟨educs, g1⟩, heduc, h⟩ := bind_ok.1 h
  obtain ⟨periods, hper, h⟩ := bind_ok.1 h
  obtain ⟨⟨arrs, g2⟩, hloop, h⟩ := bind_ok.1 h
  obtain ⟨ages, hage, h⟩ := bind_ok.1 h
  obtain ⟨partners, hpart, h⟩ := bind_ok.1 h
  obtain ⟨pts, hpt, h⟩ := bind_ok.1 h
  obtain ⟨fts, hft, h⟩ := bind_ok.1 h
  obtain ⟨⟨types, g3⟩, hty, h⟩ := bind_ok.1 h
  simp only [pure_ok, Prod.mk.injEq, drawZeroOneShocks] at h
  obtain ⟨⟨rfl, rfl⟩, rfl⟩ := h
  obtain ⟨-, he1, he2, he3⟩ := npChoice_ok_iff.1 heduc
  obtain ⟨-, ht1, ht2, ht3⟩ := npChoice_ok_iff.1 hty
  have hel0 := L.choice_length (env.rng.seed spec.seed_sim) spec.num_agents_sim _ he2
  have helt : ∀ e ∈ educs, e < spec.num_educ_levels := by
    intro e he
    rw [show educs = _ from congrArg Prod.fst he3] at he
    rw [← he1]
    exact choice_lt L he2 he
  rw [hc.educ] at he2 he3 hel0
  obtain rfl : educs = drawnEducation env spec := congrArg Prod.fst he3
  have hg1 : g1 = beforeLevel env spec 0 := congrArg Prod.snd he3
  have hlev : Levels env spec spec.num_educ_levels (arrs, g2) := by
    refine foldlE_range (P := fun k acc => Levels env spec k acc) ?_
      (fun k b c' _ hb hc' => initBody_levels L hc hb hc') hloop
    have hl : (drawnEducation env spec).length = spec.num_agents_sim := hel0
    exact ⟨hg1, by simp [hl], by simp [hl], by simp [hl], by simp [hl], fun i e _ he => absurd he (by omega)⟩
  intro i a ha
  obtain ⟨e, p, ag, q, x, y, t, h1, h2, h3, h4, h5, h6, h7, rfl⟩ := zipInit_get _ _ _ _ _ _ _ _ _ _ ha
  have nan : ∀ {β : Type} {arr : List (Option β)} {ys : List β} {v w : β}, noNan arr = .ok ys →
      arr[i]? = some (some v) → ys[i]? = some w → v = w := by
    intro β arr ys v w k1 k2 k3
    obtain ⟨w', k4, k5⟩ := forall₂_get (noNan_forall₂ k1) k2
    rw [k3] at k4
    rw [Option.some.inj k4]
    exact Option.some.inj k5
  obtain ⟨⟨j1, w1, w1'⟩, ⟨j2, w2, w2'⟩, ⟨j3, w3, w3'⟩, ⟨j4, w4, w4'⟩⟩ :=
    hlev.written i e h1 (helt e (List.mem_of_getElem? h1))
  refine ⟨h1, ⟨j1, w1, (nan hage w1' h3).symm⟩, ?_, ?_, ?_, ?_,
    L.choice_pos _ _ _ he2 e (List.mem_of_getElem? h1)⟩
  · rw [← nan hpart w2' h4]; exact w2
  · rw [← nan hpt w3' h5]; exact w3
  · rw [← nan hft w4' h6]; exact w4
  · rw [hlev.gen] at ht3
    rw [show drawnTypes env par spec = types from (congrArg Prod.fst ht3).symm]
    exact h7

/-- Everything about a call of `simulate`, with the exact initial states. -/
theorem output_start {env : Env S K} {frame : Frame K} {a : Nat} {biased sparse : Bool} {w : World S K}
    {par : ModelParams K} {spec : ModelSpec K} {rows : List (OutRow K)}
    (h : Spec.Output env frame a biased sparse w par spec rows) :
    ∃ c g1 sol, CachedOk env spec biased w.rng g1 c ∧
    ∃ initial draws maxEntry, ∃ R : Run env.rng par spec (c.input sol) false draws initial maxEntry
        (env.rng.normal (env.rng.seed spec.seed_sim) spec.num_periods spec.num_agents_sim).2,
      SimFacts env.rng par spec (c.input sol) c.probs false initial draws maxEntry ∧
      (∀ (i : Nat) b, initial[i]? = some b → Start env par spec i b) ∧
      rows = ((List.range spec.num_periods).map R.rows).flatten.map (recorded sparse) := by
  obtain ⟨par', spec', st1, c, g1, g2, h1, h2, h3, h4⟩ := (simulate_ok h.closed h.addr).1 h.run
  obtain rfl : par' = par := Except.ok.inj (h1.symm.trans h.params)
  obtain ⟨st', hs⟩ := h.spec_ok
  rw [h2] at hs
  obtain ⟨-, rfl⟩ := Prod.mk.inj (Except.ok.inj hs)
  obtain ⟨sol, h5, h6⟩ := runCached_ok.1 h4
  obtain ⟨initial, draws, maxEntry, R, F, hp, hr⟩ := pythSimulate_run h.laws h6
  exact ⟨c, g1, sol, buildCached_ok.1 h3, initial, draws, maxEntry, R, F,
    prepare_start h.laws (buildCached_ok.1 h3) hp, hr⟩

end Soepy
