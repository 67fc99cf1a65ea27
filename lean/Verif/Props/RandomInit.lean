import Verif.Proof.RandomFiles
import Verif.Props.Effects
import Verif.Props.Reference
import Verif.Props.Initial
import Verif.Props.Exogenous

/-!
# Random test inputs (C91)

The inputs that `random_init` writes are always accepted, and what the unit tests check on a few random inputs is true
of all of them.
-/

set_option linter.unusedSectionVars false

namespace Soepy.Props
open Soepy
open Soepy.Spec (Sound dataOf)
variable {S K : Type} [Field K] [LinearOrder K] [IsStrictOrderedRing K] [FloorRing K] [Transc K]

section
variable {rng : Rng S K} {hermite : Nat → List K × List K} {biased sparse : Bool} {lost lost' : S} {p : Process S K}

/-- **C78**  With two file names, `simulate` returns or raises what the description without files says of the contents
of the files. -/
theorem C78_by_names {f s : String} {frame : Frame K} {objs : Store K} {root : Nat} (hp : Sound p)
    (hf : p.disk.frames f = some frame) (hs : p.disk.specs s = some (objs, root))
    (ht : ∀ st' spec, readModelSpec objs root (specNumTypes frame) = .ok (st', spec) →
      Spec.Present p.disk spec.files) :
    (simulateP rng hermite (.path f) (.path s) biased sparse lost lost' p).1
      = dataOf (simulate ⟨rng, hermite, fun n => (p.disk.shares n).getD []⟩ frame root biased sparse ⟨p.rng, objs⟩) := by
  obtain ⟨hc, ha⟩ := hp.files s objs root hs
  rw [simulateP_fst rng hermite _ biased sparse lost lost' hp (sa := .path s) trivial
      (fun n => (p.disk.shares n).getD []), simulate_data (w := ⟨p.rng, objs⟩) _ frame biased sparse hc ha]
  have h1 : frameData p.disk (.path f) = (readModelParams frame).map fun par => (frame, par) := by
    unfold frameData; simp only [hf]
  have h2 : specData p.disk p.store (specNumTypes frame) (.path s)
      = (readModelSpec objs root (specNumTypes frame)).map Prod.snd := by
    rw [← specData_obj (d := p.disk) hc ha]
    unfold specData
    simp only [hs]
  rw [h1]
  cases readModelParams frame with
  | error e => rfl
  | ok par =>
    show (specData p.disk p.store (specNumTypes frame) (.path s) >>= _) = (_ >>= _)
    rw [h2]
    cases hr : readModelSpec objs root (specNumTypes frame) with
    | error e => rfl
    | ok x =>
      obtain ⟨st', spec⟩ := x
      show ((buildObjects rng hermite spec biased lost p).1 >>= _) = (_ >>= _)
      rw [buildObjects_fst _ _ _ _ _ _ (ht st' spec hr)]
      rfl

end

section
variable {env : Env S K} {frame : Frame K} {a : Nat} {biased : Bool} {w : World S K}
  {par : ModelParams K} {spec : ModelSpec K} {rows : List (OutRow K)}

/-- Number of different identifiers among the rows with education `e`
(`df[df["Education_Level"] == e]["Identifier"].nunique()`). -/
def agentsOf (rows : List (OutRow K)) (e : Nat) : Nat :=
  ((rows.filter fun r => decide (r.educ = (e : Int))).map fun r => r.id).toFinset.card

theorem agentsOf_eq (h : Spec.Output env frame a biased false w par spec rows) {e y : Nat}
    (hy : spec.educ_years[e]? = some y) (hlt : y < spec.num_periods) :
    agentsOf rows e = (Spec.drawnEducation env spec).count e := by
  classical
  obtain ⟨hlen, hrows⟩ := C34_rows_belong_to_agents h
  have e1 : ((rows.filter fun r => decide (r.educ = (e : Int))).map fun r => r.id).toFinset
      = ((Finset.range (Spec.drawnEducation env spec).length).filter fun i =>
          (Spec.drawnEducation env spec)[i]? = some e).image (fun i : Nat => (i : Int)) := by
    ext x
    simp only [List.mem_toFinset, List.mem_map, List.mem_filter, Finset.mem_image, Finset.mem_filter, Finset.mem_range,
      decide_eq_true_eq]
    constructor
    · rintro ⟨r, ⟨hr, he⟩, rfl⟩
      obtain ⟨i, t, e', h1, h2, h3, h4, h5⟩ := hrows r hr
      have : e' = e := by omega
      subst this
      exact ⟨i, ⟨(List.getElem?_eq_some_iff.1 h4).1, h4⟩, h1.symm⟩
    · rintro ⟨i, ⟨-, hi⟩, rfl⟩
      have hc := C34_one_row_per_agent_and_period h i y
      rw [if_pos ⟨hlt, e, y, hi, hy, le_rfl⟩] at hc
      obtain ⟨r, hr, hr'⟩ := List.countP_pos_iff.1 (by rw [hc]; exact Nat.one_pos)
      simp only [Bool.and_eq_true, decide_eq_true_eq] at hr'
      obtain ⟨j, t, e', h1, h2, h3, h4, h5⟩ := hrows r hr
      have hj : j = i := by omega
      rw [hj, hi] at h4
      have : e' = e := (Option.some.inj h4).symm
      exact ⟨r, ⟨hr, by rw [h3, this]⟩, hr'.1⟩
  unfold agentsOf
  rw [e1, Finset.card_image_of_injective _ (fun _ _ h => by exact_mod_cast h)]
  generalize Spec.drawnEducation env spec = l
  induction l with
  | nil => rfl
  | cons x l ih =>
    rw [List.length_cons, Finset.range_eq_Ico, Finset.card_filter, Finset.sum_eq_sum_Ico_succ_bot (by omega),
      List.count_cons, ← ih, Finset.card_filter, Finset.range_eq_Ico, Finset.sum_Ico_add' _ 0 l.length 1 |>.symm]
    simp only [List.getElem?_cons_zero, List.getElem?_cons_succ, Option.some.injEq, beq_iff_eq]
    rw [add_comm]

theorem drawn_level (h : Spec.Output env frame a biased false w par spec rows) {e : Nat}
    (he : e ∈ Spec.drawnEducation env spec) : e < spec.num_educ_levels ∧ ∃ y, spec.educ_years[e]? = some y := by
  obtain ⟨c, g1, sol, hc, hs, -, initial, draws, m, R, F, rfl⟩ := output_run h
  obtain ⟨i, hi⟩ := List.mem_iff_getElem?.1 he
  have hlt : i < (Spec.drawnEducation env spec).length := (List.getElem?_eq_some_iff.1 hi).1
  unfold Spec.drawnEducation at hi hlt
  rw [← hc.educ] at hi hlt
  rw [F.educ_len, ← F.len] at hlt
  have hE := F.entry i _ (List.getElem?_eq_getElem hlt)
  have := hE.educ.symm.trans hi
  rw [← Option.some.inj this]
  exact ⟨hE.educ_lt, _, hE.period⟩

theorem sum_by_value (f : Nat → Nat) (n : Nat) : ∀ l : List Nat, (∀ e ∈ l, e < n) →
    (l.map f).sum = ((List.range n).map fun e => l.count e * f e).sum
  | [], _ => by simp
  | x :: l, h => by
    have h1 : ((List.range n).map fun e => (x :: l).count e * f e)
        = (List.range n).map fun e => l.count e * f e + if e = x then f x else 0 := by
      refine List.map_congr_left fun e _ => ?_
      rw [List.count_cons]
      by_cases hx : x = e
      · subst hx; simp; ring
      · rw [if_neg (by simpa using hx), if_neg (fun h => hx h.symm), Nat.add_zero, Nat.add_zero]
    have h2 : ((List.range n).map fun e => if e = x then f x else 0).sum = f x := by
      rw [sum_range_single _ x n (fun s _ hs => if_neg hs), if_pos (h x (by simp)), if_pos rfl]
    rw [List.map_cons, List.sum_cons, sum_by_value f n l (fun e he => h e (by simp [he])), h1, List.sum_map_add, h2,
      add_comm]

/-- **C34**  The number of rows: every agent of education `e` who appears contributes one row for every period after
schooling. -/
theorem C34_rows_by_education (h : Spec.Output env frame a biased false w par spec rows) :
    rows.length = ((List.range spec.num_educ_levels).map fun e =>
      agentsOf rows e * (spec.num_periods - spec.educ_years.getD e 0)).sum := by
  rw [C34_row_count h, sum_by_value _ _ _ fun e he => (drawn_level h he).1]
  congr 1
  refine List.map_congr_left fun e _ => ?_
  cases hy : spec.educ_years[e]? with
  | none =>
    have h1 : (Spec.drawnEducation env spec).count e = 0 := by
      rw [List.count_eq_zero]
      intro he
      obtain ⟨y, hy'⟩ := (drawn_level h he).2
      rw [hy] at hy'
      cases hy'
    have h2 : rows.filter (fun r => decide (r.educ = (e : Int))) = [] := by
      rw [List.filter_eq_nil_iff]
      intro r hr
      obtain ⟨i, t, e', -, -, h3, h4, -⟩ := (C34_rows_belong_to_agents h).2 r hr
      rw [decide_eq_true_eq, h3]
      intro hee
      have : e' = e := by exact_mod_cast hee
      rw [this] at h4
      exact List.count_eq_zero.1 h1 (List.mem_of_getElem? h4)
    unfold agentsOf
    rw [h1, h2]
    simp
  | some y =>
    rw [List.getD_eq_getElem?_getD, hy, Option.getD_some]
    by_cases hlt : y < spec.num_periods
    · rw [agentsOf_eq h hy hlt]
    · rw [Nat.sub_eq_zero_of_le (by omega), Nat.mul_zero, Nat.mul_zero]

end

section
variable {r : InitRng S K} {rng : Rng S K} {hermite : Nat → List K × List K} {biased sparse : Bool} {lost lost' : S}
  {c : Constr} {z : Sizes} {p p' : Process S K} {rows : List (OutRow K)}

theorem chosen_bounds (hc : Spec.Sensible c) (hz : Spec.Chosen c z) : z.educ_years.length = 3 ∧ 0 ≤ z.agents ∧
    1 ≤ z.periods ∧ 1 ≤ z.num_draws_emax ∧ (-1 ≤ z.child_age_init_max ∧ z.child_age_init_max ≤ 18) ∧
    0 ≤ z.init_exp_max := by
  have key : ∀ {given : Option Int} {lo hi x : Int} {P : Int → Prop}, Spec.IsChosen given lo hi x →
      (∀ y, given = some y → P y) → (∀ y, lo ≤ y → y < hi → P y) → P x := by
    intro given lo hi x P h1 h2 h3
    cases given with
    | none => exact h3 x h1.1 h1.2
    | some y => rw [show x = y from h1]; exact h2 y rfl
  refine ⟨?_, key hz.agents hc.agents (by intros; omega), key hz.periods hc.periods (by intros; omega),
    key hz.num_draws_emax hc.num_draws_emax (by intros; omega),
    key (P := fun x => -1 ≤ x ∧ x ≤ 18) hz.child_age_init_max hc.child_age_init_max (by intros; omega),
    key hz.init_exp_max hc.init_exp_max (by intros; omega)⟩
  rw [hz.educ_years]
  cases he : c.educ_years with
  | none => rfl
  | some y => exact hc.educ_years y he

/-- **C91**  With sensible constraints `random_init` returns, the sizes are the requested ones or from the default
ranges, and no object in memory is changed. -/
theorem C91_returns (laws : InitLaws r) (hc : Spec.Sensible c) (p : Process S K) :
    ∃ z p', randomInit r c p = (.ok z, p') ∧ Spec.Chosen c z ∧ p'.store = p.store := by
  obtain ⟨z, p', h, hz, frame, par, hf⟩ := randomInit_runs laws c (fun z hz => by
    obtain ⟨h1, h2, h3, h4, h5, h6⟩ := chosen_bounds hc hz
    exact ⟨h1, by omega, h5.1, h6⟩) p
  exact ⟨z, p', h, hz, hf.store⟩

theorem fixture_facts (laws : InitLaws r) (hc : Spec.Sensible c) (h : randomInit r c p = (.ok z, p')) :
    Spec.Chosen c z ∧ ∃ frame par, Fixture c z frame par p p' := by
  obtain ⟨z', p'', h', hz, hf⟩ := randomInit_runs laws c (fun z hz => by
    obtain ⟨h1, h2, h3, h4, h5, h6⟩ := chosen_bounds hc hz
    exact ⟨h1, by omega, h5.1, h6⟩) p
  rw [h] at h'
  obtain ⟨h1, rfl⟩ := Prod.mk.inj h'
  obtain rfl := Except.ok.inj h1
  exact ⟨hz, hf⟩

theorem grid_increasing : ((List.range 10).map fun i : Nat => (i : K) / 9).Pairwise (· < ·) := by
  rw [List.pairwise_map]
  refine List.pairwise_lt_range.imp fun {a b} hab => ?_
  have : (a : K) < b := by exact_mod_cast hab
  exact div_lt_div_of_pos_right this (by norm_num)

/-- What a test runs: `random_init`, then `simulate` with the names of the files. -/
theorem fixture_output (laws : InitLaws r) (rl : RngLaws rng) (hc : Spec.Sensible c) (hp : Sound p)
    (h : randomInit r c p = (.ok z, p')) :
    ∃ frame par spec, FixtureSpec z (specNumTypes frame) spec ∧ GoodFrame frame par ∧
      ∀ biased sparse, ∃ rows, Spec.Output ⟨rng, hermite, fun n => (p'.disk.shares n).getD []⟩ frame 0 biased sparse
        ⟨p'.rng, specObjects z⟩ par spec rows ∧ ∀ lost lost',
        (simulateP rng hermite (.path "test.soepy.pkl") (.path "test.soepy.yml") biased sparse lost lost' p').1
          = .ok rows := by
  obtain ⟨hz, frame, par, F⟩ := fixture_facts laws hc h
  obtain ⟨b1, b2, b3, b4, b5, b6⟩ := chosen_bounds hc hz
  obtain ⟨st', spec, hr, H⟩ := specObjects_read (K := K) (z := z) ⟨by omega, b2, by omega, b6⟩ (specNumTypes frame)
  refine ⟨frame, par, spec, H, F.good, fun biased sparse => ?_⟩
  have hcl := specObjects_closed (K := K) z
  have hsound : Sound p' := by
    refine ⟨by rw [F.store]; exact hp.closed, ?_⟩
    intro n objs root hn
    rw [F.spec] at hn
    dsimp only at hn
    split_ifs at hn with hname
    · obtain ⟨rfl, rfl⟩ := Prod.mk.inj (Option.some.inj hn)
      exact ⟨hcl, Nat.succ_pos _⟩
    · exact hp.files n objs root hn
  obtain ⟨t1, e1, l1, v1⟩ := F.educ
  obtain ⟨t2, e2, v2⟩ := F.ages
  obtain ⟨t3, e3, l3, v3⟩ := F.partner
  obtain ⟨t4, e4, v4⟩ := F.pt
  obtain ⟨t5, e5, v5⟩ := F.ft
  obtain ⟨t6, e6, v6⟩ := F.births
  obtain ⟨t7, e7, v7, -⟩ := F.arrival
  obtain ⟨t8, e8, v8, -⟩ := F.separation
  have hT : spec.num_periods = z.periods.toNat := by have := H.periods; omega
  have hX : spec.init_exp_max + 1 = (z.init_exp_max + 1).toNat := by have := H.exp; omega
  have hL : spec.num_educ_levels = 3 := by rw [H.levels, b1]
  have hrun : Runnable ⟨rng, hermite, fun n => (p'.disk.shares n).getD []⟩ spec par := by
    refine ⟨⟨?_, ?_, ?_, ?_, ?_, ?_, ?_, ?_, H.care⟩, by omega, by rw [H.educ, H.levels], Or.inr H.method,
      Or.inl H.regime, ?_, by rw [F.good.shares_len, H.types], F.good.shares.1, ?_⟩
    · rw [H.grid]; exact grid_increasing
    · rw [H.grid]; simp
    · rw [H.age_max]; norm_num
    · rw [H.age_max, H.age_init]; exact b5.2
    · rw [hL]
    · rw [H.types, F.good.theta_p]
    · rw [H.types, F.good.theta_f]
    · rw [H.tax]; exact proper2007.sorted
    · constructor
      · show ((p'.disk.shares _).getD []).length = _
        rw [H.educ_shares, e1, hL]; exact l1
      · show ValidProbs (((p'.disk.shares _).getD []).map _)
        rw [H.educ_shares, e1]; exact v1
      · show Spec.SharesOk ((p'.disk.shares _).getD []) _ _
        rw [H.child_age_shares, e2, hL, H.age_init]; exact v2
      · show _ ≤ ((p'.disk.shares _).getD []).length
        rw [H.partner_shares, e3, hL]; exact l3.ge
      · show ∀ x ∈ (p'.disk.shares _).getD [], _
        rw [H.partner_shares, e3]; exact v3
      · show Spec.SharesOk ((p'.disk.shares _).getD []) _ _
        rw [H.pt, e4, hL, hX]; exact v4
      · show Spec.SharesOk ((p'.disk.shares _).getD []) _ _
        rw [H.ft, e5, hL, hX]; exact v5
      · show Spec.PeriodTable ((p'.disk.shares _).getD []) _ _
        rw [H.child, e6, hT]; exact v6
      · show Spec.PeriodTable ((p'.disk.shares _).getD []) _ _
        rw [H.separation, e8, hL, hT]; exact v8
      · show Spec.PeriodTable ((p'.disk.shares _).getD []) _ _
        rw [H.arrival, e7, hL, hT]; exact v7
    · rw [F.good.shares.2]; norm_num
  obtain ⟨rows, ho⟩ := simulate_total (w := ⟨p'.rng, specObjects z⟩) (a := 0) rl hcl (Nat.succ_pos _) F.good.reads
    ⟨st', hr⟩ hrun biased sparse
  refine ⟨rows, ho, fun lost lost' => ?_⟩
  rw [C78_by_names (frame := frame) (objs := specObjects z) (root := 0) hsound (by rw [F.params]; simp)
    (by rw [F.spec]; simp)]
  · obtain ⟨w', hw⟩ := ho.run
    rw [hw]
    rfl
  · intro st'' spec' hr'
    rw [hr] at hr'
    obtain ⟨-, rfl⟩ := Prod.mk.inj (Except.ok.inj hr')
    intro n hn
    simp only [H.educ_shares, H.child_age_shares, H.partner_shares, H.pt, H.ft, H.child, H.separation, H.arrival,
      List.mem_cons, List.not_mem_nil, or_false] at hn
    rcases hn with rfl | rfl | rfl | rfl | rfl | rfl | rfl | rfl
    · rw [e1]; rfl
    · rw [e2]; rfl
    · rw [e3]; rfl
    · rw [e4]; rfl
    · rw [e5]; rfl
    · rw [e6]; rfl
    · rw [e8]; rfl
    · rw [e7]; rfl

/-- **C91**  `simulate` accepts every model that `random_init` creates. -/
theorem C91_simulates (laws : InitLaws r) (rl : RngLaws rng) (hc : Spec.Sensible c) (hp : Sound p)
    (h : randomInit r c p = (.ok z, p')) :
    ∃ rows, (simulateP rng hermite (.path "test.soepy.pkl") (.path "test.soepy.yml") biased sparse lost lost' p').1
      = .ok rows := by
  obtain ⟨frame, par, spec, -, -, h1⟩ := fixture_output (hermite := hermite) laws rl hc hp h
  obtain ⟨rows, -, h2⟩ := h1 biased sparse
  exact ⟨rows, h2 _ _⟩

theorem fixture_rows (laws : InitLaws r) (rl : RngLaws rng) (hc : Spec.Sensible c) (hp : Sound p)
    (h : randomInit r c p = (.ok z, p'))
    (hs : (simulateP rng hermite (.path "test.soepy.pkl") (.path "test.soepy.yml") biased false lost lost' p').1
      = .ok rows) :
    ∃ frame par spec, FixtureSpec z (specNumTypes frame) spec ∧ GoodFrame frame par ∧
      Spec.Output ⟨rng, hermite, fun n => (p'.disk.shares n).getD []⟩ frame 0 biased false
        ⟨p'.rng, specObjects z⟩ par spec rows := by
  obtain ⟨frame, par, spec, h1, h2, h3⟩ := fixture_output (hermite := hermite) laws rl hc hp h
  obtain ⟨rows', h4, h5⟩ := h3 biased false
  rw [h5] at hs
  obtain rfl := Except.ok.inj hs
  exact ⟨frame, par, spec, h1, h2, h4⟩

/-- **C91** (`test_unit_nan`)  Nobody is observed before the end of schooling, and everybody who is observed is observed
in the period in which schooling ends; the education of an agent does not change. -/
theorem C91_first_period (laws : InitLaws r) (rl : RngLaws rng) (hc : Spec.Sensible c) (hp : Sound p)
    (h : randomInit r c p = (.ok z, p'))
    (hs : (simulateP rng hermite (.path "test.soepy.pkl") (.path "test.soepy.yml") biased false lost lost' p').1
      = .ok rows) {x : OutRow K} (hx : x ∈ rows) :
    ∃ e y : Nat, x.educ = e ∧ z.educ_years[e]? = some y ∧ (y : Int) ≤ x.period ∧ x.period < z.periods ∧
      ∃ x' ∈ rows, x'.id = x.id ∧ x'.educ = e ∧ x'.period = y := by
  obtain ⟨frame, par, spec, H, -, ho⟩ := fixture_rows laws rl hc hp h hs
  obtain ⟨i, t, e, h1, h2, h3, h4, h5, e', y, h6, h7, h8⟩ := (C34_rows_belong_to_agents ho).2 x hx
  obtain rfl : e = e' := Option.some.inj (h4.symm.trans h6)
  refine ⟨e, y, h3, by rw [← H.educ]; exact h7, by omega, by have := H.periods; omega, ?_⟩
  have hcount := C34_one_row_per_agent_and_period ho i y
  rw [if_pos ⟨by omega, e, y, h6, h7, le_rfl⟩] at hcount
  obtain ⟨x', hx', hx''⟩ := List.countP_pos_iff.1 (by rw [hcount]; exact Nat.one_pos)
  simp only [Bool.and_eq_true, decide_eq_true_eq] at hx''
  obtain ⟨j, t', e'', k1, k2, k3, k4, -⟩ := (C34_rows_belong_to_agents ho).2 x' hx'
  have hj : j = i := by omega
  rw [hj, h6] at k4
  refine ⟨x', hx', by omega, ?_, hx''.2⟩
  rw [k3, ← Option.some.inj k4]

/-- **C91** (`test_no_children_no_exp`)  In the period in which schooling ends: without children at entry every agent is
childless, without experience at entry every agent has none. -/
theorem C91_no_children_no_exp (laws : InitLaws r) (rl : RngLaws rng) (hc : Spec.Sensible c) (hp : Sound p)
    (h : randomInit r c p = (.ok z, p'))
    (hs : (simulateP rng hermite (.path "test.soepy.pkl") (.path "test.soepy.yml") biased false lost lost' p').1
      = .ok rows) {x : OutRow K} (hx : x ∈ rows) (hfirst : z.educ_years[x.educ.toNat]? = some x.period.toNat) :
    (c.child_age_init_max = some (-1) → x.age = -1) ∧
      (c.init_exp_max = some 0 → x.expPT = 0 ∧ x.expFT = 0) := by
  obtain ⟨hz, -⟩ := fixture_facts laws hc h
  obtain ⟨frame, par, spec, H, -, ho⟩ := fixture_rows laws rl hc hp h hs
  obtain ⟨h1, h2, h3, -⟩ := C68_support ho hx (by unfold Spec.Entry; rw [H.educ]; exact hfirst)
  constructor
  · intro hage
    have := hz.child_age_init_max
    rw [hage] at this
    have : z.child_age_init_max = -1 := this
    have := H.age_init
    omega
  · intro hexp
    have := hz.init_exp_max
    rw [hexp] at this
    have : z.init_exp_max = 0 := this
    have := H.exp
    omega

/-- **C91** (`test_unit_data_frame_shape`)  The number of rows is the sum over the levels of education of the number of
agents observed times the number of periods after schooling. -/
theorem C91_shape (laws : InitLaws r) (rl : RngLaws rng) (hc : Spec.Sensible c) (hp : Sound p)
    (h : randomInit r c p = (.ok z, p'))
    (hs : (simulateP rng hermite (.path "test.soepy.pkl") (.path "test.soepy.yml") biased false lost lost' p').1
      = .ok rows) :
    (rows.length : Int) = ((List.range 3).map fun e =>
      (agentsOf rows e : Int) * (z.periods - (z.educ_years.getD e 0 : Nat))).sum := by
  obtain ⟨hz, -⟩ := fixture_facts laws hc h
  obtain ⟨b1, -⟩ := chosen_bounds hc hz
  obtain ⟨frame, par, spec, H, -, ho⟩ := fixture_rows laws rl hc hp h hs
  have key : ∀ e, ((agentsOf rows e * (spec.num_periods - spec.educ_years.getD e 0) : Nat) : Int)
      = (agentsOf rows e : Int) * (z.periods - (z.educ_years.getD e 0 : Nat)) := by
    intro e
    rw [← H.periods, H.educ]
    by_cases hle : z.educ_years.getD e 0 ≤ spec.num_periods
    · rw [Nat.cast_mul, Nat.cast_sub hle]
    · have h0 : agentsOf rows e = 0 := by
        unfold agentsOf
        rw [List.filter_eq_nil_iff.2]
        · rfl
        · intro x hx
          rw [decide_eq_true_eq]
          intro hxe
          obtain ⟨e', y, k1, k2, k3, k4, -⟩ := C91_first_period laws rl hc hp h hs hx
          have : e' = e := by omega
          rw [this] at k2
          rw [List.getD_eq_getElem?_getD, k2, Option.getD_some] at hle
          have := H.periods
          omega
      rw [h0]
      simp
  rw [C34_rows_by_education ho, show spec.num_educ_levels = 3 by rw [H.levels, b1]]
  simp only [List.range_succ, List.range_zero, List.nil_append, List.cons_append, List.map_cons, List.map_nil,
    List.sum_cons, List.sum_nil]
  rw [Nat.cast_add, Nat.cast_add, Nat.cast_add, key, key, key]
  simp

/-- **C91**  If schooling always ends within the horizon, every agent is observed at the end of schooling. -/
theorem C91_everybody (laws : InitLaws r) (rl : RngLaws rng) (hc : Spec.Sensible c) (hp : Sound p)
    (h : randomInit r c p = (.ok z, p'))
    (hs : (simulateP rng hermite (.path "test.soepy.pkl") (.path "test.soepy.yml") biased false lost lost' p').1
      = .ok rows) (hall : ∀ y ∈ z.educ_years, (y : Int) < z.periods) {i : Nat} (hi : (i : Int) < z.agents) :
    ∃ x ∈ rows, x.id = i ∧ z.educ_years[x.educ.toNat]? = some x.period.toNat := by
  obtain ⟨frame, par, spec, H, -, ho⟩ := fixture_rows laws rl hc hp h hs
  obtain ⟨hlen, hrows⟩ := C34_rows_belong_to_agents ho
  have hi' : i < (Spec.drawnEducation ⟨rng, hermite, fun n => (p'.disk.shares n).getD []⟩ spec).length := by
    have := H.agents
    rw [hlen]
    omega
  obtain ⟨-, y, hy⟩ := drawn_level ho (List.getElem_mem hi')
  have hlt : y < spec.num_periods := by
    have h1 := hall y (by rw [← H.educ]; exact List.mem_of_getElem? hy)
    have := H.periods
    omega
  have hcount := C34_one_row_per_agent_and_period ho i y
  rw [if_pos ⟨hlt, _, y, List.getElem?_eq_getElem hi', hy, le_rfl⟩] at hcount
  obtain ⟨x, hx, hx'⟩ := List.countP_pos_iff.1 (by rw [hcount]; exact Nat.one_pos)
  simp only [Bool.and_eq_true, decide_eq_true_eq] at hx'
  obtain ⟨j, t, e, k1, k2, k3, k4, -⟩ := hrows x hx
  have hj : j = i := by omega
  rw [hj, List.getElem?_eq_getElem hi'] at k4
  refine ⟨x, hx, hx'.1, ?_⟩
  rw [k3, hx'.2, Int.toNat_natCast, Int.toNat_natCast, ← H.educ, ← Option.some.inj k4]
  exact hy

theorem tableEntry_zero {tbl : List (Nat × K)} (hz : ∀ x ∈ tbl, x.2 = 0) (T m t e : Nat) :
    Spec.tableEntry tbl T m t e = 0 := by
  unfold Spec.tableEntry
  rw [List.getD_eq_getElem?_getD]
  cases hx : ((tbl.filter fun r => decide (r.1 < T)).map Prod.snd)[t * m + e]? with
  | none => rfl
  | some v =>
    obtain ⟨z, hz1, rfl⟩ := List.mem_map.1 (List.mem_of_getElem? hx)
    exact hz z (List.mem_filter.1 hz1).1

/-- **C91**  With the constraint on arrivals a single stays single, with the constraint on separations a couple stays
together. -/
theorem C91_partners (laws : InitLaws r) (rl : RngLaws rng) (hc : Spec.Sensible c) (hp : Sound p)
    (h : randomInit r c p = (.ok z, p'))
    (hs : (simulateP rng hermite (.path "test.soepy.pkl") (.path "test.soepy.yml") biased false lost lost' p').1
      = .ok rows) {x x' : OutRow K} (hx : x ∈ rows) (hx' : x' ∈ rows) (hn : Spec.Next x x') :
    (c.partner_arrival = true → x.partner = 0 → x'.partner = 0) ∧
      (c.partner_separation = true → x.partner = 1 → x'.partner = 1) := by
  obtain ⟨-, frame', par', F⟩ := fixture_facts laws hc h
  obtain ⟨frame, par, spec, H, -, ho⟩ := fixture_rows laws rl hc hp h hs
  obtain ⟨t1, -, t2, -⟩ := C60_partner_transitions ho hx hx' hn
  have hst := C60_partner_status ho x' hx'
  constructor
  · intro ha h0
    rcases hst with h1 | h1
    · exact h1
    · obtain ⟨rows', e, -, hz⟩ := F.arrival
      refine absurd (t1 h0 h1) (le_of_eq ?_).not_gt
      refine tableEntry_zero (tbl := (p'.disk.shares spec.files.partner_arrival).getD []) ?_ _ _ _ _
      rw [H.arrival, e]
      exact hz ha
  · intro ha h0
    rcases hst with h1 | h1
    · obtain ⟨rows', e, -, hz⟩ := F.separation
      refine absurd (t2 h0 h1) (le_of_eq ?_).not_gt
      refine tableEntry_zero (tbl := (p'.disk.shares spec.files.partner_separation).getD []) ?_ _ _ _ _
      rw [H.separation, e]
      exact hz ha
    · exact h1

/-- The program raises `ValueError`. -/
def Fails {α : Type} (x : Py S K α) (p : Process S K) : Prop := ∃ m, (x p).1 = .error (.valueError m)

theorem Fails.after {α β : Type} {x : Py S K α} {f : α → Py S K β} {Q : α → Process S K → Prop} (hx : x.Runs p Q)
    (hf : ∀ a p', Q a p' → Fails (f a) p') : Fails (x >>= f) p := by
  obtain ⟨a, p', h, hq⟩ := hx
  obtain ⟨m, hm⟩ := hf a p' hq
  exact ⟨m, by rw [Py.bind_eq, h]; exact hm⟩

theorem Fails.first {α β : Type} {x : Py S K α} (hx : Fails x p) (f : α → Py S K β) : Fails (x >>= f) p := by
  obtain ⟨m, hm⟩ := hx
  refine ⟨m, ?_⟩
  rw [Py.bind_eq]
  rcases h : x p with ⟨a, p'⟩
  rw [h] at hm
  rw [show a = .error (.valueError m) from hm]

theorem saveShares_cases (name : String) (index : List Nat) (values : List K) (p : Process S K) :
    (Py.saveShares name index values : Py S K Unit).Runs p (fun _ _ => True) ∨
      Fails (Py.saveShares name index values : Py S K Unit) p := by
  by_cases h : index.length = values.length
  · obtain ⟨a, p', h1, -⟩ := saveShares_runs (S := S) name h p
    exact Or.inl ⟨a, p', h1, trivial⟩
  · refine Or.inr ⟨"Shape of passed values", ?_⟩
    unfold Py.saveShares
    dsimp only
    rw [if_pos h]

theorem saveDistribution_cases (name : String) (n : Nat) (b : Bool) (k : Int) (p : Process S K) :
    (saveDistribution r name n b k).Runs p (fun _ _ => True) ∨ Fails (saveDistribution r name n b k) p := by
  unfold saveDistribution
  cases b with
  | true => rw [if_pos rfl]; exact saveShares_cases _ _ _ p
  | false =>
    rw [if_neg (by simp)]
    by_cases hk : k * (n : Int) < 0
    · refine Or.inr (Fails.first ⟨"negative dimensions are not allowed", ?_⟩ _)
      unfold Py.uniform
      dsimp only
      rw [if_pos hk]
    · have hu : (Py.uniform r (1 : K) 10 (k * n)).Runs p fun a p' => (a, p')
          = ((r.uniform p.rng 1 10 (k * n : Int).toNat).1, { p with rng := (r.uniform p.rng 1 10 (k * n : Int).toNat).2 }) := by
        refine ⟨_, _, ?_, rfl⟩
        unfold Py.uniform
        rw [if_neg hk]
      rcases saveShares_cases (S := S) name (productIndex [0, 1, 2] k.toNat)
        (normalised (r.uniform p.rng 1 10 (k * n : Int).toNat).1)
        { p with rng := (r.uniform p.rng 1 10 (k * n : Int).toNat).2 } with h | h
      · refine Or.inl (hu.bind fun a p' he => ?_)
        obtain ⟨rfl, rfl⟩ := Prod.mk.inj he
        exact h
      · refine Or.inr (Fails.after hu fun a p' he => ?_)
        obtain ⟨rfl, rfl⟩ := Prod.mk.inj he
        exact h

/-- **C91**  Any other number of levels of education is rejected. -/
theorem C91_three_levels (laws : InitLaws r) {y : List Nat} (hy : c.educ_years = some y) (h0 : y ≠ []) (h3 : y.length ≠ 3)
    (p : Process S K) : ∃ m, (randomInit r c p).1 = .error (.valueError m) := by
  show Fails _ p
  unfold randomInit
  refine Fails.after (drawSizes_runs laws c p) fun z p1 ⟨_, hz⟩ => ?_
  have hlen : z.educ_years.length ≠ 3 := by rw [hz.educ_years, hy]; exact h3
  refine Fails.after (Q := fun _ _ => True) ⟨(), _, rfl, trivial⟩ fun _ p2 _ => ?_
  refine Fails.after (drawFrame_runs laws p2) fun frame p3 _ => ?_
  refine Fails.after (Q := fun _ _ => True) ⟨(), _, rfl, trivial⟩ fun _ p4 _ => ?_
  refine Fails.after (uniform_runs laws (by norm_num) (by omega) p4) fun educ p5 ⟨_, hl5, _⟩ => ?_
  refine Fails.after (saveShares_runs _ (by rw [List.length_range, normalised, List.length_map]; omega) p5)
    fun _ p6 _ => ?_
  rcases saveDistribution_cases (r := r) "test.soepy.child.age.shares.pkl" z.educ_years.length
    (decide (z.child_age_init_max = -1)) (z.child_age_init_max + 2) p6 with h | h
  · refine Fails.after h fun _ p7 _ => ?_
    refine Fails.after (uniform_runs laws (by norm_num) (by omega) p7) fun partner p8 ⟨_, hl8, _⟩ => ?_
    refine Fails.first ⟨"Shape of passed values", ?_⟩ _
    unfold Py.saveShares
    dsimp only
    rw [if_pos]
    show 3 ≠ _
    omega
  · exact Fails.first h _

/-- **C91**  The specification in the file has the sizes of the generated model, uses Monte Carlo integration, and births
are possible in all periods. -/
theorem C91_specification (laws : InitLaws r) (hc : Spec.Sensible c) (h : randomInit r c p = (.ok z, p')) (n : Nat) :
    ∃ objs root st' spec, p'.disk.specs "test.soepy.yml" = some (objs, root) ∧
      readModelSpec objs root n = .ok (st', spec) ∧ Spec.HasSizes z spec ∧ spec.integration_method = "monte_carlo" ∧
      spec.last_child_bearing_period = spec.num_periods := by
  obtain ⟨hz, frame, par, F⟩ := fixture_facts laws hc h
  obtain ⟨b1, b2, b3, b4, b5, b6⟩ := chosen_bounds hc hz
  obtain ⟨st', spec, hr, H⟩ := specObjects_read (K := K) (z := z) ⟨by omega, b2, by omega, b6⟩ n
  exact ⟨_, _, st', spec, by rw [F.spec]; simp, hr,
    ⟨H.educ, H.agents, H.periods, H.seed_sim, H.seed_emax, H.draws, H.age_init, H.exp⟩, H.method,
    by rw [H.last, H.periods]⟩

/-- **C91**  The parameters in the file: one to four types with shares that sum to one, and the discount factor, the risk
aversion and the standard deviation of the wage shock in the ranges of the generator. -/
theorem C91_parameters (laws : InitLaws r) (hc : Spec.Sensible c) (h : randomInit r c p = (.ok z, p')) :
    ∃ frame par, p'.disk.frames "test.soepy.pkl" = some frame ∧ readModelParams frame = .ok par ∧
      1 ≤ par.type_shares.length ∧ par.type_shares.length ≤ 4 ∧ (∀ x ∈ par.type_shares, 0 ≤ x) ∧
      par.type_shares.sum = 1 ∧ par.theta_p.length = par.type_shares.length ∧
      par.theta_f.length = par.type_shares.length ∧ (0.8 ≤ par.delta ∧ par.delta ≤ 0.99) ∧
      (-0.7 ≤ par.mu ∧ par.mu ≤ -0.4) ∧ (0.001 ≤ par.shock_sd ∧ par.shock_sd ≤ 1) := by
  obtain ⟨-, frame, par, F⟩ := fixture_facts laws hc h
  have G := F.good
  refine ⟨frame, par, by rw [F.params]; simp, G.reads, ?_, ?_, G.shares.1, G.shares.2, ?_, ?_, G.delta, G.mu, G.sd⟩
  · rw [G.shares_len]; exact G.types.1
  · rw [G.shares_len]; exact G.types.2
  · rw [G.shares_len, G.theta_p]
  · rw [G.shares_len, G.theta_f]

end

/-! ## Examples -/

/-- A generator that always returns the smallest number. -/
def lowRng : InitRng Nat ℚ where
  randint g lo _ := (lo, g + 1)
  uniform g lo hi n := (List.replicate n (min lo hi), g + n)
  choice g l := (l.headD 0, g + 1)

theorem lowRng_laws : InitLaws lowRng := by
  refine ⟨fun g lo hi h => ⟨le_rfl, h⟩, fun g lo hi n => by simp [lowRng], ?_, ?_⟩
  · intro g lo hi n x hx
    rw [List.eq_of_mem_replicate hx]
    exact ⟨le_rfl, min_le_max⟩
  · intro g l hl
    cases l with
    | nil => exact absurd rfl hl
    | cons a l => simp [lowRng]

/-- The constraints of `test_unit_nan`. -/
def unitConstr : Constr :=
  { agents := some 200, periods := some 7, educ_years := some [0, 2, 4], init_exp_max := some 0,
    child_age_init_max := some (-1), seed_sim := some 1234, seed_emax := some 4321, num_draws_emax := some 20 }

theorem unitConstr_sensible : Spec.Sensible unitConstr := by
  constructor <;> intro y hy <;> cases hy <;> simp

theorem noConstr_sensible : Spec.Sensible {} := by
  constructor <;> intro y hy <;> cases hy

/-- The hypotheses hold for the constraints of the unit test, and without constraints; two levels of education are
rejected. -/
example [Transc ℚ] (hermite : Nat → List ℚ × List ℚ) (g l l' : Nat) :
    (∃ z p' rows, randomInit lowRng unitConstr (exProcess [] g) = (.ok z, p') ∧
      z.periods = 7 ∧ z.educ_years = [0, 2, 4] ∧
      (simulateP (altRng ℚ) hermite (.path "test.soepy.pkl") (.path "test.soepy.yml") false false l l' p').1
        = .ok rows ∧ Spec.Chosen unitConstr z ∧
      ∀ i < 200, ∃ x ∈ rows, x.id = (i : Nat) ∧ z.educ_years[x.educ.toNat]? = some x.period.toNat ∧ x.age = -1 ∧
        x.expPT = 0 ∧ x.expFT = 0) ∧
    (∃ z p' rows, randomInit lowRng {} (exProcess [] g) = (.ok z, p') ∧
      (simulateP (altRng ℚ) hermite (.path "test.soepy.pkl") (.path "test.soepy.yml") true true l l' p').1
        = .ok rows ∧ z.periods < 8) ∧
    ∃ m, (randomInit lowRng { educ_years := some [0, 2] } (exProcess [] g)).1 = .error (.valueError m) := by
  refine ⟨?_, ?_, C91_three_levels lowRng_laws rfl (by simp) (by decide) _⟩
  · obtain ⟨z, p', h, hz, -⟩ := C91_returns lowRng_laws unitConstr_sensible (exProcess [] g)
    obtain ⟨rows, hr⟩ := C91_simulates (hermite := hermite) (biased := false) (sparse := false) (lost := l) (lost' := l')
      lowRng_laws (altRng_laws (K := ℚ)) unitConstr_sensible (exProcess_sound [] g) h
    refine ⟨z, p', rows, h, hz.periods, hz.educ_years, hr, hz, fun i hi => ?_⟩
    obtain ⟨x, hx, h1, h2⟩ := C91_everybody lowRng_laws (altRng_laws (K := ℚ)) unitConstr_sensible
      (exProcess_sound [] g) h hr (i := i) (by
        rw [hz.educ_years, show z.periods = 7 from hz.periods]
        simp [unitConstr]) (by rw [show z.agents = 200 from hz.agents]; omega)
    obtain ⟨h3, h4⟩ := C91_no_children_no_exp lowRng_laws (altRng_laws (K := ℚ)) unitConstr_sensible
      (exProcess_sound [] g) h hr hx h2
    exact ⟨x, hx, h1, h2, h3 rfl, h4 rfl⟩
  · obtain ⟨z, p', h, hz, -⟩ := C91_returns lowRng_laws noConstr_sensible (exProcess [] g)
    obtain ⟨rows, hr⟩ := C91_simulates (hermite := hermite) (biased := true) (sparse := true) (lost := l) (lost' := l')
      lowRng_laws (altRng_laws (K := ℚ)) noConstr_sensible (exProcess_sound [] g) h
    exact ⟨z, p', rows, h, hr, hz.periods.2⟩

end Soepy.Props
