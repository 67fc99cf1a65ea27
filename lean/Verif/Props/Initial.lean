import Verif.Proof.Initial
import Verif.Props.Entry

/-!
# The exact initial conditions (C68)
-/

set_option linter.unusedSectionVars false

namespace Soepy.Props
open Soepy
variable {S K : Type} [Field K] [LinearOrder K] [IsStrictOrderedRing K] [FloorRing K] [Transc K]
  {env : Env S K} {frame : Frame K} {a : Nat} {biased : Bool} {w : World S K}
  {par : ModelParams K} {spec : ModelSpec K} {rows : List (OutRow K)}

/-- An entrant's row is a row of an initial state. -/
theorem entry_origin {rng : Rng S K} (L : RngLaws rng) {inp : SimInput K} {probs : InitProbs K}
    {initial : List (Agent K)} {draws : List (List K)} {m : Nat} {g : S}
    {R : Run rng par spec inp false draws initial m g}
    (F : SimFacts rng par spec inp probs false initial draws m) {t : Nat} (ht : t < spec.num_periods)
    {q : Row K} (hq : q ∈ R.rows t) (he : Spec.Entry spec (recorded false q)) : q.agent ∈ initial := by
  have hper := R.period_eq L t ht q hq
  rcases R.origin L F.period_le ht hq with ⟨h1, -⟩ | ⟨t', rfl, r0, hr0, x, p, hx, hp, heq⟩
  · exact h1
  · exfalso
    obtain ⟨b, hb, -, h2, -, h3⟩ := R.educ_eq L t' (by omega) r0 hr0
    have h4 := (F.mem hb).2.period
    unfold Spec.Entry at he
    rw [recorded_educ, recorded_period, Int.toNat_natCast, Int.toNat_natCast, hper] at he
    have h5 : q.agent.educ = b.educ := by rw [heq, h2]; rfl
    rw [h5, h4] at he
    have := Option.some.inj he
    omega

/-- **C68**  The first row of agent `i` carries exactly the draws made for them: the `k`-th draws for their
education level, where `k` is the number of agents before `i` with the same education. -/
theorem C68_entry_states (h : Spec.Output env frame a biased false w par spec rows) {r : OutRow K}
    (hr : r ∈ rows) (he : Spec.Entry spec r) :
    let i := r.id.toNat
    let e := r.educ.toNat
    let k := Spec.rank env spec e i
    let draws := Spec.drawsOfLevel env spec e
    (Spec.drawnEducation env spec)[i]? = some e ∧
    draws.ages[k]?.map (fun j : Nat => (j : Int) - 1) = some r.age ∧
    draws.partners[k]?.map (Nat.cast : Nat → Int) = some r.partner ∧
    draws.partTime[k]?.map (Nat.cast : Nat → Int) = some r.expPT ∧
    draws.fullTime[k]?.map (Nat.cast : Nat → Int) = some r.expFT := by
  obtain ⟨c, g1, sol, hc, initial, draws, m, R, F, hst, rfl⟩ := output_start h
  obtain ⟨t, ht, q, hq, rfl⟩ := mem_recorded.1 hr
  have hmem := entry_origin h.laws F ht hq he
  obtain ⟨i, hi⟩ := List.mem_iff_getElem?.1 hmem
  have hid := (F.entry i _ hi).id
  obtain ⟨s1, ⟨j, s2, s3⟩, s4, s5, s6, -⟩ := hst i _ hi
  have hPT : (recorded false q).expPT = q.agent.expPT := by rw [recorded_full]; rfl
  have hFT : (recorded false q).expFT = q.agent.expFT := by rw [recorded_full]; rfl
  dsimp only
  rw [recorded_id, recorded_educ, recorded_age, recorded_partner, hPT, hFT, Int.toNat_natCast,
    Int.toNat_natCast, hid, s2, s4, s5, s6, s3]
  exact ⟨s1, rfl, rfl, rfl, rfl⟩

/-- **C68**  In every row the type of agent `i` is the `i`-th of the types drawn after all other initial
conditions. -/
theorem C68_types (h : Spec.Output env frame a biased false w par spec rows) {r : OutRow K} (hr : r ∈ rows) :
    (Spec.drawnTypes env par spec)[r.id.toNat]?.map (Nat.cast : Nat → Int) = some r.type := by
  obtain ⟨c, g1, sol, hc, initial, draws, m, R, F, hst, rfl⟩ := output_start h
  obtain ⟨t, ht, q, hq, rfl⟩ := mem_recorded.1 hr
  obtain ⟨b, hb, h1, -, h2, -⟩ := R.educ_eq h.laws t ht q hq
  obtain ⟨i, hi⟩ := List.mem_iff_getElem?.1 hb
  have hid := (F.entry i _ hi).id
  have s1 := (hst i _ hi).type
  have hT : (recorded false q).type = q.agent.type := by rw [recorded_full]; rfl
  rw [recorded_id, hT, Int.toNat_natCast, ← h1, hid, s1, h2]
  rfl

/-- **C68**  Entrants only have characteristics with a positive share: children of at most
`child_age_init_max` years, at most `init_exp_max` years of experience of each kind. -/
theorem C68_support (h : Spec.Output env frame a biased false w par spec rows) {r : OutRow K}
    (hr : r ∈ rows) (he : Spec.Entry spec r) :
    (-1 ≤ r.age ∧ r.age ≤ spec.child_age_init_max ∧ ∃ y,
      (Spec.initialShares (env.disk spec.files.child_age_shares) r.educ.toNat)[(r.age + 1).toNat]? = some y ∧
        0 < y) ∧
    (0 ≤ r.expPT ∧ r.expPT ≤ spec.init_exp_max ∧ ∃ y,
      (Spec.initialShares (env.disk spec.files.pt_exp_shares) r.educ.toNat)[r.expPT.toNat]? = some y ∧
        0 < y) ∧
    (0 ≤ r.expFT ∧ r.expFT ≤ spec.init_exp_max ∧ ∃ y,
      (Spec.initialShares (env.disk spec.files.ft_exp_shares) r.educ.toNat)[r.expFT.toNat]? = some y ∧
        0 < y) ∧
    (∃ y, ((env.disk spec.files.partner_shares).map Prod.snd)[r.educ.toNat]? = some y ∧
      ((r.partner = 0 ∧ y < 1) ∨ (r.partner = 1 ∧ 0 < y))) ∧
    (∃ y, par.type_shares[r.type.toNat]? = some y ∧ 0 < y) ∧
    (∃ y, ((env.disk spec.files.educ_shares).map Prod.snd)[r.educ.toNat]? = some y ∧ 0 < y) := by
  obtain ⟨c, g1, sol, hc, initial, draws, m, R, F, hst, rfl⟩ := output_start h
  obtain ⟨t, ht, q, hq, rfl⟩ := mem_recorded.1 hr
  have hmem := entry_origin h.laws F ht hq he
  obtain ⟨i, hi⟩ := List.mem_iff_getElem?.1 hmem
  have E := F.entry i _ hi
  have hPT : (recorded false q).expPT = q.agent.expPT := by rw [recorded_full]; rfl
  have hFT : (recorded false q).expFT = q.agent.expFT := by rw [recorded_full]; rfl
  have hT : (recorded false q).type = q.agent.type := by rw [recorded_full]; rfl
  rw [recorded_educ, recorded_age, recorded_partner, hPT, hFT, hT, Int.toNat_natCast, Int.toNat_natCast,
    Int.toNat_natCast, Int.toNat_natCast]
  refine ⟨?_, ?_, ?_, ?_, E.type, ?_⟩
  · obtain ⟨j, ⟨p, y, h1, h2, h3, h4⟩, h5⟩ := E.age
    obtain rfl := sharesOfEduc_spec (mapE_range_get hc.childAge h1)
    have := (List.getElem?_eq_some_iff.1 h3).1
    have e1 : (q.agent.age + 1).toNat = j := by omega
    rw [e1]
    exact ⟨by omega, by omega, y, h3, h4⟩
  · obtain ⟨p, y, h1, h2, h3, h4⟩ := E.pt
    obtain rfl := sharesOfEduc_spec (mapE_range_get hc.expPt h1)
    have := (List.getElem?_eq_some_iff.1 h3).1
    exact ⟨by omega, by omega, y, h3, h4⟩
  · obtain ⟨p, y, h1, h2, h3, h4⟩ := E.ft
    obtain rfl := sharesOfEduc_spec (mapE_range_get hc.expFt h1)
    have := (List.getElem?_eq_some_iff.1 h3).1
    exact ⟨by omega, by omega, y, h3, h4⟩
  · obtain ⟨y, h1, h2, h3, h4⟩ := E.partner
    rw [hc.partnerPresent] at h1
    refine ⟨y, h1, ?_⟩
    rcases h4 with ⟨k1, k2⟩ | ⟨k1, k2⟩
    · exact Or.inl ⟨by exact_mod_cast k1, lt_of_le_of_ne h3 k2⟩
    · exact Or.inr ⟨by exact_mod_cast k1, lt_of_le_of_ne h2 (Ne.symm k2)⟩
  · exact (hst i _ hi).share

/-- Agent 2 of the example is the second one with the higher education; they start in period 1 with a
child of two years, one year of part-time and two years of full-time experience, without a partner and as the
first type. -/
example [Transc ℚ] (hermite : Nat → List ℚ × List ℚ) (g : Nat) :
    ∃ rows, Spec.Output (simEnv exFiles hermite) exFrame 0 false false (simWorld 4 g) exParams simSpec rows ∧
      ∃ r ∈ rows, Spec.Entry simSpec r ∧ r.id = 2 ∧ r.educ = 1 ∧ r.period = 1 ∧ r.age = 2 ∧ r.partner = 0 ∧
        r.expPT = 1 ∧ r.expFT = 2 ∧ r.type = 0 := by
  obtain ⟨rows, h⟩ := exOutput exFiles_ok hermite false false g
  obtain ⟨r, hr, h1, h2, h3⟩ := sim_row h 2 1 (by decide) (by decide) (by decide)
  have he : Spec.Entry simSpec r := by unfold Spec.Entry; rw [h2, h3, specOf_facts.years]; rfl
  have hd : Spec.drawnEducation (simEnv exFiles hermite) simSpec = [1, 0, 1, 0, 1] := by
    unfold Spec.drawnEducation
    rw [specOf_facts.seed, specOf_facts.agents, specOf_facts.files]
    show ((altRng ℚ).choice ((altRng ℚ).seed 1) 5 [1/2, 1/2]).1 = _
    decide +kernel
  have hb : ∀ e, Spec.beforeLevel (simEnv exFiles hermite) simSpec e = 2 + 4 * e := by
    intro e
    induction e with
    | zero => simp only [Spec.beforeLevel, specOf_facts.seed]; rfl
    | succ e ih => simp only [Spec.beforeLevel, ih]; rfl
  obtain ⟨-, k2, k3, k4, k5⟩ := C68_entry_states h hr he
  have k6 := C68_types h hr
  rw [h1, h3] at k2 k3 k4 k5
  rw [h1] at k6
  unfold Spec.rank Spec.drawsOfLevel at k2 k3 k4 k5
  unfold Spec.drawnTypes at k6
  rw [hd, hb] at k2 k3 k4 k5
  unfold Spec.levelDraws at k2 k3 k4 k5
  rw [specOf_facts.files] at k2 k3 k4 k5
  rw [hb, specOf_facts.educ, exFacts.shares, specOf_facts.agents] at k6
  refine ⟨rows, h, r, hr, he, h1, h3, h2, ?_, ?_, ?_, ?_, ?_⟩
  · have : some (2 : Int) = some r.age := by
      rw [← k2]
      show _ = ((altRng ℚ).choice 6 3 (Spec.initialShares (exFiles.disk "ages") 1)).1[1]?.map _
      decide +kernel
    exact (Option.some.inj this).symm
  · have : some (0 : Int) = some r.partner := by
      rw [← k3]
      show _ = ((altRng ℚ).binomial 7 (List.replicate 3 (((exFiles.disk "partner").map Prod.snd).getD 1 0))).1[1]?.map _
      decide +kernel
    exact (Option.some.inj this).symm
  · have : some (1 : Int) = some r.expPT := by
      rw [← k4]
      show _ = ((altRng ℚ).choice 8 3 (Spec.initialShares (exFiles.disk "pt") 1)).1[1]?.map _
      decide +kernel
    exact (Option.some.inj this).symm
  · have : some (2 : Int) = some r.expFT := by
      rw [← k5]
      show _ = ((altRng ℚ).choice 9 3 (Spec.initialShares (exFiles.disk "ft") 1)).1[1]?.map _
      decide +kernel
    exact (Option.some.inj this).symm
  · have : some (0 : Int) = some r.type := by
      rw [← k6]
      show _ = ((altRng ℚ).choice 10 5 [3/5, 2/5]).1[2]?.map _
      decide +kernel
    exact (Option.some.inj this).symm

end Soepy.Props
