import Verif.Props.Likelihood
import Mathlib.Probability.Moments.SubGaussian

/-! # Choice frequencies among identical entrants (C115) -/

set_option linter.unusedSectionVars false

namespace Soepy.Props
open Soepy MeasureTheory ProbabilityTheory

variable {S Ω : Type} {par : ModelParams ℝ}
  {spec : ModelSpec ℝ} {biased : Bool} {base : Rng S ℝ} {hermite : Nat → List ℝ × List ℝ} {disk : String → List (Nat × ℝ)}
  {N : Ω → S → ℕ → ℕ → List (List ℝ) × S}

/-- Agent `i` makes choice `c` in period `t`. -/
def Chooses (rows : List (OutRow ℝ)) (i t : ℕ) (c : Fin 3) : Prop :=
  ∃ r ∈ rows, r.id = (i : ℤ) ∧ r.period = (t : ℤ) ∧ r.choice = ((c : ℕ) : ℤ)

theorem entry_choice (hu : Usable spec par) (hlast : -1 ≤ spec.last_child_bearing_period)
    (hgen : ∀ ω ω', (N ω (base.seed spec.seed_sim) spec.num_periods spec.num_agents_sim).2
      = (N ω' (base.seed spec.seed_sim) spec.num_periods spec.num_agents_sim).2)
    (hnodes : ∀ ω ω', Spec.nodes (withNormals base hermite disk (N ω)) spec = Spec.nodes (withNormals base hermite disk (N ω')) spec)
    {rows : Ω → List (OutRow ℝ)}
    (hout : ∀ ω, ∃ frame a w, Spec.Output (withNormals base hermite disk (N ω)) frame a biased false w par spec (rows ω))
    (ω0 : Ω) {i t0 : ℕ} (hentry : Spec.entryYear (withNormals base hermite disk (N ω0)) spec i = some t0)
    {r0 : OutRow ℝ} (hr0 : r0 ∈ rows ω0 ∧ r0.id = (i : ℤ) ∧ r0.period = (t0 : ℤ)) :
    ∃ k, t0 < spec.num_periods ∧ k < spec.num_agents_sim ∧
      (∃ a, (Spec.population (withNormals base hermite disk (N ω0)) par spec biased t0).1[k]? = some a ∧ a.id = i) ∧
      ∀ ω c, Chooses (rows ω) i t0 c ↔ choiceAt (withNormals base hermite disk (N ω0)) par spec biased (Spec.stateOf r0) r0.stock
        (((Spec.normalDraws (withNormals base hermite disk (N ω)) spec).getD t0 []).getD k 0 * par.shock_sd) = c := by
  have hrows : ∀ ω, rows ω = Spec.panel (withNormals base hermite disk (N ω)) par spec biased := by
    intro ω
    obtain ⟨frame, a, w, h⟩ := hout ω
    exact C69_rows h hu hlast
  rw [hrows] at hr0
  obtain ⟨ht, k, a0, hk0, hid0, rfl⟩ := panel_mem.1 hr0
  have hst : Spec.stateOf (Spec.entryOf (withNormals base hermite disk (N ω0)) par spec biased k a0) = a0.state := by
    unfold Spec.stateOf Spec.entryOf
    simp
  have hper := population_period _ par spec biased t0 _ (List.mem_of_getElem? hk0)
  refine ⟨k, ht, position_lt hk0, ⟨a0, hk0, hid0⟩, fun ω c => ?_⟩
  have hstart := entry_same hgen hentry hk0 hid0 ω
  have hdec : Spec.decision (withNormals base hermite disk (N ω)) par spec biased k a0
      = choiceAt (withNormals base hermite disk (N ω0)) par spec biased a0.state a0.stock
        (((Spec.normalDraws (withNormals base hermite disk (N ω)) spec).getD t0 []).getD k 0 * par.shock_sd) := by
    unfold choiceAt
    rw [← outlook_same hnodes ω ω0, ← hper]
    rfl
  rw [hst]
  show _ ↔ choiceAt _ _ _ _ a0.state a0.stock _ = c
  rw [← hdec]
  unfold Chooses
  constructor
  · rintro ⟨r, hr, hi, hp, hch⟩
    rw [hrows] at hr
    obtain ⟨-, k', a, hget, hid, rfl⟩ := panel_mem.1 ⟨hr, hi, hp⟩
    have hkk : k' = k := position_unique hget hstart (hid.trans hid0.symm)
    subst hkk
    rw [hstart] at hget
    obtain rfl := Option.some.inj hget
    have hch' : ((Spec.decision (withNormals base hermite disk (N ω)) par spec biased k' a0 : ℕ) : ℤ) = ((c : ℕ) : ℤ) := hch
    exact Fin.ext (by exact_mod_cast hch')
  · rintro rfl
    obtain ⟨hr, hi, hp⟩ := panel_mem.2 ⟨ht, k, a0, hstart, hid0, rfl⟩
    exact ⟨_, by rw [hrows]; exact hr, hi, hp, rfl⟩

variable [MeasurableSpace Ω] {P : Measure Ω} [IsProbabilityMeasure P]

open Classical in
/-- **C115**  Choices at entry: let the normal numbers be independent over agents and periods and take any `n` agents.  The
share of them who make choice `c` in the period of their entry differs from the average of their choice
probabilities (the normal probabilities of the shocks at which `c` is chosen in the state of entry) by `ε` or more with a
probability of at most `2 exp(-2 n ε²)`. -/
theorem C115_choices_at_entry (hrules : Rules2007 spec) (hu : Usable spec par) (hlast : -1 ≤ spec.last_child_bearing_period)
    (hgen : ∀ ω ω', (N ω (base.seed spec.seed_sim) spec.num_periods spec.num_agents_sim).2
      = (N ω' (base.seed spec.seed_sim) spec.num_periods spec.num_agents_sim).2)
    (hnodes : ∀ ω ω', Spec.nodes (withNormals base hermite disk (N ω)) spec = Spec.nodes (withNormals base hermite disk (N ω')) spec)
    (hZ : ∀ t < spec.num_periods, ∀ k < spec.num_agents_sim,
      Measurable (fun ω => ((Spec.normalDraws (withNormals base hermite disk (N ω)) spec).getD t []).getD k 0) ∧
      P.map (fun ω => ((Spec.normalDraws (withNormals base hermite disk (N ω)) spec).getD t []).getD k 0) = gaussianReal 0 1)
    (hind : iIndepFun (fun (p : ℕ × ℕ) ω =>
      ((Spec.normalDraws (withNormals base hermite disk (N ω)) spec).getD p.1 []).getD p.2 0) P)
    {rows : Ω → List (OutRow ℝ)}
    (hout : ∀ ω, ∃ frame a w, Spec.Output (withNormals base hermite disk (N ω)) frame a biased false w par spec (rows ω))
    (ω0 : Ω) {agents : Finset ℕ} (hne : agents.Nonempty) {t0 : ℕ → ℕ} {first : ℕ → OutRow ℝ}
    (hentry : ∀ i ∈ agents, Spec.entryYear (withNormals base hermite disk (N ω0)) spec i = some (t0 i))
    (hrow : ∀ i ∈ agents, first i ∈ rows ω0 ∧ (first i).id = (i : ℤ) ∧ (first i).period = (t0 i : ℤ))
    (c : Fin 3) {ε : ℝ} (hε : 0 ≤ ε) :
    P.real {ω | ε ≤ |((agents.filter fun i => Chooses (rows ω) i (t0 i) c).card : ℝ) / agents.card
        - (∑ i ∈ agents, (gaussianReal 0 1).real {z | choiceAt (withNormals base hermite disk (N ω0)) par spec biased
          (Spec.stateOf (first i)) (first i).stock (z * par.shock_sd) = c}) / agents.card|}
      ≤ 2 * Real.exp (-2 * agents.card * ε ^ 2) := by
  choose! k ht hkN ha hch using fun i hi => entry_choice hu hlast hgen hnodes hout ω0 (hentry i hi) (hrow i hi)
  have hBm : ∀ i, MeasurableSet {z | choiceAt (withNormals base hermite disk (N ω0)) par spec biased
      (Spec.stateOf (first i)) (first i).stock (z * par.shock_sd) = c} := by
    intro i
    have h := (choiceAt_measurable (par := par) hrules (withNormals base hermite disk (N ω0)) biased (Spec.stateOf (first i))
      (first i).stock).comp (measurable_id.mul_const par.shock_sd)
    generalize choiceAt (withNormals base hermite disk (N ω0)) par spec biased (Spec.stateOf (first i)) (first i).stock = f at h ⊢
    exact h (measurableSet_singleton c)
  have hch : ∀ i ∈ agents, ∀ ω, Chooses (rows ω) i (t0 i) c ↔
      ((Spec.normalDraws (withNormals base hermite disk (N ω)) spec).getD (t0 i) []).getD (k i) 0
        ∈ {z | choiceAt (withNormals base hermite disk (N ω0)) par spec biased
      (Spec.stateOf (first i)) (first i).stock (z * par.shock_sd) = c} := fun i hi ω => hch i hi ω c
  obtain ⟨B, hBdef⟩ : ∃ B : ℕ → Set ℝ, ∀ i, B i = {z | choiceAt (withNormals base hermite disk (N ω0)) par spec biased
      (Spec.stateOf (first i)) (first i).stock (z * par.shock_sd) = c} := ⟨_, fun _ => rfl⟩
  simp only [← hBdef] at hch hBm ⊢
  let Z : ℕ × ℕ → Ω → ℝ := fun p ω => ((Spec.normalDraws (withNormals base hermite disk (N ω)) spec).getD p.1 []).getD p.2 0
  let f : ℕ → ℝ → ℝ := fun i => (B i).indicator 1
  have hf : ∀ i, Measurable (f i) := fun i => measurable_one.indicator (hBm i)
  let q : ℕ → ℝ := fun i => (gaussianReal 0 1).real (B i)
  have hg : Function.Injective fun i : agents => (t0 i.1, k i.1) := by
    intro i j h
    obtain ⟨a, ha1, ha2⟩ := ha i.1 i.2
    obtain ⟨b, hb1, hb2⟩ := ha j.1 j.2
    rw [(Prod.mk.inj h).1, (Prod.mk.inj h).2, hb1] at ha1
    exact Subtype.ext (by rw [← ha2, ← hb2, Option.some.inj ha1])
  have hindep : iIndepFun (fun (i : agents) ω => f i (Z (t0 i, k i.1) ω) - q i) P :=
    (hind.precomp hg).comp (fun i z => f i z - q i) fun i => (hf i).sub_const (q i)
  have hindep' : iIndepFun (fun (i : agents) ω => -(f i (Z (t0 i, k i.1) ω) - q i)) P :=
    (hind.precomp hg).comp (fun i z => -(f i z - q i)) fun i => ((hf i).sub_const (q i)).neg
  have hsub : ∀ i : agents, HasSubgaussianMGF (fun ω => f i (Z (t0 i, k i.1) ω) - q i) ((‖(1 : ℝ) - 0‖₊ / 2) ^ 2) P := by
    intro i
    obtain ⟨hm, hl⟩ := hZ (t0 i) (ht i.1 i.2) (k i.1) (hkN i.1 i.2)
    have hmean : ∫ ω, f i (Z (t0 i, k i.1) ω) ∂P = q i := by
      show _ = (gaussianReal 0 1).real (B i)
      rw [← hl, ← integral_indicator_one (hBm i), integral_map hm.aemeasurable (hf i).aestronglyMeasurable]
    have := hasSubgaussianMGF_of_mem_Icc (μ := P) (X := fun ω => f i (Z (t0 i, k i.1) ω)) (a := 0) (b := 1)
      ((hf i).comp hm).aemeasurable (ae_of_all _ fun ω => by
        show (B i).indicator 1 _ ∈ Set.Icc (0 : ℝ) 1
        rw [Set.indicator_apply]
        split_ifs <;> simp)
    rwa [hmean] at this
  have hn : (0 : ℝ) < agents.card := by exact_mod_cast hne.card_pos
  have hnε : 0 ≤ agents.card * ε := by positivity
  have h1 := HasSubgaussianMGF.measure_sum_ge_le_of_iIndepFun hindep (s := Finset.univ) (fun i _ => hsub i) hnε
  have h2 := HasSubgaussianMGF.measure_sum_ge_le_of_iIndepFun hindep' (s := Finset.univ) (fun i _ => (hsub i).neg) hnε
  have hexp : -(agents.card * ε) ^ 2 / (2 * ((∑ _i : agents, (‖(1 : ℝ) - 0‖₊ / 2) ^ 2 : NNReal) : ℝ)) = -2 * agents.card * ε ^ 2 := by
    have hn' : (agents.card : ℝ) ≠ 0 := hn.ne'
    simp
    field_simp
  rw [hexp] at h1 h2
  refine (measureReal_mono (s₂ := {ω | agents.card * ε ≤ ∑ i : agents, (f i (Z (t0 i, k i.1) ω) - q i)} ∪
      {ω | agents.card * ε ≤ ∑ i : agents, -(f i (Z (t0 i, k i.1) ω) - q i)}) ?_).trans
    ((measureReal_union_le _ _).trans (by linarith))
  intro ω hdev
  have hcount : ((agents.filter fun i => Chooses (rows ω) i (t0 i) c).card : ℝ) = ∑ i : agents, f i (Z (t0 i, k i.1) ω) := by
    rw [Finset.card_filter, Nat.cast_sum, ← Finset.sum_coe_sort agents]
    refine Finset.sum_congr rfl fun i _ => ?_
    show _ = (B i).indicator 1 _
    rw [Set.indicator_apply, Nat.cast_ite, Nat.cast_one, Nat.cast_zero]
    exact if_congr (hch i.1 i.2 ω) rfl rfl
  have hdev : ε ≤ |((agents.filter fun i => Chooses (rows ω) i (t0 i) c).card : ℝ) / agents.card
      - (∑ i ∈ agents, q i) / agents.card| := hdev
  rw [hcount, ← Finset.sum_coe_sort agents] at hdev
  have hsum : ∑ i : agents, (f i (Z (t0 i, k i.1) ω) - q i)
      = agents.card * ((∑ i : agents, f i (Z (t0 i, k i.1) ω)) / agents.card - (∑ i : agents, q i) / agents.card) := by
    rw [Finset.sum_sub_distrib]
    field_simp
  rcases le_abs.1 hdev with hd | hd
  · left
    show agents.card * ε ≤ _
    rw [hsum]
    exact mul_le_mul_of_nonneg_left hd hn.le
  · right
    show agents.card * ε ≤ _
    rw [Finset.sum_neg_distrib, hsum, ← mul_neg]
    exact mul_le_mul_of_nonneg_left hd hn.le

open Classical in
/-- **C115**  Identical entrants: let the normal numbers be independent over agents and periods, and take agents who
enter in the same period in the same state with the same experience.  The share of them who make choice `c` in that
period differs from the choice probability (the normal probability of the shocks at which `c` is chosen) by `ε` or more with a
probability of at most `2 exp(-2 n ε²)`, where `n` is the number of these agents. -/
theorem C115_choice_shares (hrules : Rules2007 spec) (hu : Usable spec par) (hlast : -1 ≤ spec.last_child_bearing_period)
    (hgen : ∀ ω ω', (N ω (base.seed spec.seed_sim) spec.num_periods spec.num_agents_sim).2
      = (N ω' (base.seed spec.seed_sim) spec.num_periods spec.num_agents_sim).2)
    (hnodes : ∀ ω ω', Spec.nodes (withNormals base hermite disk (N ω)) spec = Spec.nodes (withNormals base hermite disk (N ω')) spec)
    (hZ : ∀ t < spec.num_periods, ∀ k < spec.num_agents_sim,
      Measurable (fun ω => ((Spec.normalDraws (withNormals base hermite disk (N ω)) spec).getD t []).getD k 0) ∧
      P.map (fun ω => ((Spec.normalDraws (withNormals base hermite disk (N ω)) spec).getD t []).getD k 0) = gaussianReal 0 1)
    (hind : iIndepFun (fun (p : ℕ × ℕ) ω =>
      ((Spec.normalDraws (withNormals base hermite disk (N ω)) spec).getD p.1 []).getD p.2 0) P)
    {rows : Ω → List (OutRow ℝ)}
    (hout : ∀ ω, ∃ frame a w, Spec.Output (withNormals base hermite disk (N ω)) frame a biased false w par spec (rows ω))
    (ω0 : Ω) {agents : Finset ℕ} (hne : agents.Nonempty) {t0 : ℕ} {s : State} {x : ℝ}
    (hentry : ∀ i ∈ agents, Spec.entryYear (withNormals base hermite disk (N ω0)) spec i = some t0)
    (hrow : ∀ i ∈ agents, ∃ r ∈ rows ω0, r.id = (i : ℤ) ∧ r.period = (t0 : ℤ) ∧ Spec.stateOf r = s ∧ r.stock = x)
    (c : Fin 3) {ε : ℝ} (hε : 0 ≤ ε) :
    P.real {ω | ε ≤ |((agents.filter fun i => Chooses (rows ω) i t0 c).card : ℝ) / agents.card
        - (gaussianReal 0 1).real {z | choiceAt (withNormals base hermite disk (N ω0)) par spec biased s x (z * par.shock_sd) = c}|}
      ≤ 2 * Real.exp (-2 * agents.card * ε ^ 2) := by
  have : Nonempty (OutRow ℝ) := ⟨(hrow _ hne.choose_spec).choose⟩
  choose! first hmem hid hper hs hx using hrow
  have h := C115_choices_at_entry hrules hu hlast hgen hnodes hZ hind hout ω0 hne hentry
    (fun i hi => ⟨hmem i hi, hid i hi, hper i hi⟩) c hε
  have hsum : (∑ i ∈ agents, (gaussianReal 0 1).real {z | choiceAt (withNormals base hermite disk (N ω0)) par spec biased
        (Spec.stateOf (first i)) (first i).stock (z * par.shock_sd) = c}) / agents.card
      = (gaussianReal 0 1).real {z | choiceAt (withNormals base hermite disk (N ω0)) par spec biased s x (z * par.shock_sd) = c} := by
    rw [Finset.sum_congr rfl fun i hi => by rw [hs i hi, hx i hi], Finset.sum_const, nsmul_eq_mul]
    have hn : (agents.card : ℝ) ≠ 0 := by exact_mod_cast hne.card_pos.ne'
    exact mul_div_cancel_left₀ _ hn
  rwa [hsum] at h

end Soepy.Props
