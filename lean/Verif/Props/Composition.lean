import Verif.Props.Simulation
import Mathlib.Probability.StrongLaw
import Mathlib.Probability.Moments.SubGaussian
import Mathlib.Probability.HasLaw

/-! # The composition of the simulated population (C110) -/

set_option linter.unusedSectionVars false

namespace Soepy.Props
open Soepy

section
variable {S K : Type} [Field K] [LinearOrder K] [IsStrictOrderedRing K] [FloorRing K] [Transc K]
  {env : Env S K} {frame : Frame K} {a : Nat} {biased : Bool} {w : World S K}
  {par : ModelParams K} {spec : ModelSpec K} {rows : List (OutRow K)}

/-- Counting by classes. -/
theorem countP_split {α : Type} (P : α → Bool) (f : α → ℤ) (n : ℕ) : ∀ l : List α, (∀ r ∈ l, ∃ i : ℕ, i < n ∧ f r = i) →
    l.countP P = ∑ i ∈ Finset.range n, l.countP fun r => P r && decide (f r = (i : ℤ))
  | [], _ => by simp
  | r :: l, h => by
    obtain ⟨k, hk, hf⟩ := h r List.mem_cons_self
    have ih := countP_split P f n l fun q hq => h q (List.mem_cons_of_mem _ hq)
    simp only [List.countP_cons, Finset.sum_add_distrib, ← ih]
    congr 1
    rw [Finset.sum_eq_single k]
    · simp [hf]
    · intro j _ hj
      have : ¬ f r = (j : ℤ) := by rw [hf, Nat.cast_inj]; exact fun h => hj h.symm
      simp [this]
    · intro hn
      exact absurd (Finset.mem_range.2 hk) hn

theorem count_eq_sum (e : ℕ) : ∀ l : List ℕ, l.count e = ∑ i ∈ Finset.range l.length, if l[i]? = some e then 1 else 0
  | [] => by simp
  | x :: l => by
    rw [List.length_cons, Finset.sum_range_succ', List.count_cons, count_eq_sum e l]
    simp

/-- The number of rows of period `t` with education `e`. -/
def headcount {K : Type} (rows : List (OutRow K)) (t e : ℕ) : ℕ :=
  rows.countP fun r => decide (r.period = (t : ℤ)) && decide (r.educ = (e : ℤ))

open Classical in
/-- **C110**  In every period up to the horizon the data have as many rows with education `e` as this level was drawn,
from the period on in which agents with this education enter; before there is none. -/
theorem C110_composition (h : Spec.Output env frame a biased false w par spec rows) (t e : ℕ) :
    headcount rows t e = if t < spec.num_periods ∧ ∃ y, spec.educ_years[e]? = some y ∧ y ≤ t
      then (Spec.drawnEducation env spec).count e else 0 := by
  obtain ⟨hl, hrow⟩ := C34_rows_belong_to_agents h
  have hid : ∀ r ∈ rows, ∃ i : ℕ, i < (Spec.drawnEducation env spec).length ∧ r.id = i := by
    intro r hr
    obtain ⟨i, t, e, h1, -, -, h4, -⟩ := hrow r hr
    exact ⟨i, (List.getElem?_eq_some_iff.1 h4).1, h1⟩
  unfold headcount
  rw [countP_split _ (fun r => r.id) _ rows hid, count_eq_sum]
  have key : ∀ i : ℕ, rows.countP (fun r => (decide (r.period = (t : ℤ)) && decide (r.educ = (e : ℤ))) && decide (r.id = (i : ℤ)))
      = if (Spec.drawnEducation env spec)[i]? = some e ∧ t < spec.num_periods ∧ ∃ y, spec.educ_years[e]? = some y ∧ y ≤ t
        then 1 else 0 := by
    intro i
    have h1 := C34_one_row_per_agent_and_period h i t
    by_cases hi : (Spec.drawnEducation env spec)[i]? = some e
    · have e1 : rows.countP (fun r => (decide (r.period = (t : ℤ)) && decide (r.educ = (e : ℤ))) && decide (r.id = (i : ℤ)))
          = rows.countP (fun r => decide (r.id = (i : ℤ)) && decide (r.period = (t : ℤ))) := by
        refine List.countP_congr fun r hr => ?_
        obtain ⟨i', t', e', h1, -, h3, h4, -⟩ := hrow r hr
        simp only [Bool.and_eq_true, decide_eq_true_eq]
        constructor
        · rintro ⟨⟨a, -⟩, b⟩; exact ⟨b, a⟩
        · rintro ⟨a, b⟩
          obtain rfl : i' = i := by exact_mod_cast h1.symm.trans a
          rw [hi] at h4
          obtain rfl := Option.some.inj h4
          exact ⟨⟨b, h3⟩, a⟩
      rw [e1, h1]
      refine if_congr ?_ rfl rfl
      unfold Present
      constructor
      · rintro ⟨a, e', y, b, c, d⟩
        rw [hi] at b
        obtain rfl := Option.some.inj b
        exact ⟨hi, a, y, c, d⟩
      · rintro ⟨-, a, y, c, d⟩
        exact ⟨a, e, y, hi, c, d⟩
    · rw [if_neg (fun h => hi h.1), List.countP_eq_zero]
      intro r hr hc
      obtain ⟨i', t', e', h1, -, h3, h4, -⟩ := hrow r hr
      simp only [Bool.and_eq_true, decide_eq_true_eq] at hc
      obtain rfl : i' = i := by exact_mod_cast h1.symm.trans hc.2
      obtain rfl : e' = e := by exact_mod_cast h3.symm.trans hc.1.2
      exact hi h4
  rw [Finset.sum_congr rfl fun i _ => key i]
  by_cases hc : t < spec.num_periods ∧ ∃ y, spec.educ_years[e]? = some y ∧ y ≤ t
  · rw [if_pos hc]
    exact Finset.sum_congr rfl fun i _ => if_congr (and_iff_left hc) rfl rfl
  · rw [if_neg hc]
    exact Finset.sum_eq_zero fun i _ => if_neg fun h => hc h.2

end

section
open MeasureTheory ProbabilityTheory Filter Topology
variable {S Ω : Type} [MeasurableSpace Ω] {P : Measure Ω} [IsProbabilityMeasure P]

/-- The generator, seeded with `seed`, draws options with shares `p` as in the sequence `Z` (a random variable), whatever
the number of draws. -/
def Draws (rng : Ω → Rng S ℝ) (seed : Int) (p : List ℝ) (Z : ℕ → Ω → ℕ) : Prop :=
  ∀ ω n, ((rng ω).choice ((rng ω).seed seed) n p).1 = (List.range n).map fun i => Z i ω

/-- Independent draws with these shares. -/
structure Independent (P : Measure Ω) (p : List ℝ) (Z : ℕ → Ω → ℕ) : Prop where
  measurable : ∀ i, Measurable (Z i)
  indep : iIndepFun Z P
  share : ∀ i e, P.real {ω | Z i ω = e} = p.getD e 0

private theorem range_count (Z : ℕ → ℕ) (e n : ℕ) :
    (((List.range n).map Z).count e : ℝ) = ∑ i ∈ Finset.range n, if Z i = e then 1 else 0 := by
  rw [count_eq_sum]
  push_cast
  rw [List.length_map, List.length_range]
  refine Finset.sum_congr rfl fun i hi => ?_
  have : ((List.range n).map Z)[i]? = some (Z i) := by
    simp [Finset.mem_range.1 hi]
  simp [this]

variable {rng : Ω → Rng S ℝ} {hermite : Nat → List ℝ × List ℝ} {disk : String → List (Nat × ℝ)} {spec : ModelSpec ℝ}
  {Z : ℕ → Ω → ℕ}

private theorem headcount_eq {ω : Ω} (hrng : Draws rng spec.seed_sim ((disk spec.files.educ_shares).map Prod.snd) Z)
    {frame : Frame ℝ} {a : Nat} {biased : Bool} {w : World S ℝ} {par : ModelParams ℝ} {n : ℕ} {rows : List (OutRow ℝ)}
    (h : Spec.Output ⟨rng ω, hermite, disk⟩ frame a biased false w par { spec with num_agents_sim := n } rows) {t e y : ℕ}
    (ht : t < spec.num_periods) (hy : spec.educ_years[e]? = some y) (hyt : y ≤ t) :
    (headcount rows t e : ℝ) = ∑ i ∈ Finset.range n, if Z i ω = e then 1 else 0 := by
  rw [C110_composition h, if_pos ⟨ht, y, hy, hyt⟩]
  unfold Spec.drawnEducation
  rw [← range_count (fun i => Z i ω)]
  congr 2
  exact hrng ω n

/-- **C110**  With independent draws the share of agents with education `e` in a period (from their entry on) converges,
as the number of simulated agents grows, to the share in the input file, almost surely. -/
theorem C110_shares (hrng : Draws rng spec.seed_sim ((disk spec.files.educ_shares).map Prod.snd) Z)
    (hZ : Independent P ((disk spec.files.educ_shares).map Prod.snd) Z) :
    ∀ᵐ ω ∂P, ∀ rows : ℕ → List (OutRow ℝ),
      (∀ n, ∃ frame a biased w par, Spec.Output ⟨rng ω, hermite, disk⟩ frame a biased false w par
        { spec with num_agents_sim := n } (rows n)) →
      ∀ t e y, t < spec.num_periods → spec.educ_years[e]? = some y → y ≤ t →
        Tendsto (fun n => (headcount (rows n) t e : ℝ) / n) atTop
          (𝓝 (((disk spec.files.educ_shares).map Prod.snd).getD e 0)) := by
  have hlln : ∀ e : ℕ, ∀ᵐ ω ∂P, Tendsto (fun n : ℕ => (∑ i ∈ Finset.range n, if Z i ω = e then (1 : ℝ) else 0) / n) atTop
      (𝓝 (((disk spec.files.educ_shares).map Prod.snd).getD e 0)) := by
    intro e
    let f : ℕ → ℝ := fun z => if z = e then 1 else 0
    have hf : Measurable f := measurable_from_nat
    have hind : ∀ i, (fun ω => f (Z i ω)) = Set.indicator {ω | Z i ω = e} 1 := by
      intro i
      funext ω
      simp [f, Set.indicator_apply]
    have hset : ∀ i, MeasurableSet {ω | Z i ω = e} := fun i => hZ.measurable i (measurableSet_singleton e)
    have hmean : ∀ i, ∫ ω, f (Z i ω) ∂P = ((disk spec.files.educ_shares).map Prod.snd).getD e 0 := by
      intro i
      rw [hind, integral_indicator_one (hset i)]
      exact hZ.share i e
    have hident : ∀ i, IdentDistrib (fun ω => f (Z i ω)) (fun ω => f (Z 0 ω)) P P := by
      intro i
      refine IdentDistrib.comp (u := f) ⟨(hZ.measurable i).aemeasurable, (hZ.measurable 0).aemeasurable, ?_⟩ hf
      refine Measure.ext_of_singleton fun k => ?_
      rw [Measure.map_apply (hZ.measurable i) (measurableSet_singleton k),
        Measure.map_apply (hZ.measurable 0) (measurableSet_singleton k)]
      have h1 := (hZ.share i k).trans (hZ.share 0 k).symm
      exact (measureReal_eq_measureReal_iff).1 h1
    have hX := strong_law_ae_real (μ := P) (fun i ω => f (Z i ω))
      (by show Integrable (fun ω => f (Z 0 ω)) P
          rw [hind]; exact (integrable_const (1 : ℝ)).indicator (hset 0))
      (fun i j hij => (hZ.indep.indepFun hij).comp hf hf) hident
    rw [hmean 0] at hX
    exact hX
  have hall := ae_all_iff.2 hlln
  filter_upwards [hall] with ω hω rows hout t e y ht hy hyt
  refine (hω e).congr fun n => ?_
  obtain ⟨frame, a, biased, w, par, h⟩ := hout n
  rw [headcount_eq hrng h ht hy hyt]

/-- **C110**  With independent draws of education the share of agents with education `e` among `n` simulated agents is
off by `ε` or more with a probability of at most `2 exp(-2 n ε²)`. -/
theorem C110_deviation (hrng : Draws rng spec.seed_sim ((disk spec.files.educ_shares).map Prod.snd) Z)
    (hZ : Independent P ((disk spec.files.educ_shares).map Prod.snd) Z) {n : ℕ} (hn : 0 < n) {t e y : ℕ}
    (ht : t < spec.num_periods) (hy : spec.educ_years[e]? = some y) (hyt : y ≤ t) {ε : ℝ} (hε : 0 ≤ ε) :
    P.real {ω | ∃ frame a biased w par rows, Spec.Output ⟨rng ω, hermite, disk⟩ frame a biased false w par
        { spec with num_agents_sim := n } rows ∧
        ε ≤ |(headcount rows t e : ℝ) / n - ((disk spec.files.educ_shares).map Prod.snd).getD e 0|}
      ≤ 2 * Real.exp (-2 * n * ε ^ 2) := by
  set q := ((disk spec.files.educ_shares).map Prod.snd).getD e 0 with hq
  let f : ℕ → ℝ := fun z => if z = e then 1 else 0
  have hf : Measurable f := measurable_from_nat
  have hind : ∀ i, (fun ω => f (Z i ω)) = Set.indicator {ω | Z i ω = e} 1 := by
    intro i
    funext ω
    simp [f, Set.indicator_apply]
  have hset : ∀ i, MeasurableSet {ω | Z i ω = e} := fun i => hZ.measurable i (measurableSet_singleton e)
  have hmean : ∀ i, ∫ ω, f (Z i ω) ∂P = q := by
    intro i
    rw [hind, integral_indicator_one (hset i)]
    exact hZ.share i e
  have hsub : ∀ i, HasSubgaussianMGF (fun ω => f (Z i ω) - q) ((‖(1 : ℝ) - 0‖₊ / 2) ^ 2) P := by
    intro i
    have := hasSubgaussianMGF_of_mem_Icc (μ := P) (X := fun ω => f (Z i ω)) (a := 0) (b := 1)
      (hf.comp (hZ.measurable i)).aemeasurable (ae_of_all _ fun ω => by
        show f (Z i ω) ∈ Set.Icc 0 1
        simp only [f]
        split_ifs <;> simp)
    rwa [hmean i] at this
  have hindep : iIndepFun (fun i ω => f (Z i ω) - q) P :=
    hZ.indep.comp (fun _ z => f z - q) fun _ => measurable_from_nat
  have hindep' : iIndepFun (fun i ω => -(f (Z i ω) - q)) P :=
    hZ.indep.comp (fun _ z => -(f z - q)) fun _ => measurable_from_nat
  have hnε : 0 ≤ n * ε := by positivity
  have h1 := HasSubgaussianMGF.measure_sum_range_ge_le_of_iIndepFun hindep (n := n) (fun i _ => hsub i) hnε
  have h2 := HasSubgaussianMGF.measure_sum_range_ge_le_of_iIndepFun hindep' (n := n) (fun i _ => (hsub i).neg) hnε
  have hexp : -(n * ε) ^ 2 / (2 * n * (((‖(1 : ℝ) - 0‖₊ / 2) ^ 2 : NNReal) : ℝ)) = -2 * n * ε ^ 2 := by
    have hn' : (n : ℝ) ≠ 0 := by positivity
    simp
    field_simp
  rw [hexp] at h1 h2
  refine (measureReal_mono (s₂ := {ω | n * ε ≤ ∑ i ∈ Finset.range n, (f (Z i ω) - q)} ∪
      {ω | n * ε ≤ ∑ i ∈ Finset.range n, -(f (Z i ω) - q)}) ?_).trans
    ((measureReal_union_le _ _).trans (by linarith))
  rintro ω ⟨frame, a, biased, w, par, rows, hout, hdev⟩
  rw [headcount_eq hrng hout ht hy hyt] at hdev
  have hn' : (0 : ℝ) < n := by exact_mod_cast hn
  have hsum : ∑ i ∈ Finset.range n, (f (Z i ω) - q) = n * ((∑ i ∈ Finset.range n, if Z i ω = e then (1 : ℝ) else 0) / n - q) := by
    rw [Finset.sum_sub_distrib, Finset.sum_const, Finset.card_range, nsmul_eq_mul]
    field_simp
    rfl
  rcases le_abs.1 hdev with hd | hd
  · left
    show n * ε ≤ _
    rw [hsum]
    exact mul_le_mul_of_nonneg_left hd hn'.le
  · right
    show n * ε ≤ _
    rw [Finset.sum_neg_distrib, hsum, ← mul_neg]
    exact mul_le_mul_of_nonneg_left hd hn'.le

end

end Soepy.Props
