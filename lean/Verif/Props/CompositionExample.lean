import Verif.Props.Composition
import Verif.Props.TrueChoiceExample
import Mathlib.Probability.Independence.InfinitePi
import Mathlib.Probability.UniformOn

/-! # C110: example -/

set_option linter.unusedSectionVars false

namespace Soepy.Props
open Soepy

/-- The dictionary of the example with `n` agents. -/
noncomputable def crowdStore (n : Nat) : Store ℝ :=
  (truStore "monte_carlo" 4).set 3 (.dict [("seed_sim", .int 1), ("num_agents_sim", .int n)])

/-- The processed specification with `n` agents. -/
noncomputable abbrev crowdSpec (n : Nat) : ModelSpec ℝ := { truSpec "monte_carlo" 4 with num_agents_sim := n }

noncomputable def crowdRead (n : Nat) : ModelSpec ℝ :=
  match readModelSpec (crowdStore n) 0 2 with
  | .ok x => x.2
  | .error _ => realSpec 1 40 80 "elterngeld"

theorem crowd_toBool (n : Nat) : (readModelSpec (crowdStore n) 0 2).toBool = true := by krfl

theorem crowdRead_eq (n : Nat) : crowdRead n = crowdSpec n := by krfl

theorem crowd_reads (n : Nat) : ∃ st', readModelSpec (crowdStore n) 0 2 = .ok (st', crowdSpec n) := by
  have h := crowd_toBool n
  rw [← crowdRead_eq]
  unfold crowdRead
  cases hr : readModelSpec (crowdStore n) 0 2 with
  | error e => rw [hr] at h; cases h
  | ok x => exact ⟨x.1, rfl⟩

theorem crowd_closed (n : Nat) : Closed (crowdStore n) := by
  have h := truStore_closed "monte_carlo" 4
  unfold Closed crowdStore at *
  rw [List.length_set]
  intro o ho
  rcases List.mem_or_eq_of_mem_set ho with h1 | rfl
  · exact h o h1
  · simp [Obj.Ok, Val.Ok]

/-- A generator that tosses the given coins for a choice between two equally likely options. -/
noncomputable def coinRng (ω : ℕ → Bool) : Rng Nat ℝ :=
  open Classical in
  { altRng ℝ with
    choice := fun g n p => if p = [1/2, 1/2] then ((List.range n).map fun i => (ω i).toNat, g + 1)
      else (altRng ℝ).choice g n p }

theorem coinRng_laws (ω : ℕ → Bool) : RngLaws (coinRng ω) := by
  have h : RngLaws (altRng ℝ) := altRng_laws
  refine ⟨?_, ?_, h.binomial_length, h.binomial_le, h.binomial_zero, h.binomial_one, h.normal_length, h.normal_cols⟩
  · intro g n p hp
    unfold coinRng
    dsimp only
    split_ifs
    · simp
    · exact h.choice_length g n p hp
  · intro g n p hp x hx
    unfold coinRng at hx
    dsimp only at hx
    split_ifs at hx with hc
    · obtain ⟨i, -, rfl⟩ := List.mem_map.1 hx
      refine ⟨1/2, ?_, by norm_num⟩
      rw [hc]
      cases ω i <;> rfl
    · exact h.choice_pos g n p hp x hx

theorem crowdOutput (ω : ℕ → Bool) (n g : Nat) (biased : Bool) : ∃ rows,
    Spec.Output ⟨coinRng ω, gaussRules, truDisk⟩ truFrame 0 biased false { rng := g, store := crowdStore n } truPar
      (crowdSpec n) rows := by
  have hr : ∃ st', readModelSpec (crowdStore n) 0 (specNumTypes truFrame) = .ok (st', crowdSpec n) := by
    rw [tru_types]; exact crowd_reads n
  refine simulate_total (env := ⟨coinRng ω, gaussRules, truDisk⟩) (w := { rng := g, store := crowdStore n })
    (coinRng_laws ω) (crowd_closed n) (Nat.succ_pos _) truPar_reads hr ?_ biased false
  have hu := truUsable "monte_carlo" 4
  have h1 := tru_sizes "monte_carlo"
  have h2 := tru_modes "monte_carlo"
  simp only [Prod.mk.injEq] at h1 h2
  obtain ⟨a1, a2, a3, a4⟩ := h1
  have hf := truFiles "monte_carlo"
  constructor
  · exact ⟨hu.grid, hu.nodes, hu.ages, hu.init, hu.educ, hu.tp, hu.tf, hu.tax, hu.care⟩
  all_goals try dsimp only [crowdSpec]
  all_goals try rw [truSpec_refined "monte_carlo"]
  · show 0 < (truSpec "monte_carlo" 0).num_periods
    rw [a1]; decide
  · show (truSpec "monte_carlo" 0).educ_years.length = (truSpec "monte_carlo" 0).num_educ_levels
    rw [a4, a2]; rfl
  · exact Or.inr h2.1
  · exact Or.inl h2.2
  · exact ⟨hf.educ_len, hf.educ, hf.ages, hf.partners_len, hf.partners, hf.pt, hf.ft, hf.births,
      hf.separation, hf.arrival⟩
  · show _ = (truSpec "monte_carlo" 0).num_types
    rw [par_shares, a3]; rfl
  · rw [par_shares]; exact ⟨by simp; norm_num, by norm_num⟩

open MeasureTheory ProbabilityTheory Filter Topology

/-- A fair coin. -/
noncomputable abbrev fairCoin : Measure Bool := uniformOn Set.univ

theorem fairCoin_real (b : Bool) : fairCoin.real {b} = 1/2 := by
  unfold Measure.real fairCoin
  rw [uniformOn_univ]
  simp

noncomputable abbrev coins : Measure (ℕ → Bool) := Measure.infinitePi fun _ => fairCoin

theorem coins_independent : Independent coins [1/2, 1/2] fun i ω => (ω i).toNat := by
  have hm : ∀ i : ℕ, Measurable fun ω : ℕ → Bool => (ω i).toNat := fun i =>
    (measurable_of_countable Bool.toNat).comp (measurable_pi_apply i)
  refine ⟨hm, ?_, fun i e => ?_⟩
  · exact iIndepFun_infinitePi (P := fun _ : ℕ => fairCoin) (X := fun _ b => Bool.toNat b)
      fun _ => measurable_of_countable _
  · have hmp := measurePreserving_eval_infinitePi (fun _ : ℕ => fairCoin) i
    have hset : {ω : ℕ → Bool | (ω i).toNat = e} = (fun ω : ℕ → Bool => ω i) ⁻¹' {b | b.toNat = e} := rfl
    rw [hset]
    have h1 : coins.real ((fun ω : ℕ → Bool => ω i) ⁻¹' {b | b.toNat = e}) = fairCoin.real {b | b.toNat = e} := by
      unfold Measure.real
      exact congrArg ENNReal.toReal (hmp.measure_preimage (Set.toFinite _).measurableSet.nullMeasurableSet)
    rw [h1]
    rcases e with _ | _ | e
    · have : {b : Bool | b.toNat = 0} = {false} := by ext b; cases b <;> simp
      rw [this, fairCoin_real]; rfl
    · have : {b : Bool | b.toNat = 0 + 1} = {true} := by ext b; cases b <;> simp
      rw [this, fairCoin_real]; rfl
    · have : {b : Bool | b.toNat = e + 1 + 1} = ∅ := by ext b; cases b <;> simp
      rw [this]
      simp

/-- The hypotheses of C110 are met when the generator tosses independent coins: the simulation runs for every number of
agents, and half of them have each level of education in the limit. -/
example (g : Nat) (biased : Bool) : ∀ᵐ ω ∂coins, ∃ rows : ℕ → List (OutRow ℝ),
    (∀ n, Spec.Output ⟨coinRng ω, gaussRules, truDisk⟩ truFrame 0 biased false { rng := g, store := crowdStore n } truPar
      (crowdSpec n) (rows n)) ∧
    Tendsto (fun n => (headcount (rows n) 1 0 : ℝ) / n) atTop (𝓝 (1/2)) ∧
    Tendsto (fun n => (headcount (rows n) 1 1 : ℝ) / n) atTop (𝓝 (1/2)) := by
  have h1 := tru_sizes "monte_carlo"
  simp only [Prod.mk.injEq] at h1
  have a1 : (truSpec "monte_carlo" 4).num_periods = 3 := by rw [truSpec_refined]; exact h1.1
  have a4 : (truSpec "monte_carlo" 4).educ_years = [0, 1] := by rw [truSpec_refined]; exact h1.2.2.2
  have hf : (truSpec "monte_carlo" 4).files = ⟨"educ", "ages", "partner", "ft", "pt", "child", "sep", "arr"⟩ := by
    rw [truSpec_refined]; exact tru_files _
  have hp : (truDisk (truSpec "monte_carlo" 4).files.educ_shares).map Prod.snd = [1/2, 1/2] := by
    rw [hf]; rfl
  have hall := C110_shares (P := coins) (rng := coinRng) (hermite := gaussRules) (disk := truDisk)
    (spec := truSpec "monte_carlo" 4) (Z := fun i ω => (ω i).toNat)
    (by rw [hp]; intro ω n; simp [coinRng]) (by rw [hp]; exact coins_independent)
  filter_upwards [hall] with ω hω
  choose rows hrows using fun n => crowdOutput ω n g biased
  refine ⟨rows, hrows, ?_, ?_⟩
  · have := hω rows (fun n => ⟨_, _, _, _, _, hrows n⟩) 1 0 0 (by rw [a1]; decide) (by rw [a4]; rfl) (by decide)
    rwa [hp] at this
  · have := hω rows (fun n => ⟨_, _, _, _, _, hrows n⟩) 1 1 1 (by rw [a1]; decide) (by rw [a4]; rfl) (by decide)
    rwa [hp] at this

end Soepy.Props
