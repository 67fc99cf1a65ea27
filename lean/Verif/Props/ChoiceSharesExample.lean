import Verif.Props.ChoiceShares
import Verif.Props.LikelihoodExample

/-! # C115: example -/

set_option linter.unusedSectionVars false

namespace Soepy.Props
open Soepy MeasureTheory ProbabilityTheory

/-- The first option of positive probability for everybody; coins show heads only if they must. -/
noncomputable def firstRng : Rng Nat ℝ where
  seed s := s.toNat
  choice g n p := (List.replicate n ((options p).getD 0 0), g + 1)
  binomial g p := (p.map fun x => if x = 1 then 1 else 0, g + 1)
  normal g r c := (List.replicate r (List.replicate c 0), g + 1)

theorem first_laws (ω : ℕ × ℕ → ℝ) : RngLaws { firstRng with normal := tableNormals ω } := by
  have h := table_laws ω
  refine ⟨by simp [firstRng], ?_, by simp [firstRng], ?_, ?_, ?_, h.normal_length, h.normal_cols⟩
  · intro g n p hp x hx
    rw [List.eq_of_mem_replicate hx]
    have hlt := options_pos hp
    rw [List.getD_eq_getElem?_getD, List.getElem?_eq_getElem hlt, Option.getD_some]
    obtain ⟨h1, h2⟩ := List.mem_filter.1 (List.getElem_mem hlt)
    have h1 := List.mem_range.1 h1
    rw [List.getD_eq_getElem?_getD, List.getElem?_eq_getElem h1, Option.getD_some, decide_eq_true_eq] at h2
    exact ⟨_, List.getElem?_eq_getElem h1, h2⟩
  · intro g p _ x hx
    simp only [firstRng, List.mem_map] at hx
    obtain ⟨y, -, rfl⟩ := hx
    split_ifs <;> simp
  · intro g p _ i hi
    simp [firstRng, List.getElem?_map, hi]
  · intro g p _ i hi
    simp [firstRng, List.getElem?_map, hi]

open Classical in
/-- The hypotheses of C115 (both theorems, since the second applies the first) are met: all five agents enter in period 0 in the same state with the same experience. -/
example (m g : Nat) (biased : Bool) (c : Fin 3) {ε : ℝ} (hε : 0 ≤ ε) : ∃ (s : State) (x : ℝ) (rows : (ℕ × ℕ → ℝ) → List (OutRow ℝ)),
    (∀ ω, Spec.Output (withNormals firstRng gaussRules truDisk (tableNormals ω)) truFrame 0 biased false
      { rng := g, store := truStore "quadrature" m } truPar (truSpec "quadrature" m) (rows ω)) ∧
    (Measure.infinitePi (fun _ : ℕ × ℕ => gaussianReal 0 1)).real {ω | ε ≤
        |(((Finset.range 5).filter fun i => Chooses (rows ω) i 0 c).card : ℝ) / 5
          - (gaussianReal 0 1).real {z | choiceAt (withNormals firstRng gaussRules truDisk (tableNormals 0)) truPar
            (truSpec "quadrature" m) biased s x (z * (1/4)) = c}|}
      ≤ 2 * Real.exp (-10 * ε ^ 2) := by
  have h1 := tru_sizes "quadrature"
  have h2 := tru_limits "quadrature"
  have h3 := tru_modes "quadrature"
  simp only [Prod.mk.injEq] at h1 h2 h3
  have a1 : (truSpec "quadrature" m).num_periods = 3 := by rw [truSpec_refined]; exact h1.1
  have a4 : (truSpec "quadrature" m).educ_years = [0, 1] := by rw [truSpec_refined]; exact h1.2.2.2
  have a5 : (truSpec "quadrature" m).num_agents_sim = 5 := by rw [truSpec_refined]; exact h2.2.2.2.2
  have a7 : (truSpec "quadrature" m).last_child_bearing_period = 1 := by rw [truSpec_refined]; exact h2.2.2.2.1
  have a9 : (truSpec "quadrature" m).integration_method = "quadrature" := by rw [truSpec_refined]; exact h3.1
  have a11 : (truSpec "quadrature" m).seed_sim = 1 := by krfl
  have hf : (truSpec "quadrature" m).files = ⟨"educ", "ages", "partner", "ft", "pt", "child", "sep", "arr"⟩ := by
    rw [truSpec_refined]; exact tru_files _
  have hr : Rules2007 (truSpec "quadrature" m) := by
    have := (truSolvent "quadrature").rules
    rw [truSpec_refined]
    exact ⟨this.tax, this.rate0, this.rate1, this.cap⟩
  have hu := truUsable "quadrature" m
  have hlast : -1 ≤ (truSpec "quadrature" m).last_child_bearing_period := by rw [a7]; decide
  choose rows hrows using fun ω => truOutput "quadrature" (first_laws ω) (Or.inl rfl) m g biased false
  have hed : Spec.drawnEducation (withNormals firstRng gaussRules truDisk (tableNormals 0)) (truSpec "quadrature" m)
      = [0, 0, 0, 0, 0] := by
    unfold Spec.drawnEducation
    rw [a5, a11, hf]
    have ho : options [(1/2 : ℝ), 1/2] = [0, 1] := by
      unfold options
      simp [List.range_succ]
    show List.replicate 5 ((options [(1/2 : ℝ), 1/2]).getD 0 0) = _
    rw [ho]
    rfl
  have hent : ∀ i ∈ Finset.range 5, Spec.entryYear (withNormals firstRng gaussRules truDisk (tableNormals 0))
      (truSpec "quadrature" m) i = some 0 := by
    intro i hi
    have hi := Finset.mem_range.1 hi
    unfold Spec.entryYear
    rw [hed, a4]
    interval_cases i <;> rfl
  set a := fun i => Spec.entrant (withNormals firstRng gaussRules truDisk (tableNormals 0)) truPar (truSpec "quadrature" m) i with ha
  have hsame : ∀ i < 5, (a i).state = (a 0).state ∧ (a i).stock = (a 0).stock := by
    intro i hi
    simp only [ha]
    unfold Spec.entrant Spec.rank Spec.drawsOfLevel Spec.levelDraws Spec.drawnTypes
    rw [hed, a5]
    interval_cases i <;> exact ⟨rfl, rfl⟩
  have hrow : ∀ i ∈ Finset.range 5, ∃ r ∈ rows 0, r.id = (i : ℤ) ∧ r.period = ((0 : ℕ) : ℤ) ∧
      Spec.stateOf r = (a 0).state ∧ r.stock = (a 0).stock := by
    intro i hi
    obtain ⟨k, hk⟩ := List.mem_iff_getElem?.1 (entrant_present (biased := biased) (List.mem_map.2 ⟨i, List.mem_filter.2
      ⟨List.mem_range.2 (by rw [a5]; exact Finset.mem_range.1 hi), decide_eq_true (hent i hi)⟩, rfl⟩))
    obtain ⟨hr, h1, h2⟩ := panel_mem.2 ⟨by rw [a1]; decide, k, _, hk, rfl, rfl⟩
    refine ⟨_, by rw [C69_rows (hrows 0) hu hlast]; exact hr, h1, h2, ?_, (hsame i (Finset.mem_range.1 hi)).2⟩
    rw [← (hsame i (Finset.mem_range.1 hi)).1]
    unfold Spec.stateOf Spec.entryOf
    simp [ha]
  have hZ : ∀ (ω : ℕ × ℕ → ℝ) (t k : ℕ), 
      ((Spec.normalDraws (withNormals firstRng gaussRules truDisk (tableNormals ω)) (truSpec "quadrature" m)).getD t []).getD k 0
      = if t < 3 ∧ k < 5 then ω (t, k) else 0 := by
    intro ω t k
    unfold Spec.normalDraws
    rw [a1, a5]
    show ((((List.range 3).map fun i => (List.range 5).map fun j => ω (i, j)) : List (List ℝ)).getD t []).getD k 0 = _
    split_ifs with ht
    · simp [List.getD_eq_getElem?_getD, ht.1, ht.2]
    · by_cases h : t < 3
      · have hk : ¬ k < 5 := fun hk => ht ⟨h, hk⟩
        simp [List.getD_eq_getElem?_getD, h, hk]
      · simp [List.getD_eq_getElem?_getD, h]
  have hmain := C115_choice_shares (P := Measure.infinitePi (fun _ : ℕ × ℕ => gaussianReal 0 1)) (N := tableNormals)
    (base := firstRng) (hermite := gaussRules) (disk := truDisk) (biased := biased) hr hu hlast (fun _ _ => rfl)
    (fun ω ω' => by unfold Spec.nodes; simp only [a9, if_true])
    (by
      intro t ht k hk
      rw [a1] at ht
      rw [a5] at hk
      simp only [hZ _ t k, if_pos (And.intro ht hk)]
      exact ⟨measurable_pi_apply _, Measure.infinitePi_map_eval _ _⟩)
    (by
      simp only [hZ]
      exact iIndepFun_infinitePi (P := fun _ : ℕ × ℕ => gaussianReal 0 1) (X := fun p z => if p.1 < 3 ∧ p.2 < 5 then z else 0)
        (fun p => by split_ifs; exacts [measurable_id, measurable_const]))
    (rows := rows) (fun ω => ⟨_, _, _, hrows ω⟩) 0 (agents := Finset.range 5) ⟨0, by simp⟩ hent hrow c hε
  rw [par_sd, Finset.card_range, show ((5 : ℕ) : ℝ) = 5 by norm_num, show (-2 : ℝ) * 5 = -10 by norm_num] at hmain
  exact ⟨(a 0).state, (a 0).stock, rows, hrows, hmain⟩

end Soepy.Props
