import Verif.Proof.Shocks
import Verif.Props.Entry
import Verif.Props.Interp
import Verif.Props.Simulation

/-!
# What simulated agents earn and how experience adds up (C35, C43, C54, C55)
-/

set_option linter.unusedSectionVars false

namespace Soepy.Props
open Soepy
variable {S K : Type} [Field K] [LinearOrder K] [IsStrictOrderedRing K] [FloorRing K] [Transc K]
  {env : Env S K} {frame : Frame K} {a : Nat} {biased : Bool} {w : World S K}
  {par : ModelParams K} {spec : ModelSpec K} {rows : List (OutRow K)}

/-! ## C35: the agent's own state determines what is recorded -/

/-- **C35**  The recorded male wage, utilities and continuation values of a row are those of the state shown
in that row (partner's wage equation, disutility of work, expected value of the Bellman recursion on the
uniform grid, at the stock of the row moved into [0,1]). -/
theorem C35_row_valued_at_its_state (h : Spec.Output env frame a biased false w par spec rows)
    (hu : Usable spec par) (hg : spec.exp_grid = Spec.uniformGrid spec.exp_grid.length) :
    ∃ c g1 draws weights, buildCached env spec biased w.rng = .ok (c, g1) ∧
      getIntegrationDrawsAndWeights env.rng env.hermite spec w.rng = .ok ((draws, weights), g1) ∧
      ∀ r ∈ rows,
        let e := Spec.economy spec par biased draws weights c.probChild c.probPartner
        let s := Spec.stateOf r
        Spec.InRange spec s ∧ Spec.RowIs r s ∧ ∃ d, r.detail = some d ∧
          d.maleWage = Spec.partnerWage spec s ∧ d.ncu = Spec.multiplier par s ∧
          ∀ j, d.cont j = Spec.interp spec.exp_grid
            (fun x => Spec.continuation e (Spec.W e (spec.num_periods - (s.period + 1))) s x j)
            (min (max r.stock 0) 1) := by
  obtain ⟨c, g1, sol, hc, hs, hreg, draws, weights, hint, hcol, hrow⟩ := output_content h hu
  refine ⟨c, g1, draws, weights, buildCached_ok.2 hc, hint, ?_⟩
  intro r hr
  obtain ⟨hin, his, o, ho, hd, -, -⟩ := hrow r hr
  refine ⟨hin, his, _, hd, by rw [ho]; rfl, by rw [ho]; rfl, ?_⟩
  intro j
  show o.cont j = _
  rw [ho]
  show uniformValue (spec.exp_grid.map fun y => Spec.continuation _ _ _ y j) r.stock = _
  have hclip : ∀ (vs : List K) (x : K), uniformValue vs x = uniformValue vs (min (max x 0) 1) := by
    intro vs x
    have : clip (min (max x 0) 1) 0 1 = clip x 0 1 :=
      clip_of_mem (clip_mem x 0 1 zero_le_one).1 (clip_mem x 0 1 zero_le_one).2
    unfold uniformValue
    rw [this]
  have hmem : 0 ≤ min (max r.stock 0) 1 ∧ min (max r.stock 0) 1 ≤ 1 := clip_mem r.stock 0 1 zero_le_one
  rw [hclip, uniformValue_eq (by rw [List.length_map]; exact hu.nodes) hmem.1 hmem.2,
    List.length_map, ← hg]
  exact linearInterp1d_eq_interp hu.grid hu.nodes _ _

/-- The uniform grid of the example. -/
example : Usable simSpec exParams ∧
    simSpec.exp_grid = Spec.uniformGrid simSpec.exp_grid.length := by
  refine ⟨ex_usable, ?_⟩
  rw [specOf_facts.grid]
  decide +kernel

/-! ## C54 -/

/-- **C54**  Each agent has a column of the table of standard normal draws (agents in order of entry): no two share a
column and the columns exist.  In every row the entry of the row's period in the agent's column, scaled by
the standard deviation, is the shock behind the flow utilities and the wage. -/
theorem C54_one_shock_per_agent_and_period (h : Spec.Output env frame a biased false w par spec rows)
    (hu : Usable spec par) :
    Spec.Columns env spec rows ∧
      (Spec.normalDraws env spec).length = spec.num_periods ∧
      (∀ row ∈ Spec.normalDraws env spec, row.length = spec.num_agents_sim) ∧
      ∀ r ∈ rows, ∃ d, r.detail = some d ∧
        d.flow = Spec.simFlow spec par (Spec.stateOf r) r.stock (Spec.shock env par spec r) ∧
        (r.choice ≠ 0 →
          r.wage = some (Spec.trueWage spec par (Spec.stateOf r) r.stock (Spec.shock env par spec r))) := by
  obtain ⟨c, g1, sol, hc, hs, hreg, draws, weights, hint, hcol, hrow⟩ := output_content h hu
  refine ⟨hcol, h.laws.normal_length _ _ _, h.laws.normal_cols _ _ _, ?_⟩
  intro r hr
  obtain ⟨hin, his, o, ho, hd, hw, -⟩ := hrow r hr
  refine ⟨_, hd, by rw [ho]; rfl, ?_⟩
  intro h0
  rw [hw, if_neg h0, ho]
  rfl

/-! ## C43 -/

/-- **C43**  `Wage_Observed` is missing exactly in rows with choice 0; otherwise it is the scaled exponential
of the systematic log wage plus the shock of the row, and positive. -/
theorem C43_observed_wages (h : Spec.Output env frame a biased false w par spec rows)
    (hu : Usable spec par) :
    Spec.Columns env spec rows ∧ ∀ r ∈ rows, (r.wage = none ↔ r.choice = 0) ∧
      ∀ x, r.wage = some x →
        x = spec.elasticity_scale * Transc.exp
          (Spec.trueLogWage spec par (Spec.stateOf r) r.stock + Spec.shock env par spec r) ∧
        ((∀ y : K, 0 < Transc.exp y) → 0 < spec.elasticity_scale → 0 < x) := by
  obtain ⟨c, g1, sol, hc, hs, hreg, draws, weights, hint, hcol, hrow⟩ := output_content h hu
  refine ⟨hcol, ?_⟩
  intro r hr
  obtain ⟨hin, his, o, ho, hd, hw, -⟩ := hrow r hr
  have ew : o.wage = Transc.exp
      (Spec.trueLogWage spec par (Spec.stateOf r) r.stock + Spec.shock env par spec r)
      * spec.elasticity_scale := by rw [ho]; rfl
  refine ⟨?_, ?_⟩
  · rw [hw]
    by_cases h0 : r.choice = 0 <;> simp [h0]
  · intro x hx
    rw [hw] at hx
    by_cases h0 : r.choice = 0
    · rw [if_pos h0] at hx; cases hx
    · rw [if_neg h0] at hx
      obtain rfl := Option.some.inj hx
      refine ⟨by rw [ew, mul_comm], ?_⟩
      intro hexp hpos
      rw [ew]
      exact mul_pos (hexp _) hpos

/-- The hypotheses of C43 and C54 hold for the example simulation. -/
example [Transc ℚ] (hermite : Nat → List ℚ × List ℚ) (g : Nat) :
    (∃ rows, Spec.Output (simEnv exFiles hermite) exFrame 0 false false (simWorld 4 g) exParams simSpec
      rows) ∧ Usable simSpec exParams ∧ 0 < simSpec.elasticity_scale := by
  refine ⟨exOutput exFiles_ok hermite false false g, ex_usable, ?_⟩
  rw [specOf_facts.scale]
  exact one_pos

/-! ## C55 -/

/-- The part-time increment that applies in a row. -/
abbrev rowIncrement (par : ModelParams K) (r : OutRow K) : K := Spec.ptIncrement par false (Spec.stateOf r)

theorem mostYears_of_le_one {m pt : K} (h : pt ≤ 1) (t : Nat) : Spec.mostYears m pt t = m + t := by
  induction t with
  | zero => simp [Spec.mostYears]
  | succ t ih => rw [Spec.mostYears, ih, max_eq_left h]; push_cast; ring

/-- One period of experience. -/
theorem years_step (h : Spec.Output env frame a biased false w par spec rows)
    (hE : spec.num_educ_levels ≤ 3) {r r' : OutRow K} (hr : r ∈ rows) (hr' : r' ∈ rows)
    (hn : Spec.Next r r') (h0 : 0 ≤ r.stock) (h1 : r.stock ≤ 1)
    (hi : 0 ≤ rowIncrement par r ∧ rowIncrement par r ≤ 1) (hi' : rowIncrement par r' ≤ 1) :
    Spec.yearsOf spec par r' = Spec.yearsOf spec par r
      + Spec.gain (rowIncrement par r) r.choice.toNat := by
  obtain ⟨-, -, s, hs, he⟩ := C37_stock_law_of_motion h hE hr hr' hn
  obtain rfl := stateOf_eq hs
  have hp0 : r.period = ((Spec.stateOf r).period : Int) := hs.period
  have hp : r'.period.toNat = r.period.toNat + 1 := by
    have := hn.2
    omega
  have hcast : (r.period.toNat : Int) = ((Spec.stateOf r).period : Int) := by omega
  have hper : (Spec.stateOf r).period = r.period.toNat := rfl
  have hm : (0 : K) ≤ (spec.init_exp_max : K) := Nat.cast_nonneg _
  have key : r'.stock = (r.stock * maxExpYears r.period.toNat (spec.init_exp_max : K) (rowIncrement par r)
      + Spec.gain (rowIncrement par r) r.choice.toNat)
      / maxExpYears (r.period.toNat + 1) (spec.init_exp_max : K) (rowIncrement par r) := by
    rw [he, ← nextStock_eq_div h0 h1 hm hi.1, ← hper]
    exact (stockNext_eq _ _ _ _).symm
  unfold Spec.yearsOf
  rw [hp, key, maxExpYears_eq_mostYears, maxExpYears_eq_mostYears, mostYears_of_le_one hi',
    mostYears_of_le_one hi.2, mostYears_of_le_one hi.2]
  have hpos : (0 : K) < (spec.init_exp_max : K) + ((r.period.toNat + 1 : Nat) : K) := by
    have : (0 : K) < ((r.period.toNat + 1 : Nat) : K) := by exact_mod_cast Nat.succ_pos _
    linarith
  rw [div_mul_cancel₀ _ (ne_of_gt hpos)]

/-- **C55**  Along the rows of an agent (`path k` is the row `k` periods after `path 0`) the years of
experience are those of the first row plus one year for each full-time period and the increment then
applicable for each part-time period, if increments lie in [0,1] and the first stock lies in [0,1]. -/
theorem C55_experience_adds_up (h : Spec.Output env frame a biased false w par spec rows)
    (hE : spec.num_educ_levels ≤ 3) (path : Nat → OutRow K) (n : Nat)
    (hmem : ∀ k ≤ n, path k ∈ rows) (hnext : ∀ k < n, Spec.Next (path k) (path (k + 1)))
    (h0 : 0 ≤ (path 0).stock) (h1 : (path 0).stock ≤ 1)
    (hinc : ∀ k ≤ n, 0 ≤ rowIncrement par (path k) ∧ rowIncrement par (path k) ≤ 1) :
    Spec.yearsOf spec par (path n) = Spec.yearsOf spec par (path 0)
      + ((List.range n).map fun k =>
          Spec.gain (rowIncrement par (path k)) (path k).choice.toNat).sum := by
  induction n with
  | zero => simp
  | succ n ih =>
    have ih := ih (fun k hk => hmem k (by omega)) (fun k hk => hnext k (by omega))
      (fun k hk => hinc k (by omega))
    have hst : 0 ≤ (path n).stock ∧ (path n).stock ≤ 1 := by
      cases n with
      | zero => exact ⟨h0, h1⟩
      | succ n =>
        obtain ⟨k1, k2, -⟩ := C37_stock_law_of_motion h hE (hmem n (by omega)) (hmem (n + 1) (by omega))
          (hnext n (by omega))
        exact ⟨k1, k2⟩
    rw [years_step h hE (hmem n (by omega)) (hmem (n + 1) (le_refl _)) (hnext n (by omega)) hst.1 hst.2
      (hinc n (by omega)) (hinc (n + 1) (le_refl _)).2, ih, List.range_succ, List.map_append,
      List.sum_append]
    simp [add_assoc]

/-- In the example agent 1 is followed over three periods; entry stock and increments lie in [0,1]. -/
example [Transc ℚ] (hermite : Nat → List ℚ × List ℚ) (g : Nat) :
    ∃ rows, Spec.Output (simEnv exFiles hermite) exFrame 0 false false (simWorld 4 g) exParams simSpec
        rows ∧ simSpec.num_educ_levels ≤ 3 ∧
      ∃ path : Nat → OutRow ℚ, (∀ k ≤ 2, path k ∈ rows) ∧ (∀ k < 2, Spec.Next (path k) (path (k + 1))) ∧
        0 ≤ (path 0).stock ∧ (path 0).stock ≤ 1 ∧
        ∀ k ≤ 2, 0 ≤ rowIncrement exParams (path k) ∧ rowIncrement exParams (path k) ≤ 1 := by
  obtain ⟨rows, h⟩ := exOutput exFiles_ok hermite false false g
  have hE : simSpec.num_educ_levels ≤ 3 := by rw [specOf_facts.educ]; decide
  have hex : ∀ k : Nat, ∃ r : OutRow ℚ, k ≤ 2 → r ∈ rows ∧ r.id = 1 ∧ r.period = k ∧ r.educ = 0 := by
    intro k
    by_cases hk : k ≤ 2
    · obtain ⟨r, hr, h1, h2, h3⟩ := sim_row h 1 k (by decide) (Nat.zero_le _) (by omega)
      exact ⟨r, fun _ => ⟨hr, h1, h2, h3⟩⟩
    · obtain ⟨r, -⟩ := sim_row h 1 0 (by decide) (by decide) (by decide)
      exact ⟨r, fun h => absurd h hk⟩
  choose path hpath using hex
  have hinc : ∀ k ≤ 2, 0 ≤ rowIncrement exParams (path k) ∧ rowIncrement exParams (path k) ≤ 1 := by
    intro k hk
    obtain ⟨-, -, -, h3⟩ := hpath k hk
    have := ex_increment (Spec.stateOf (path k)) (by show (path k).educ.toNat < 2; rw [h3]; decide)
    exact ⟨this.1.le, this.2.le⟩
  obtain ⟨hr, h1, h2, h3⟩ := hpath 0 (by decide)
  have hent : Spec.Entry simSpec (path 0) := by
    unfold Spec.Entry; rw [h2, h3, specOf_facts.years]; rfl
  obtain ⟨k1, -, k3⟩ := C13_entry_stock_partial h hE hr hent (hinc 0 (by decide)).1
  refine ⟨rows, h, hE, path, fun k hk => (hpath k hk).1, ?_, k1, k3.2 ?_, hinc⟩
  · intro k hk
    obtain ⟨-, a1, a2, -⟩ := hpath k (by omega)
    obtain ⟨-, b1, b2, -⟩ := hpath (k + 1) (by omega)
    refine ⟨?_, ?_⟩
    · rw [a1, b1]
    · rw [a2, b2]; push_cast; ring
  · obtain ⟨-, e1, -, e2⟩ := novice_entry h hr hent
    have hi := hinc 0 (by decide)
    have e1' : ((path 0).expPT : ℚ) ≤ 1 := by exact_mod_cast e1
    have e2' : ((path 0).expFT : ℚ) ≤ 3 := by exact_mod_cast e2
    have := mul_le_mul_of_nonneg_right e1' hi.1
    unfold Spec.drawnYears
    rw [specOf_facts.init]
    push_cast
    linarith [hi.2]

end Soepy.Props
