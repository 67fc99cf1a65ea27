import Verif.Proof.Shocks
import Verif.Props.Simulation

/-!
# Initial conditions (C13, C14, C58, C59)
-/

set_option linter.unusedSectionVars false

namespace Soepy.Props
open Soepy
variable {S K : Type} [Field K] [LinearOrder K] [IsStrictOrderedRing K] [FloorRing K] [Transc K]
  {env : Env S K} {frame : Frame K} {a : Nat} {biased : Bool} {w : World S K}
  {par : ModelParams K} {spec : ModelSpec K} {rows : List (OutRow K)}

/-! ## C58 -/

/-- **C58**  The initial lagged choice of an agent with `years` of experience: part-time if the fractional
part is larger than 1e-8, else full-time if there is more than one year, else none. -/
theorem C58_lagged_choice_rule {years : K} (h : 0 ≤ years) :
    laggedChoiceInitial years =
      if Int.fract years > 1e-8 then 1 else if years > 1 then 2 else 0 := by
  unfold laggedChoiceInitial truncInt
  have e : |years - ((⌊years⌋ : Int) : K)| = Int.fract years := by
    rw [← Int.fract]
    exact abs_of_nonneg (Int.fract_nonneg _)
  simp only [if_pos h, e, decide_eq_true_eq]

/-- **C58**  The rule of the docstring (full-time with more than one year, else none) holds for whole years. -/
theorem C58_whole_years (n : Nat) :
    laggedChoiceInitial (n : K) = if (n : K) > 1 then 2 else 0 := by
  rw [C58_lagged_choice_rule (Nat.cast_nonneg n), Int.fract_natCast, if_neg (by norm_num)]

/-- **C58**  The rule is the one of the docstring exactly for years without a fractional part. -/
theorem C58_docstring_rule_iff {years : K} (h : 0 ≤ years) :
    laggedChoiceInitial years = (if years > 1 then 2 else 0) ↔ ¬ Int.fract years > 1e-8 := by
  rw [C58_lagged_choice_rule h]
  by_cases hf : Int.fract years > 1e-8
  · rw [if_pos hf]
    simp only [hf, not_true_eq_false, iff_false]
    split_ifs <;> decide
  · rw [if_neg hf]
    simp [hf]

/-- **C58**  The initial lagged choice is always one of the three choices. -/
theorem C58_valid (years : K) : laggedChoiceInitial years = 0 ∨ laggedChoiceInitial years = 1 ∨
    laggedChoiceInitial years = 2 := by
  have := laggedChoiceInitial_lt years
  omega

/-- Part-time workers with 3/2, full-time workers with 3 and non-workers with 1 year. -/
example [Transc ℚ] : laggedChoiceInitial (3/2 : ℚ) = 1 ∧ laggedChoiceInitial (3 : ℚ) = 2 ∧
    laggedChoiceInitial (1 : ℚ) = 0 := by
  refine ⟨?_, ?_, ?_⟩
  · rw [C58_lagged_choice_rule (by norm_num)]
    decide +kernel
  · have := C58_whole_years (K := ℚ) 3
    norm_num at this
    exact this
  · have := C58_whole_years (K := ℚ) 1
    norm_num at this
    exact this

/-! ## Entry rows -/

/-- The row of an entrant. -/
theorem entry_row (h : Spec.Output env frame a biased false w par spec rows)
    (hE : spec.num_educ_levels ≤ 3) {r : OutRow K} (hr : r ∈ rows) (he : Spec.Entry spec r) :
    (∃ p : Nat, r.expPT = p ∧ p ≤ spec.init_exp_max) ∧ (∃ p : Nat, r.expFT = p ∧ p ≤ spec.init_exp_max) ∧
    r.stock = Spec.drawnYears par r / (if spec.init_exp_max = 0 then 1 else (spec.init_exp_max : K)) ∧
    r.lagged = (laggedChoiceInitial (Spec.drawnYears par r) : Nat) ∧
    (∃ c g1, buildCached env spec biased w.rng = .ok (c, g1) ∧
      ∃ j : Nat, r.age = (j : Int) - 1 ∧
      DrawnFrom c.probs.childAge (spec.child_age_init_max + 2).toNat r.educ.toNat j ∧
      DrawnPartner c.probs.partnerPresent r.educ.toNat r.partner.toNat ∧
      DrawnFrom c.probs.expPt (spec.init_exp_max + 1) r.educ.toNat r.expPT.toNat ∧
      DrawnFrom c.probs.expFt (spec.init_exp_max + 1) r.educ.toNat r.expFT.toNat) := by
  obtain ⟨c, g1, sol, hc, hs, -, initial, draws, m, R, F, rfl⟩ := output_run h
  obtain ⟨t, ht, q, hq, rfl⟩ := mem_recorded.1 hr
  have hper := R.period_eq h.laws t ht q hq
  have hmem : q.agent ∈ initial := by
    rcases R.origin h.laws F.period_le ht hq with ⟨h1, -⟩ | ⟨t', rfl, r0, hr0, x, p, hx, hp, heq⟩
    · exact h1
    · exfalso
      obtain ⟨b, hb, -, h2, -, h3⟩ := R.educ_eq h.laws t' (by omega) r0 hr0
      have h4 := (F.mem hb).2.period
      unfold Spec.Entry at he
      rw [recorded_educ, recorded_period, Int.toNat_natCast, Int.toNat_natCast, hper] at he
      have h5 : q.agent.educ = b.educ := by rw [heq, h2]; rfl
      rw [h5, h4] at he
      have := Option.some.inj he
      omega
  obtain ⟨-, hE'⟩ := F.mem hmem
  have hlt : q.agent.educ < 3 := by
    have := hE'.educ_lt
    omega
  have hinc := ptIncrement_true h.params hlt
  have hPT : (recorded false q).expPT = q.agent.expPT := by rw [recorded_full]; rfl
  have hFT : (recorded false q).expFT = q.agent.expFT := by rw [recorded_full]; rfl
  have hlag : (recorded false q).lagged = q.agent.lagged := by rw [recorded_full]; rfl
  have hyears : Spec.drawnYears par (recorded false q)
      = (q.agent.expPT : K) * getPtIncrement par q.agent.educ q.agent.age false + (q.agent.expFT : K) := by
    unfold Spec.drawnYears
    rw [hPT, hFT, stateOf_recorded, hinc]
    push_cast
    rfl
  have hb : ∀ {tab : List (List K)} {x : Nat}, DrawnFrom tab (spec.init_exp_max + 1) q.agent.educ x →
      x ≤ spec.init_exp_max := by
    rintro tab x ⟨p, y, -, hl, hx, -⟩
    have := (List.getElem?_eq_some_iff.1 hx).1
    omega
  refine ⟨⟨q.agent.expPT, hPT, hb hE'.pt⟩, ⟨q.agent.expFT, hFT, hb hE'.ft⟩, ?_, ?_, c, g1,
    buildCached_ok.2 hc, ?_⟩
  · rw [recorded_stock, hE'.stock, hyears]
    unfold expYearsToStock maxExpYears
    simp only [Nat.cast_zero, zero_mul, max_self, add_zero]
    congr 1
    by_cases h0 : spec.init_exp_max = 0
    · simp [h0]
    · rw [if_neg h0, if_pos]
      exact_mod_cast Nat.pos_of_ne_zero h0
  · rw [hlag, hE'.lagged, hyears]
  · obtain ⟨j, hj1, hj2⟩ := hE'.age
    refine ⟨j, by rw [recorded_age]; exact hj2, ?_⟩
    rw [recorded_educ, recorded_partner, hPT, hFT, Int.toNat_natCast, Int.toNat_natCast,
      Int.toNat_natCast, Int.toNat_natCast]
    exact ⟨hj1, hE'.partner, hE'.pt, hE'.ft⟩

/-- **C58**  The rule applies to every entrant of a simulation. -/
theorem C58_simulated_entrants (h : Spec.Output env frame a biased false w par spec rows)
    (hE : spec.num_educ_levels ≤ 3) {r : OutRow K} (hr : r ∈ rows) (he : Spec.Entry spec r)
    (hi : 0 ≤ Spec.ptIncrement par false (Spec.stateOf r)) :
    r.lagged = if Int.fract (Spec.drawnYears par r) > 1e-8 then 1
      else if Spec.drawnYears par r > 1 then 2 else 0 := by
  obtain ⟨⟨p, hp, -⟩, ⟨f, hf, -⟩, -, h4, -⟩ := entry_row h hE hr he
  have h0 : 0 ≤ Spec.drawnYears par r := by
    unfold Spec.drawnYears
    rw [hp, hf]
    push_cast
    exact add_nonneg (mul_nonneg (Nat.cast_nonneg _) hi) (Nat.cast_nonneg _)
  rw [h4, C58_lagged_choice_rule h0]
  split_ifs <;> rfl

/-! ## C13 -/

/-- **C13**, true part.  Entrants start with the stock `drawn years / init_exp_max`; it is never negative,
never larger than 1 plus the part-time increment, and at most 1 exactly if the drawn years do not exceed
`init_exp_max`.  Missing for the full claim: nothing keeps the drawn years below `init_exp_max`
(`C13_fails`). -/
theorem C13_entry_stock_partial (h : Spec.Output env frame a biased false w par spec rows)
    (hE : spec.num_educ_levels ≤ 3) {r : OutRow K} (hr : r ∈ rows) (he : Spec.Entry spec r)
    (hi : 0 ≤ Spec.ptIncrement par false (Spec.stateOf r)) :
    0 ≤ r.stock ∧ r.stock ≤ 1 + Spec.ptIncrement par false (Spec.stateOf r) ∧
    (r.stock ≤ 1 ↔ Spec.drawnYears par r ≤ (spec.init_exp_max : K)) := by
  obtain ⟨⟨p, hp, hp'⟩, ⟨f, hf, hf'⟩, h3, -, -⟩ := entry_row h hE hr he
  have hy : Spec.drawnYears par r = (p : K) * Spec.ptIncrement par false (Spec.stateOf r) + f := by
    unfold Spec.drawnYears
    rw [hp, hf]
    push_cast
    rfl
  have h0 : 0 ≤ Spec.drawnYears par r := by
    rw [hy]
    exact add_nonneg (mul_nonneg (Nat.cast_nonneg _) hi) (Nat.cast_nonneg _)
  by_cases hz : spec.init_exp_max = 0
  · have hy0 : Spec.drawnYears par r = 0 := by
      have e1 : p = 0 := by omega
      have e2 : f = 0 := by omega
      rw [hy, e1, e2]
      simp
    rw [if_pos hz, hy0, zero_div] at h3
    rw [h3, hy0]
    refine ⟨le_refl _, by linarith, ?_⟩
    simp
  · have hpos : (0 : K) < (spec.init_exp_max : K) := by exact_mod_cast Nat.pos_of_ne_zero hz
    rw [if_neg hz] at h3
    refine ⟨by rw [h3]; exact div_nonneg h0 hpos.le, ?_, by rw [h3, div_le_one hpos]⟩
    rw [h3, div_le_iff₀ hpos, hy]
    have k1 : (p : K) ≤ spec.init_exp_max := by exact_mod_cast hp'
    have k2 : (f : K) ≤ spec.init_exp_max := by exact_mod_cast hf'
    have k3 := mul_le_mul_of_nonneg_right k1 hi
    linarith

/-! ## C14 -/

/-- **C14**, true part.  Agents who enter in period 0 have exactly the experience they drew; for later
entrants the implied years are inflated by the factor `mostYears (entry) / init_exp_max`.  Missing for the
full claim: entrants with a positive number of years of schooling (`C14_fails`). -/
theorem C14_entry_years_partial (h : Spec.Output env frame a biased false w par spec rows)
    (hE : spec.num_educ_levels ≤ 3) {r : OutRow K} (hr : r ∈ rows) (he : Spec.Entry spec r) :
    (r.period = 0 → Spec.yearsOf spec par r = Spec.drawnYears par r) ∧
    Spec.yearsOf spec par r * (spec.init_exp_max : K) = Spec.drawnYears par r
      * Spec.mostYears (spec.init_exp_max : K) (Spec.ptIncrement par false (Spec.stateOf r))
        r.period.toNat := by
  obtain ⟨⟨p, hp, hp'⟩, ⟨f, hf, hf'⟩, h3, -, -⟩ := entry_row h hE hr he
  have hy : Spec.drawnYears par r = (p : K) * Spec.ptIncrement par false (Spec.stateOf r) + f := by
    unfold Spec.drawnYears
    rw [hp, hf]
    push_cast
    rfl
  unfold Spec.yearsOf
  by_cases hz : spec.init_exp_max = 0
  · have hy0 : Spec.drawnYears par r = 0 := by
      have e1 : p = 0 := by omega
      have e2 : f = 0 := by omega
      rw [hy, e1, e2]
      simp
    rw [if_pos hz, hy0, zero_div] at h3
    rw [h3, hy0]
    simp
  · have hpos : (spec.init_exp_max : K) ≠ 0 := by exact_mod_cast hz
    rw [if_neg hz] at h3
    refine ⟨?_, ?_⟩
    · intro h0
      rw [h0, h3]
      simp only [Int.toNat_zero, Spec.mostYears]
      rw [div_mul_cancel₀ _ hpos]
    · rw [h3]
      field_simp

/-! ## The example -/

/-- In the example there are rows for agent `i` in every period from entry on. -/
theorem sim_row [Transc ℚ] {f : FileData} {hermite : Nat → List ℚ × List ℚ} {g : Nat} {biased : Bool}
    {rows : List (OutRow ℚ)}
    (h : Spec.Output (simEnv f hermite) exFrame 0 biased false (simWorld 4 g) exParams simSpec rows)
    (i t : Nat) (hi : i < 5) (ht : (i + 1) % 2 ≤ t) (ht' : t < 3) :
    ∃ r ∈ rows, r.id = i ∧ r.period = t ∧ r.educ = ((i + 1) % 2 : Nat) := by
  have hd : Spec.drawnEducation (simEnv f hermite) simSpec = [1, 0, 1, 0, 1] := by
    unfold Spec.drawnEducation
    rw [specOf_facts.seed, specOf_facts.agents, specOf_facts.files]
    show ((altRng ℚ).choice ((altRng ℚ).seed 1) 5 [1/2, 1/2]).1 = _
    decide +kernel
  have he : ([1, 0, 1, 0, 1] : List Nat)[i]? = some ((i + 1) % 2) := by
    have : i = 0 ∨ i = 1 ∨ i = 2 ∨ i = 3 ∨ i = 4 := by omega
    rcases this with rfl | rfl | rfl | rfl | rfl <;> rfl
  have hy : ([0, 1] : List Nat)[(i + 1) % 2]? = some ((i + 1) % 2) := by
    have : (i + 1) % 2 = 0 ∨ (i + 1) % 2 = 1 := by omega
    rcases this with h | h <;> rw [h] <;> rfl
  have h1 := C34_one_row_per_agent_and_period h i t
  rw [if_pos ⟨by rw [specOf_facts.periods]; exact ht', (i + 1) % 2, (i + 1) % 2, by rw [hd]; exact he,
    by rw [specOf_facts.years]; exact hy, ht⟩] at h1
  have h2 : 0 < rows.countP (fun r => decide (r.id = (i : Int)) && decide (r.period = (t : Int))) := by
    rw [h1]; exact Nat.one_pos
  obtain ⟨r, hr, hr2⟩ := List.countP_pos_iff.1 h2
  simp only [Bool.and_eq_true, decide_eq_true_eq] at hr2
  refine ⟨r, hr, hr2.1, hr2.2, ?_⟩
  obtain ⟨-, hrow⟩ := C34_rows_belong_to_agents h
  obtain ⟨i', t', e', k1, -, k3, k4, -⟩ := hrow r hr
  have : i' = i := by omega
  rw [this, hd, he] at k4
  rw [k3, ← Option.some.inj k4]

/-- Increments in the example lie strictly between 0 and 1. -/
theorem ex_increment (s : State) (hs : s.educ < 2) :
    0 < Spec.ptIncrement exParams false s ∧ Spec.ptIncrement exParams false s < 1 := by
  unfold Spec.ptIncrement
  rw [exParams_experience.1, exParams_experience.2]
  have : s.educ = 0 ∨ s.educ = 1 := by omega
  rcases this with h | h <;> rw [h] <;> split_ifs <;> norm_num at *

/-- Agent 1 enters in period 0 and agent 0 in period 1. -/
example [Transc ℚ] (hermite : Nat → List ℚ × List ℚ) (g : Nat) :
    ∃ rows, Spec.Output (simEnv exFiles hermite) exFrame 0 false false (simWorld 4 g) exParams simSpec rows ∧
      simSpec.num_educ_levels ≤ 3 ∧
      (∃ r ∈ rows, Spec.Entry simSpec r ∧ r.period = 0 ∧
        0 ≤ Spec.ptIncrement exParams false (Spec.stateOf r)) ∧
      (∃ r ∈ rows, Spec.Entry simSpec r ∧ r.period = 1 ∧
        0 ≤ Spec.ptIncrement exParams false (Spec.stateOf r)) := by
  obtain ⟨rows, h⟩ := exOutput exFiles_ok hermite false false g
  obtain ⟨r, hr, h1, h2, h3⟩ := sim_row h 1 0 (by decide) (by decide) (by decide)
  obtain ⟨r', hr', h1', h2', h3'⟩ := sim_row h 0 1 (by decide) (by decide) (by decide)
  refine ⟨rows, h, by rw [specOf_facts.educ]; decide, ⟨r, hr, ?_, h2, ?_⟩, ⟨r', hr', ?_, h2', ?_⟩⟩
  · unfold Spec.Entry; rw [h2, h3, specOf_facts.years]; rfl
  · exact (ex_increment _ (by show r.educ.toNat < 2; rw [h3]; decide)).1.le
  · unfold Spec.Entry; rw [h2', h3', specOf_facts.years]; rfl
  · exact (ex_increment _ (by show r'.educ.toNat < 2; rw [h3']; decide)).1.le

/-- Everybody starts with four years of part-time and four years of full-time experience. -/
def veteranFiles : FileData :=
  { exFiles with pt := [0, 0, 0, 0, 1], ft := [0, 0, 0, 0, 1] }

theorem veteranFiles_ok : veteranFiles.Ok 4 := by
  constructor <;> (unfold veteranFiles exFiles; decide +kernel)

/-- Draws from a shares file of the example have positive probability. -/
theorem drawn_share {l : List ℚ} {tab : List (List ℚ)} {spec : ModelSpec ℚ} {n e x : Nat}
    (hs : spec.num_educ_levels = 2)
    (htab : genProbInitExpComponentVector
      (l.map (fun x => ((0 : Nat), x)) ++ l.map fun x => (1, x)) spec = .ok tab)
    (hd : DrawnFrom tab n e x) : ∃ q, ((1 - l.tail.sum) :: l.tail)[x]? = some q ∧ 0 < q := by
  obtain ⟨p, y, hp, -, hx, hy⟩ := hd
  unfold genProbInitExpComponentVector at htab
  rw [hs] at htab
  have hmem := mapE_mem htab (List.mem_of_getElem? hp)
  obtain ⟨k, hk, hk2⟩ := hmem
  refine ⟨y, ?_, hy⟩
  have hk' : k = 0 ∨ k = 1 := by
    have := List.mem_range.1 hk
    omega
  have : (((l.map (fun x => ((0 : Nat), x)) ++ l.map fun x => (1, x)).filter
      fun (r : Nat × ℚ) => r.1 == k).map Prod.snd) = l := by
    rw [List.filter_append, List.filter_map, List.filter_map]
    rcases hk' with rfl | rfl <;> simp [Function.comp_def]
  unfold sharesOfEduc at hk2
  rw [this] at hk2
  cases l with
  | nil => cases hk2
  | cons z rest =>
    obtain rfl := Except.ok.inj hk2
    exact hx

/-- Entrants of the example draw years that have a positive share in the files. -/
theorem sim_entry [Transc ℚ] {f : FileData} {hermite : Nat → List ℚ × List ℚ} {g : Nat} {biased : Bool}
    {rows : List (OutRow ℚ)}
    (h : Spec.Output (simEnv f hermite) exFrame 0 biased false (simWorld 4 g) exParams simSpec rows)
    {r : OutRow ℚ} (hr : r ∈ rows) (he : Spec.Entry simSpec r) :
    ∃ p q : Nat, r.expPT = p ∧ r.expFT = q ∧
      (∃ x, ((1 - f.pt.tail.sum) :: f.pt.tail)[p]? = some x ∧ 0 < x) ∧
      ∃ x, ((1 - f.ft.tail.sum) :: f.ft.tail)[q]? = some x ∧ 0 < x := by
  have hE : simSpec.num_educ_levels ≤ 3 := by rw [specOf_facts.educ]; decide
  obtain ⟨⟨p, hp, -⟩, ⟨q, hf, -⟩, -, -, c, g1, hc, j, -, -, -, h1, h2⟩ := entry_row h hE hr he
  have hc := buildCached_ok.1 hc
  have e1 := hc.expPt
  have e2 := hc.expFt
  rw [specOf_facts.files] at e1 e2
  refine ⟨p, q, hp, hf, ?_, ?_⟩
  · have := drawn_share specOf_facts.educ e1 h1
    rwa [hp, Int.toNat_natCast] at this
  · have := drawn_share specOf_facts.educ e2 h2
    rwa [hf, Int.toNat_natCast] at this

/-- Entrants of a simulation with these files. -/
theorem veteran_entry [Transc ℚ] {hermite : Nat → List ℚ × List ℚ} {g : Nat} {biased : Bool}
    {rows : List (OutRow ℚ)}
    (h : Spec.Output (simEnv veteranFiles hermite) exFrame 0 biased false (simWorld 4 g) exParams simSpec rows)
    {r : OutRow ℚ} (hr : r ∈ rows) (he : Spec.Entry simSpec r) : r.expPT = 4 ∧ r.expFT = 4 := by
  obtain ⟨p, q, hp, hq, ⟨x, hx, hx0⟩, y, hy, hy0⟩ := sim_entry h hr he
  have key : ∀ (p : Nat) (x : ℚ), ([1 - ([0, 0, 0, 1] : List ℚ).sum, 0, 0, 0, 1] : List ℚ)[p]? = some x →
      0 < x → p = 4 := by
    intro p x hx h0
    have hlt := (List.getElem?_eq_some_iff.1 hx).1
    simp only [List.length_cons, List.length_nil] at hlt
    have : p = 0 ∨ p = 1 ∨ p = 2 ∨ p = 3 ∨ p = 4 := by omega
    rcases this with rfl | rfl | rfl | rfl | rfl
    · simp at hx; subst hx; exact absurd h0 (lt_irrefl _)
    · simp at hx; subst hx; exact absurd h0 (lt_irrefl _)
    · simp at hx; subst hx; exact absurd h0 (lt_irrefl _)
    · simp at hx; subst hx; exact absurd h0 (lt_irrefl _)
    · rfl
  rw [hp, hq, key p x hx hx0, key q y hy hy0]
  exact ⟨rfl, rfl⟩

/-- Entrants of the example have at most one year of part-time and three years of full-time experience. -/
theorem novice_entry [Transc ℚ] {hermite : Nat → List ℚ × List ℚ} {g : Nat} {biased : Bool}
    {rows : List (OutRow ℚ)}
    (h : Spec.Output (simEnv exFiles hermite) exFrame 0 biased false (simWorld 4 g) exParams simSpec rows)
    {r : OutRow ℚ} (hr : r ∈ rows) (he : Spec.Entry simSpec r) :
    0 ≤ r.expPT ∧ r.expPT ≤ 1 ∧ 0 ≤ r.expFT ∧ r.expFT ≤ 3 := by
  obtain ⟨p, q, hp, hq, ⟨x, hx, hx0⟩, y, hy, hy0⟩ := sim_entry h hr he
  have hp' : p ≤ 1 := by
    by_contra hlt
    have hlt' : p < 5 := (List.getElem?_eq_some_iff.1 hx).1
    have : p = 2 ∨ p = 3 ∨ p = 4 := by omega
    rcases this with rfl | rfl | rfl <;> (obtain rfl := Option.some.inj hx; exact absurd hx0 (lt_irrefl _))
  have hq' : q ≤ 3 := by
    by_contra hlt
    have hlt' : q < 5 := (List.getElem?_eq_some_iff.1 hy).1
    have : q = 4 := by omega
    subst this
    obtain rfl := Option.some.inj hy
    exact absurd hy0 (lt_irrefl _)
  omega

/-- **C13** is false of the code: there is a simulation in which every entrant has a stock above 1. -/
theorem C13_fails [Transc ℚ] (hermite : Nat → List ℚ × List ℚ) (g : Nat) :
    ∃ rows, Spec.Output (simEnv veteranFiles hermite) exFrame 0 false false (simWorld 4 g) exParams simSpec
      rows ∧ (∃ r ∈ rows, Spec.Entry simSpec r) ∧ ∀ r ∈ rows, Spec.Entry simSpec r → 1 < r.stock := by
  obtain ⟨rows, h⟩ := exOutput veteranFiles_ok hermite false false g
  have hE : simSpec.num_educ_levels ≤ 3 := by rw [specOf_facts.educ]; decide
  refine ⟨rows, h, ?_, ?_⟩
  · obtain ⟨r, hr, h1, h2, h3⟩ := sim_row h 1 0 (by decide) (by decide) (by decide)
    exact ⟨r, hr, by unfold Spec.Entry; rw [h2, h3, specOf_facts.years]; rfl⟩
  · intro r hr he
    obtain ⟨h1, h2⟩ := veteran_entry h hr he
    obtain ⟨-, -, h3, -, -⟩ := entry_row h hE hr he
    obtain ⟨-, hrow⟩ := C34_rows_belong_to_agents h
    obtain ⟨i, t, e, -, -, k3, -, -, e', y, -, k5, -⟩ := hrow r hr
    have hlt : r.educ.toNat < 2 := by
      unfold Spec.Entry at he
      rw [specOf_facts.years] at he
      simpa using (List.getElem?_eq_some_iff.1 he).1
    have hinc := ex_increment (Spec.stateOf r) hlt
    have hz : ¬ simSpec.init_exp_max = 0 := by rw [specOf_facts.init]; decide
    have hz' : ((simSpec.init_exp_max : Nat) : ℚ) = 4 := by rw [specOf_facts.init]; norm_num
    rw [h3, if_neg hz, hz']
    unfold Spec.drawnYears
    rw [h1, h2]
    push_cast
    rw [lt_div_iff₀ (by norm_num)]
    linarith [hinc.1]

theorem mostYears_gt {m pt : K} : ∀ {t : Nat}, 0 < t → m < Spec.mostYears m pt t
  | 0, h => absurd h (lt_irrefl 0)
  | 1, _ => by
    show m < m + max 1 pt
    have : (1 : K) ≤ max 1 pt := le_max_left _ _
    linarith
  | t + 2, _ => by
    show m < Spec.mostYears m pt (t + 1) + max 1 pt
    have : (1 : K) ≤ max 1 pt := le_max_left _ _
    have := mostYears_gt (m := m) (pt := pt) (t := t + 1) (by omega)
    linarith

/-- **C14**, exactly when it holds: an entrant's stock stands for the drawn years if and only if the agent enters in
period 0 or drew no experience.  `C14_fails` is a simulation with rows of both kinds. -/
theorem C14_exact (h : Spec.Output env frame a biased false w par spec rows)
    (hE : spec.num_educ_levels ≤ 3) {r : OutRow K} (hr : r ∈ rows) (he : Spec.Entry spec r) :
    Spec.yearsOf spec par r = Spec.drawnYears par r ↔ r.period = 0 ∨ Spec.drawnYears par r = 0 := by
  obtain ⟨h1, h2⟩ := C14_entry_years_partial h hE hr he
  obtain ⟨⟨p, hp, hp'⟩, ⟨f, hf, hf'⟩, h3, -, -⟩ := entry_row h hE hr he
  constructor
  · intro e
    by_contra hc
    rw [not_or] at hc
    have hper : 0 < r.period.toNat := by
      have := C34_rows_belong_to_agents h
      obtain ⟨i, t, e', -, k3, -⟩ := this.2 r hr
      have h5 := hc.1
      omega
    rw [e] at h2
    have := mul_left_cancel₀ hc.2 h2
    have hlt := mostYears_gt (m := (spec.init_exp_max : K)) (pt := Spec.ptIncrement par false (Spec.stateOf r)) hper
    exact absurd this hlt.ne
  · rintro (h' | h')
    · exact h1 h'
    · rw [h', zero_mul] at h2
      rcases mul_eq_zero.1 h2 with h4 | h4
      · rw [h4, h']
      · have hz : spec.init_exp_max = 0 := by exact_mod_cast h4
        rw [if_pos hz] at h3
        unfold Spec.yearsOf
        rw [h', zero_div] at h3
        rw [h3, h', zero_mul]

/-- **C14** is false of the code: there is a simulation in which agents who enter in period 1 have more
years of experience, by their stock, than they drew. -/
theorem C14_fails [Transc ℚ] (hermite : Nat → List ℚ × List ℚ) (g : Nat) :
    ∃ rows, Spec.Output (simEnv veteranFiles hermite) exFrame 0 false false (simWorld 4 g) exParams simSpec
      rows ∧ (∃ r ∈ rows, Spec.Entry simSpec r ∧ r.period = 1) ∧
      ∀ r ∈ rows, Spec.Entry simSpec r → r.period = 1 →
        Spec.drawnYears exParams r < Spec.yearsOf simSpec exParams r := by
  obtain ⟨rows, h⟩ := exOutput veteranFiles_ok hermite false false g
  have hE : simSpec.num_educ_levels ≤ 3 := by rw [specOf_facts.educ]; decide
  refine ⟨rows, h, ?_, ?_⟩
  · obtain ⟨r, hr, h1, h2, h3⟩ := sim_row h 0 1 (by decide) (by decide) (by decide)
    exact ⟨r, hr, by unfold Spec.Entry; rw [h2, h3, specOf_facts.years]; rfl, h2⟩
  · intro r hr he hp
    obtain ⟨h1, h2⟩ := veteran_entry h hr he
    obtain ⟨-, h3⟩ := C14_entry_years_partial h hE hr he
    have hlt : r.educ.toNat < 2 := by
      unfold Spec.Entry at he
      rw [specOf_facts.years] at he
      simpa using (List.getElem?_eq_some_iff.1 he).1
    have hinc := ex_increment (Spec.stateOf r) hlt
    have hz' : ((simSpec.init_exp_max : Nat) : ℚ) = 4 := by rw [specOf_facts.init]; norm_num
    rw [hz', hp] at h3
    have e1 : Spec.mostYears (4 : ℚ) (Spec.ptIncrement exParams false (Spec.stateOf r)) (1 : Int).toNat = 5 := by
      show (4 : ℚ) + max 1 _ = 5
      rw [max_eq_left hinc.2.le]
      norm_num
    rw [e1] at h3
    have e2 : 0 < Spec.drawnYears exParams r := by
      unfold Spec.drawnYears
      rw [h1, h2]
      push_cast
      linarith [hinc.1]
    linarith

/-! ## C59 -/

/-- **C59** is false of the code: in every simulation the wage shocks are drawn from the very generator
state `g` from which the education levels of the agents were drawn before, so both use the same random
numbers. -/
theorem C59_fails (h : Spec.Output env frame a biased false w par spec rows) (hu : Usable spec par) :
    ∃ g : S,
      (∀ r ∈ rows, (env.rng.choice g spec.num_agents_sim
        ((env.disk spec.files.educ_shares).map Prod.snd)).1[r.id.toNat]? = some r.educ.toNat) ∧
      Spec.Columns env spec rows ∧ ∀ r ∈ rows, r.choice ≠ 0 →
        ∃ row x, (env.rng.normal g spec.num_periods spec.num_agents_sim).1[r.period.toNat]? = some row ∧
          row[Spec.column env spec r.id]? = some x ∧
          r.wage = some (Spec.trueWage spec par (Spec.stateOf r) r.stock (x * par.shock_sd)) := by
  refine ⟨env.rng.seed spec.seed_sim, ?_, ?_⟩
  · intro r hr
    obtain ⟨-, hrow⟩ := C34_rows_belong_to_agents h
    obtain ⟨i, t, e, h1, -, h3, h4, -⟩ := hrow r hr
    rw [h1, h3, Int.toNat_natCast, Int.toNat_natCast]
    exact h4
  · obtain ⟨c, g1, sol, hc, hs, hreg, draws, weights, hint, hcol, hrow⟩ := output_content h hu
    refine ⟨hcol, ?_⟩
    intro r hr h0
    obtain ⟨hin, his, o, ho, hd, hw, -⟩ := hrow r hr
    have l1 := h.laws.normal_length (env.rng.seed spec.seed_sim) spec.num_periods spec.num_agents_sim
    have hp : r.period.toNat < (env.rng.normal (env.rng.seed spec.seed_sim) spec.num_periods
        spec.num_agents_sim).1.length := by rw [l1]; exact hin.period
    have l2 := h.laws.normal_cols (env.rng.seed spec.seed_sim) spec.num_periods spec.num_agents_sim _
      (List.getElem_mem hp)
    have hcl := hcol.bound r hr
    rw [← l2] at hcl
    refine ⟨_, _, List.getElem?_eq_getElem hp, List.getElem?_eq_getElem hcl, ?_⟩
    rw [hw, if_neg h0, ho]
    show some (Spec.trueWage _ _ _ _ _) = _
    unfold Spec.shock Spec.standardShock Spec.normalDraws
    simp only [List.getD_eq_getElem?_getD, List.getElem?_eq_getElem hp, Option.getD_some,
      List.getElem?_eq_getElem hcl]

example [Transc ℚ] (hermite : Nat → List ℚ × List ℚ) (g : Nat) :
    (∃ rows, Spec.Output (simEnv exFiles hermite) exFrame 0 false false (simWorld 4 g) exParams simSpec
      rows) ∧ Usable simSpec exParams :=
  ⟨exOutput exFiles_ok hermite false false g, ex_usable⟩

end Soepy.Props
