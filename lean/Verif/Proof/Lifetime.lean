import Verif.Spec.Lifetime
import Verif.Proof.Agreement
import Verif.Proof.Reference
import Mathlib.Algebra.BigOperators.Intervals
import Mathlib.Tactic.Ring
import Mathlib.Tactic.Linarith

/-! Realised utility and values. -/

set_option linter.unusedSectionVars false

namespace Soepy
variable {S K : Type} [Field K] [LinearOrder K] [IsStrictOrderedRing K] [FloorRing K] [Transc K]

/-- Values that are utility plus discounted expectation add up. -/
theorem telescope (delta : K) (flow value cont : Nat → K) (n : Nat)
    (hv : ∀ k ≤ n, value k = flow k + delta * cont k)
    (hend : cont n = 0) :
    ∑ k ∈ Finset.range (n + 1), delta ^ k * flow k
      = value 0 + ∑ k ∈ Finset.range n, delta ^ (k + 1) * (value (k + 1) - cont k) := by
  have h : ∀ m ≤ n, ∑ k ∈ Finset.range (m + 1), delta ^ k * flow k
      = value 0 + ∑ k ∈ Finset.range m, delta ^ (k + 1) * (value (k + 1) - cont k) - delta ^ (m + 1) * cont m := by
    intro m
    induction m with
    | zero => intro h0; simp [hv 0 h0]
    | succ m ih =>
      intro hm
      rw [Finset.sum_range_succ, ih (by omega), Finset.sum_range_succ _ m, hv (m + 1) hm]
      ring
  rw [h n le_rfl, hend]
  ring

/-- A list of zeros interpolates to zero. -/
theorem onUnitInterval_zero (l : List K) (h : ∀ x ∈ l, x = 0) (x : K) : Spec.onUnitInterval l x = 0 := by
  have hg : ∀ k, l.getD k 0 = 0 := by
    intro k
    rw [List.getD_eq_getElem?_getD]
    cases hk : l[k]? with
    | none => rfl
    | some y => exact h y (List.mem_of_getElem? hk)
  unfold Spec.onUnitInterval Spec.line
  simp only [hg]
  ring

/-- Nobody expects anything of the time after the last period. -/
theorem outlook_last {env : Env S K} {par : ModelParams K} {spec : ModelSpec K} {biased : Bool} {s : State}
    (h : s.period + 1 = spec.num_periods) (x : K) (c : Fin 3) : Spec.outlook env par spec biased s x c = 0 := by
  unfold Spec.outlook
  refine onUnitInterval_zero _ ?_ x
  intro y hy
  obtain ⟨z, -, rfl⟩ := List.mem_map.1 hy
  rw [h, Nat.sub_self]
  have hz : ∀ s', Spec.W (Spec.planner env par spec biased) 0 s' = fun _ => 0 := fun s' => rfl
  unfold Spec.continuation
  simp only [hz, interp_zero]
  ring

/-- At a node of a uniform grid expectations are not interpolated. -/
theorem outlook_node {env : Env S K} {par : ModelParams K} {spec : ModelSpec K} {biased : Bool}
    (hs : spec.exp_grid.Pairwise (· < ·)) (hn : 2 ≤ spec.exp_grid.length)
    (hg : spec.exp_grid = Spec.uniformGrid spec.exp_grid.length) (s : State) {x : K} (hx : x ∈ spec.exp_grid)
    (c : Fin 3) :
    Spec.outlook env par spec biased s x c = Spec.continuation (Spec.planner env par spec biased)
      (Spec.W (Spec.planner env par spec biased) (spec.num_periods - (s.period + 1))) s x c := by
  have hst : 0 ≤ x ∧ x ≤ 1 := by
    rw [hg] at hx
    have hpos : (0 : K) < ((spec.exp_grid.length : K) - 1) := by
      have : (2 : K) ≤ (spec.exp_grid.length : K) := by exact_mod_cast hn
      linarith
    obtain ⟨i, hi, hx⟩ := List.mem_iff_getElem.1 hx
    rw [uniformGrid_get] at hx
    rw [uniformGrid_length] at hi
    have hi' : (i : K) ≤ (spec.exp_grid.length : K) - 1 := by
      have : ((i + 1 : Nat) : K) ≤ (spec.exp_grid.length : K) := by exact_mod_cast hi
      push_cast at this
      linarith
    rw [← hx]
    exact ⟨div_nonneg (Nat.cast_nonneg _) hpos.le, (div_le_one hpos).2 hi'⟩
  unfold Spec.outlook
  dsimp only
  rw [← onUnitInterval_eq (by rw [List.length_map]; exact hn),
    uniformValue_eq (by rw [List.length_map]; exact hn) hst.1 hst.2, List.length_map, ← hg,
    linearInterp1d_eq_interp hs hn, interp_node hs hn _ hx]

theorem zipWith_const_sum (c : K) : ∀ (l l' : List K), l.length = l'.length →
    (List.zipWith (fun _ w => w * c) l l').sum = l'.sum * c
  | [], [], _ => by simp
  | _ :: l, w :: l', h => by
    rw [List.zipWith_cons_cons, List.sum_cons, List.sum_cons, zipWith_const_sum c l l' (by simpa using h)]
    ring

/-- Without shocks the expected value is the value of the best choice. -/
theorem W_noRisk {env : Env S K} {par : ModelParams K} {spec : ModelSpec K} (h : Spec.NoRisk env par spec)
    (biased : Bool) (n : Nat) (s : State) (x : K) :
    Spec.W (Spec.planner env par spec biased) (n + 1) s x
      = Spec.best (Spec.planner env par spec biased) (Spec.W (Spec.planner env par spec biased) n) s x 0 := by
  show (List.zipWith (fun draw w => w * Spec.best (Spec.planner env par spec biased)
    (Spec.W (Spec.planner env par spec biased) n) s x (draw * par.shock_sd)) (Spec.nodes env spec).1
      (Spec.nodes env spec).2).sum = _
  simp only [h.sd, mul_zero]
  rw [zipWith_const_sum _ _ _ h.lengths, h.weights, one_mul]

/-- Without risk the expectation is the value in the one state that can follow. -/
theorem continuation_noRisk {env : Env S K} {par : ModelParams K} {spec : ModelSpec K} {biased : Bool}
    (h : Spec.NoRisk env par spec) (V : State → K → K) (s : State) (x : K) (c : Fin 3) (q : Nat)
    (hs : s.partner = 0 ∨ s.partner = 1) (hq : q = 0 ∨ q = 1)
    (hp : s.partner = 0 → (q = 1 ↔ Spec.arrivalTable env.disk spec s.period s.educ = 1))
    (hp' : s.partner = 1 → (q = 0 ↔ Spec.separationTable env.disk spec s.period s.educ = 1)) :
    Spec.continuation (Spec.planner env par spec biased) V s x c
      = Spec.interp spec.exp_grid (V (Spec.successor spec.child_age_max s c false q))
        (Spec.stockNext (Spec.planner env par spec biased) s x c) := by
  have hb : (Spec.planner env par spec biased).birth s.period s.educ = 0 := h.births _ _
  have hk : ∀ z, (Spec.planner env par spec biased).partner s.period s.educ s.partner z
      = if s.partner = 0 then
          if z = 0 then 1 - Spec.arrivalTable env.disk spec s.period s.educ
          else Spec.arrivalTable env.disk spec s.period s.educ
        else if z = 0 then Spec.separationTable env.disk spec s.period s.educ
        else 1 - Spec.separationTable env.disk spec s.period s.educ := fun z => rfl
  unfold Spec.continuation
  dsimp only
  rw [hb, hk, hk]
  show _ = Spec.interp (Spec.planner env par spec biased).spec.exp_grid
    (V (Spec.successor (Spec.planner env par spec biased).spec.child_age_max s c false q)) _
  rcases hs with h0 | h0
  · have := hp h0
    rcases h.arrival s.period s.educ with ha | ha
    · rw [ha] at this
      obtain rfl : q = 0 := by
        rcases hq with rfl | rfl
        · rfl
        · exact absurd (this.1 rfl) zero_ne_one
      simp [h0, ha]
    · obtain rfl := this.2 ha
      simp [h0, ha]
  · have := hp' h0
    rcases h.separation s.period s.educ with ha | ha
    · rw [ha] at this
      obtain rfl : q = 1 := by
        rcases hq with rfl | rfl
        · exact absurd (this.1 rfl) zero_ne_one
        · rfl
      simp [h0, ha]
    · obtain rfl := this.2 ha
      simp [h0, ha]

theorem stockNext_planner {env : Env S K} {par : ModelParams K} {spec : ModelSpec K} {biased : Bool} {s : State}
    (h : Spec.ptIncrement par biased s = Spec.ptIncrement par false s) (x : K) (c : Nat) :
    Spec.stockNext (Spec.planner env par spec biased) s x c = Spec.stockNext (Spec.plain spec par) s x c := by
  have h' : Spec.ptIncrement (Spec.planner env par spec biased).par (Spec.planner env par spec biased).biased s
      = Spec.ptIncrement (Spec.plain spec par).par (Spec.plain spec par).biased s := h
  unfold Spec.stockNext
  rw [h']
  rfl

end Soepy
