import Verif.Proof.Statics

/-! The sign and the size of values, and the effect of the discount factor. -/

set_option linter.unusedSectionVars false

namespace Soepy
variable {K : Type} [Field K] [LinearOrder K] [IsStrictOrderedRing K] [Transc K]

theorem interp_const {grid : List K} (hs : grid.Pairwise (· < ·)) (hn : 2 ≤ grid.length) {y : K}
    (h0 : grid[0] ≤ y) (h1 : y ≤ grid[grid.length - 1]) (v : K) : Spec.interp grid (fun _ => v) y = v := by
  obtain ⟨i, w, hi, hw0, hw1, hw⟩ := linearInterp1d_weights hs hn h0 h1
  rw [← linearInterp1d_eq_interp hs hn, hw _ (by simp)]
  have hi' : i < grid.length := by omega
  rw [getD_of_lt (by simpa using hi'), getD_of_lt (by simpa using hi)]
  simp only [List.getElem_map]
  ring

/-- A grid over the unit interval. -/
structure UnitGrid (grid : List K) : Prop where
  sorted : grid.Pairwise (· < ·)
  nodes : 2 ≤ grid.length
  first : grid[0] = 0
  last : 1 ≤ grid[grid.length - 1]

/-- A continuation value is at most the highest value of the successors, if probabilities add up to one at most and
the bound is nonnegative, or if they add up to one. -/
theorem continuation_le_bound {e : Spec.Economy K} (hv : ValidBeliefs e) (hg : UnitGrid e.spec.exp_grid)
    {V : State → K → K} {s : State} {x M : K} {c : Fin 3}
    (hp : e.partner s.period s.educ s.partner 0 + e.partner s.period s.educ s.partner 1 = 1 ∨ M = 0)
    (h : ∀ birth q, q < 2 → ∀ a ∈ e.spec.exp_grid, V (Spec.successor e.spec.child_age_max s c birth q) a ≤ M) :
    Spec.continuation e V s x c ≤ M := by
  obtain ⟨y0, y1⟩ := stockNext_mem e s x c
  have b0 := hv.birth0 s.period s.educ
  have b1 := sub_nonneg.2 (hv.birth1 s.period s.educ)
  have p0 := hv.partner s.period s.educ s.partner 0
  have p1 := hv.partner s.period s.educ s.partner 1
  have key : ∀ birth q, q < 2 → Spec.interp e.spec.exp_grid (V (Spec.successor e.spec.child_age_max s c birth q))
      (Spec.stockNext e s x c) ≤ M := by
    intro birth q hq
    refine (interp_le hg.sorted hg.nodes (by rw [hg.first]; exact y0) (y1.trans hg.last)
      (f' := fun _ => M) (h birth q hq)).trans_eq ?_
    exact interp_const hg.sorted hg.nodes (by rw [hg.first]; exact y0) (y1.trans hg.last) M
  unfold Spec.continuation
  dsimp only
  have k1 := mul_le_mul_of_nonneg_left (key false 0 (by omega)) (mul_nonneg b1 p0)
  have k2 := mul_le_mul_of_nonneg_left (key false 1 (by omega)) (mul_nonneg b1 p1)
  have k3 := mul_le_mul_of_nonneg_left (key true 0 (by omega)) (mul_nonneg b0 p0)
  have k4 := mul_le_mul_of_nonneg_left (key true 1 (by omega)) (mul_nonneg b0 p1)
  have e1 : (1 - e.birth s.period s.educ) * e.partner s.period s.educ s.partner 0 * M
      + (1 - e.birth s.period s.educ) * e.partner s.period s.educ s.partner 1 * M
      + e.birth s.period s.educ * e.partner s.period s.educ s.partner 0 * M
      + e.birth s.period s.educ * e.partner s.period s.educ s.partner 1 * M = M := by
    rcases hp with hp | rfl
    · linear_combination M * hp
    · ring
  linarith

theorem bound_le_continuation {e : Spec.Economy K} (hv : ValidBeliefs e) (hg : UnitGrid e.spec.exp_grid)
    {V : State → K → K} {s : State} {x m : K} {c : Fin 3}
    (hp : e.partner s.period s.educ s.partner 0 + e.partner s.period s.educ s.partner 1 = 1 ∨ m = 0)
    (h : ∀ birth q, q < 2 → ∀ a ∈ e.spec.exp_grid, m ≤ V (Spec.successor e.spec.child_age_max s c birth q) a) :
    m ≤ Spec.continuation e V s x c := by
  obtain ⟨y0, y1⟩ := stockNext_mem e s x c
  have b0 := hv.birth0 s.period s.educ
  have b1 := sub_nonneg.2 (hv.birth1 s.period s.educ)
  have p0 := hv.partner s.period s.educ s.partner 0
  have p1 := hv.partner s.period s.educ s.partner 1
  have key : ∀ birth q, q < 2 → m ≤ Spec.interp e.spec.exp_grid (V (Spec.successor e.spec.child_age_max s c birth q))
      (Spec.stockNext e s x c) := by
    intro birth q hq
    refine le_trans (le_of_eq ?_) (interp_le hg.sorted hg.nodes (by rw [hg.first]; exact y0) (y1.trans hg.last)
      (f := fun _ => m) (h birth q hq))
    exact (interp_const hg.sorted hg.nodes (by rw [hg.first]; exact y0) (y1.trans hg.last) m).symm
  unfold Spec.continuation
  dsimp only
  have k1 := mul_le_mul_of_nonneg_left (key false 0 (by omega)) (mul_nonneg b1 p0)
  have k2 := mul_le_mul_of_nonneg_left (key false 1 (by omega)) (mul_nonneg b1 p1)
  have k3 := mul_le_mul_of_nonneg_left (key true 0 (by omega)) (mul_nonneg b0 p0)
  have k4 := mul_le_mul_of_nonneg_left (key true 1 (by omega)) (mul_nonneg b0 p1)
  have e1 : (1 - e.birth s.period s.educ) * e.partner s.period s.educ s.partner 0 * m
      + (1 - e.birth s.period s.educ) * e.partner s.period s.educ s.partner 1 * m
      + e.birth s.period s.educ * e.partner s.period s.educ s.partner 0 * m
      + e.birth s.period s.educ * e.partner s.period s.educ s.partner 1 * m = m := by
    rcases hp with hp | rfl
    · linear_combination m * hp
    · ring
  linarith

theorem expect_le_mem {f g : K → K} : ∀ {xs ws : List K}, (∀ w ∈ ws, 0 ≤ w) → (∀ x ∈ xs, f x ≤ g x) →
    (List.zipWith (fun d w => w * f d) xs ws).sum ≤ (List.zipWith (fun d w => w * g d) xs ws).sum
  | [], _, _, _ => by simp
  | _ :: _, [], _, _ => by simp
  | x :: xs, w :: ws, hw, h => by
    rw [List.zipWith_cons_cons, List.zipWith_cons_cons, List.sum_cons, List.sum_cons]
    exact add_le_add (mul_le_mul_of_nonneg_left (h x (by simp)) (hw w (by simp)))
      (expect_le_mem (fun w hm => hw w (by simp [hm])) fun x hm => h x (by simp [hm]))

theorem expect_zero (xs ws : List K) : (List.zipWith (fun _ w => w * (0 : K)) xs ws).sum = 0 := by
  induction xs generalizing ws with
  | nil => simp
  | cons x xs ih => cases ws <;> simp_all

/-! ## Signs -/

theorem W_nonpos {e : Spec.Economy K} (hv : ValidBeliefs e) (hg : UnitGrid e.spec.exp_grid)
    (hflow : ∀ s x c shock, Spec.flow e s x c shock ≤ 0) :
    ∀ (r : Nat) (s : State) (x : K), Spec.W e r s x ≤ 0
  | 0, _, _ => le_rfl
  | r + 1, s, x => by
    have ih := W_nonpos hv hg hflow r
    unfold Spec.W
    refine (expect_le (g := fun _ => 0) hv.weights fun d => ?_).trans_eq (expect_zero _ _)
    have : ∀ c, Spec.flow e s x c (d * e.par.shock_sd) + e.par.delta * Spec.continuation e (Spec.W e r) s x c ≤ 0 := by
      intro c
      have := continuation_le_bound hv hg (x := x) (c := c) (s := s) (Or.inr rfl) (fun b q _ a _ => ih
        (Spec.successor e.spec.child_age_max s c b q) a)
      have := mul_nonpos_of_nonneg_of_nonpos hv.delta this
      linarith [hflow s x c (d * e.par.shock_sd)]
    exact max_le (max_le (this 0) (this 1)) (this 2)

theorem W_nonneg {e : Spec.Economy K} (hv : ValidBeliefs e) (hg : UnitGrid e.spec.exp_grid)
    (hflow : ∀ s x c shock, 0 ≤ Spec.flow e s x c shock) :
    ∀ (r : Nat) (s : State) (x : K), 0 ≤ Spec.W e r s x
  | 0, _, _ => le_rfl
  | r + 1, s, x => by
    have ih := W_nonneg hv hg hflow r
    unfold Spec.W
    refine (expect_zero _ _).symm.trans_le (expect_le (f := fun _ => 0) hv.weights fun d => ?_)
    have := bound_le_continuation hv hg (x := x) (c := 0) (s := s) (Or.inr rfl) (fun b q _ a _ => ih
      (Spec.successor e.spec.child_age_max s ((0 : Fin 3) : Nat) b q) a)
    have := mul_nonneg hv.delta this
    exact le_max_of_le_left (le_max_of_le_left (by
      show 0 ≤ Spec.flow e s x 0 _ + _
      linarith [hflow s x 0 (d * e.par.shock_sd)]))

theorem continuation_nonpos {e : Spec.Economy K} (hv : ValidBeliefs e) (hg : UnitGrid e.spec.exp_grid)
    (hflow : ∀ s x c shock, Spec.flow e s x c shock ≤ 0) (r : Nat) (s : State) (x : K) (c : Fin 3) :
    Spec.continuation e (Spec.W e r) s x c ≤ 0 :=
  continuation_le_bound hv hg (Or.inr rfl) fun _ _ _ a _ => W_nonpos hv hg hflow r _ a

theorem continuation_nonneg {e : Spec.Economy K} (hv : ValidBeliefs e) (hg : UnitGrid e.spec.exp_grid)
    (hflow : ∀ s x c shock, 0 ≤ Spec.flow e s x c shock) (r : Nat) (s : State) (x : K) (c : Fin 3) :
    0 ≤ Spec.continuation e (Spec.W e r) s x c :=
  bound_le_continuation hv hg (Or.inr rfl) fun _ _ _ a _ => W_nonneg hv hg hflow r _ a

/-! ## The discount factor -/

/-- The economy with another discount factor. -/
abbrev withDelta (e : Spec.Economy K) (d : K) : Spec.Economy K := { e with par := { e.par with delta := d } }

theorem multiplier_withDelta (par : ModelParams K) (d : K) (s : State) (c : Fin 3) :
    Spec.multiplier { par with delta := d } s c = Spec.multiplier par s c := by
  fin_cases c <;> rfl

theorem flow_withDelta (e : Spec.Economy K) (d : K) (s : State) (x : K) (c : Fin 3) (shock : K) :
    Spec.flow (withDelta e d) s x c shock = Spec.flow e s x c shock := by
  have hc : Spec.consumption (withDelta e d) s x c shock = Spec.consumption e s x c shock := by
    fin_cases c <;> rfl
  unfold Spec.flow
  rw [hc]
  show _ / e.par.mu * Spec.multiplier { e.par with delta := d } s c = _
  rw [multiplier_withDelta]

theorem continuation_withDelta {e : Spec.Economy K} (hv : ValidBeliefs e) (hg : UnitGrid e.spec.exp_grid) (d : K)
    {V V' : State → K → K} (s : State) (x : K) (c : Fin 3) (h : ∀ s a, V' s a ≤ V s a) :
    Spec.continuation (withDelta e d) V' s x c ≤ Spec.continuation e V s x c := by
  obtain ⟨y0, y1⟩ := stockNext_mem e s x c
  exact continuation_le_of (e := e) (e' := e) hv rfl (fun _ => rfl) fun birth q =>
    interp_le hg.sorted hg.nodes (by rw [hg.first]; exact y0) (y1.trans hg.last) fun a _ => h _ a

theorem continuation_withDelta' {e : Spec.Economy K} (hv : ValidBeliefs e) (hg : UnitGrid e.spec.exp_grid) (d : K)
    {V V' : State → K → K} (s : State) (x : K) (c : Fin 3) (h : ∀ s a, V s a ≤ V' s a) :
    Spec.continuation e V s x c ≤ Spec.continuation (withDelta e d) V' s x c := by
  obtain ⟨y0, y1⟩ := stockNext_mem e s x c
  exact continuation_le_of (e := e) (e' := e) hv rfl (fun _ => rfl) fun birth q =>
    interp_le hg.sorted hg.nodes (by rw [hg.first]; exact y0) (y1.trans hg.last) fun a _ => h _ a

theorem W_patience_nonpos {e : Spec.Economy K} (hv : ValidBeliefs e) (hg : UnitGrid e.spec.exp_grid)
    (hflow : ∀ s x c shock, Spec.flow e s x c shock ≤ 0) {d : K} (hd : e.par.delta ≤ d) :
    ∀ (r : Nat) (s : State) (x : K), Spec.W (withDelta e d) r s x ≤ Spec.W e r s x
  | 0, _, _ => le_rfl
  | r + 1, s, x => by
    have ih := W_patience_nonpos hv hg hflow hd r
    unfold Spec.W
    refine expect_le hv.weights fun z => best_le_of fun c => ?_
    rw [flow_withDelta]
    refine add_le_add le_rfl ?_
    have h1 := continuation_withDelta hv hg d s x c ih
    have h2 := continuation_nonpos hv hg hflow r s x c
    have h3 := mul_le_mul_of_nonneg_left h1 (hv.delta.trans hd)
    have h4 := mul_le_mul_of_nonpos_right hd h2
    exact h3.trans h4

theorem W_patience_nonneg {e : Spec.Economy K} (hv : ValidBeliefs e) (hg : UnitGrid e.spec.exp_grid)
    (hflow : ∀ s x c shock, 0 ≤ Spec.flow e s x c shock) {d : K} (hd : e.par.delta ≤ d) :
    ∀ (r : Nat) (s : State) (x : K), Spec.W e r s x ≤ Spec.W (withDelta e d) r s x
  | 0, _, _ => le_rfl
  | r + 1, s, x => by
    have ih := W_patience_nonneg hv hg hflow hd r
    unfold Spec.W
    refine expect_le hv.weights fun z => best_le_of fun c => ?_
    rw [flow_withDelta]
    refine add_le_add le_rfl ?_
    have h1 := continuation_withDelta' hv hg d s x c ih
    have h2 := continuation_nonneg hv hg hflow r s x c
    have h3 := mul_le_mul_of_nonneg_left h1 (hv.delta.trans hd)
    have h4 := mul_le_mul_of_nonneg_right hd h2
    exact h4.trans h3

/-! ## Bounds -/

theorem geometric_succ (δ : K) (r : Nat) :
    ((List.range (r + 1)).map (δ ^ ·)).sum = 1 + δ * ((List.range r).map (δ ^ ·)).sum := by
  rw [List.range_succ_eq_map, List.map_cons, List.sum_cons, List.map_map, ← List.sum_map_mul_left]
  congr 1
  · simp
  · congr 1
    refine List.map_congr_left fun k _ => ?_
    simp [pow_succ, mul_comm]

/-- Beliefs are probabilities, at the states of the model. -/
structure ProperBeliefs (e : Spec.Economy K) : Prop where
  ages : 0 ≤ e.spec.child_age_max
  partners : ∀ t educ now, t < e.spec.num_periods → educ < e.spec.num_educ_levels → now < 2 →
    e.partner t educ now 0 + e.partner t educ now 1 = 1
  weights : e.weights.sum = 1
  draws : e.draws.length = e.weights.length

theorem continuation_bounds {e : Spec.Economy K} (hv : ValidBeliefs e) (hg : UnitGrid e.spec.exp_grid)
    (hp : ProperBeliefs e) {V : State → K → K} {r : Nat} {m M : K}
    (ih : ∀ s : State, (0 < r → Spec.InRange e.spec s) → s.period + r ≤ e.spec.num_periods →
      ∀ x ∈ e.spec.exp_grid, m ≤ V s x ∧ V s x ≤ M) {s : State} (hs : Spec.InRange e.spec s)
    (ht : s.period + 1 + r ≤ e.spec.num_periods) (x : K) (c : Fin 3) :
    m ≤ Spec.continuation e V s x c ∧ Spec.continuation e V s x c ≤ M :=
  have hsum := hp.partners s.period s.educ s.partner hs.period hs.educ hs.partner
  have hn : ∀ b q, q < 2 → 0 < r → Spec.InRange e.spec (Spec.successor e.spec.child_age_max s c b q) :=
    fun _ _ hq hr => successor_inRange hs (by omega) c.isLt hq fun _ => hp.ages
  ⟨bound_le_continuation hv hg (Or.inl hsum) fun b q hq a ha =>
      (ih (Spec.successor e.spec.child_age_max s c b q) (hn b q hq) ht a ha).1,
    continuation_le_bound hv hg (Or.inl hsum) fun b q hq a ha =>
      (ih (Spec.successor e.spec.child_age_max s c b q) (hn b q hq) ht a ha).2⟩

/-- Values of `r` periods lie between `1 + δ + … + δ^(r-1)` times the bounds on flow utility. -/
theorem W_bounds {e : Spec.Economy K} (hv : ValidBeliefs e) (hg : UnitGrid e.spec.exp_grid)
    (hp : ProperBeliefs e) {m M : K}
    (hflow : ∀ s : State, Spec.InRange e.spec s → ∀ (c : Fin 3), ∀ x ∈ e.spec.exp_grid,
      ∀ d ∈ e.draws, m ≤ Spec.flow e s x c (d * e.par.shock_sd) ∧ Spec.flow e s x c (d * e.par.shock_sd) ≤ M) :
    ∀ (r : Nat) (s : State), (0 < r → Spec.InRange e.spec s) → s.period + r ≤ e.spec.num_periods →
      ∀ x ∈ e.spec.exp_grid,
      ((List.range r).map (e.par.delta ^ ·)).sum * m ≤ Spec.W e r s x ∧
        Spec.W e r s x ≤ ((List.range r).map (e.par.delta ^ ·)).sum * M
  | 0, _, _, _, _, _ => by simp [Spec.W]
  | r + 1, s, hin, ht, x, hx => by
    have hs := hin (Nat.succ_pos r)
    have ih := W_bounds hv hg hp hflow r
    have hc := fun c => continuation_bounds hv hg hp ih hs (by omega) x c
    rw [geometric_succ]
    set G := ((List.range r).map (e.par.delta ^ ·)).sum
    have hval : ∀ c, ∀ d ∈ e.draws,
        (1 + e.par.delta * G) * m ≤ Spec.flow e s x c (d * e.par.shock_sd)
          + e.par.delta * Spec.continuation e (Spec.W e r) s x c ∧
        Spec.flow e s x c (d * e.par.shock_sd) + e.par.delta * Spec.continuation e (Spec.W e r) s x c
          ≤ (1 + e.par.delta * G) * M := by
      intro c d hd
      obtain ⟨f1, f2⟩ := hflow s hs c x hx d hd
      obtain ⟨c1, c2⟩ := hc c
      have := mul_le_mul_of_nonneg_left c1 hv.delta
      have := mul_le_mul_of_nonneg_left c2 hv.delta
      constructor <;> linarith
    have hconst : ∀ v : K, (List.zipWith (fun _ w => w * v) e.draws e.weights).sum = v := by
      intro v; rw [zipWith_sum_const v hp.draws, hp.weights, one_mul]
    unfold Spec.W
    constructor
    · refine (hconst _).symm.trans_le (expect_le_mem (f := fun _ => _) hv.weights fun d hd => ?_)
      exact le_max_of_le_left (le_max_of_le_left (hval 0 d hd).1)
    · refine le_trans (expect_le_mem (g := fun _ => _) hv.weights fun d hd => ?_) (hconst _).le
      exact max_le (max_le (hval 0 d hd).2 (hval 1 d hd).2) (hval 2 d hd).2

end Soepy
