import Verif.Spec.Plans
import Verif.Proof.Patience

/-! Dynamic programming: the recursion over best choices is the best payoff over contingent plans. -/

set_option linter.unusedSectionVars false

namespace Soepy
variable {K : Type} [Field K] [LinearOrder K] [IsStrictOrderedRing K]

/-- A mean does not exceed the maximum. -/
theorem mean_le_max {p v : Fin 3 → K} (hp : ∀ c, 0 ≤ p c) (h1 : p 0 + p 1 + p 2 = 1) :
    p 0 * v 0 + p 1 * v 1 + p 2 * v 2 ≤ max (max (v 0) (v 1)) (v 2) := by
  set m := max (max (v 0) (v 1)) (v 2)
  have a0 : v 0 ≤ m := (le_max_left _ _).trans (le_max_left _ _)
  have a1 : v 1 ≤ m := (le_max_right _ _).trans (le_max_left _ _)
  have a2 : v 2 ≤ m := le_max_right _ _
  have b0 := mul_le_mul_of_nonneg_left a0 (hp 0)
  have b1 := mul_le_mul_of_nonneg_left a1 (hp 1)
  have b2 := mul_le_mul_of_nonneg_left a2 (hp 2)
  have : p 0 * m + p 1 * m + p 2 * m = m := by rw [← add_mul, ← add_mul, h1, one_mul]
  linarith

theorem firstBest_max (v : Fin 3 → K) : v (Spec.firstBest v) = max (max (v 0) (v 1)) (v 2) := by
  unfold Spec.firstBest
  split_ifs with h0 h1
  · rw [max_eq_left (h0 1), max_eq_left (h0 2)]
  · rw [max_eq_right (h1 0), max_eq_left (h1 2)]
  · have h2 : max (v 0) (v 1) ≤ v 2 := by
      rcases le_total (v 0) (v 1) with a | a
      · rw [max_eq_right a]
        by_contra hc
        refine h1 fun c => ?_
        fin_cases c
        · exact a
        · exact le_rfl
        · exact (not_le.1 hc).le
      · rw [max_eq_left a]
        by_contra hc
        refine h0 fun c => ?_
        fin_cases c
        · exact le_rfl
        · exact a
        · exact (not_le.1 hc).le
    exact (max_eq_right h2).symm

theorem pick_mean (v : Fin 3 → K) (k : Fin 3) :
    (if (0 : Fin 3) = k then (1 : K) else 0) * v 0 + (if (1 : Fin 3) = k then (1 : K) else 0) * v 1
      + (if (2 : Fin 3) = k then (1 : K) else 0) * v 2 = v k := by
  fin_cases k <;> simp

variable [Transc K]

/-- No plan is worth more than the recursion says. -/
theorem payoff_le {e : Spec.Economy K} (hv : ValidBeliefs e) (hg : UnitGrid e.spec.exp_grid) (σ : Spec.Plan K) :
    ∀ (r : Nat) (h : List (Spec.Event K)) (s : State) (x : K), Spec.payoff e σ r h s x ≤ Spec.W e r s x
  | 0, _, _, _ => le_rfl
  | r + 1, h, s, x => by
    unfold Spec.payoff Spec.W
    refine expect_le (f := fun draw => _) hv.weights fun d => ?_
    dsimp only
    refine (mean_le_max (v := fun c => Spec.flow e s x c (d * e.par.shock_sd) + e.par.delta * Spec.continuation e
      (Spec.payoff e σ r (Spec.Event.mk s x (d * e.par.shock_sd) :: h)) s x c) (σ.nonneg _) (σ.total _)).trans ?_
    unfold Spec.best
    have key : ∀ c : Fin 3, Spec.flow e s x c (d * e.par.shock_sd) + e.par.delta * Spec.continuation e
          (Spec.payoff e σ r (Spec.Event.mk s x (d * e.par.shock_sd) :: h)) s x c
        ≤ Spec.flow e s x c (d * e.par.shock_sd) + e.par.delta * Spec.continuation e (Spec.W e r) s x c := by
      intro c
      refine add_le_add_right (mul_le_mul_of_nonneg_left ?_ hv.delta) _
      refine continuation_le_of hv rfl (fun _ => rfl) fun birth q => ?_
      obtain ⟨y0, y1⟩ := stockNext_mem e s x c
      exact interp_le hg.sorted hg.nodes (by rw [hg.first]; exact y0) (y1.trans hg.last) fun a _ =>
        payoff_le hv hg σ r _ _ a
    exact max_le_max (max_le_max (key 0) (key 1)) (key 2)

theorem continuation_payoff_le {e : Spec.Economy K} (hv : ValidBeliefs e) (hg : UnitGrid e.spec.exp_grid)
    (σ : Spec.Plan K) (r : Nat) (h : List (Spec.Event K)) (s : State) (x : K) (c : Fin 3) :
    Spec.continuation e (Spec.payoff e σ r h) s x c ≤ Spec.continuation e (Spec.W e r) s x c := by
  refine continuation_le_of hv rfl (fun _ => rfl) fun birth q => ?_
  obtain ⟨y0, y1⟩ := stockNext_mem e s x c
  exact interp_le hg.sorted hg.nodes (by rw [hg.first]; exact y0) (y1.trans hg.last) fun a _ =>
    payoff_le hv hg σ r _ _ a

/-- A continuation value depends on the values of successors only. -/
theorem continuation_congr {e : Spec.Economy K} {V V' : State → K → K} {s : State}
    (h : ∀ s', s'.period = s.period + 1 → V s' = V' s') (x : K) (c : Fin 3) :
    Spec.continuation e V s x c = Spec.continuation e V' s x c := by
  unfold Spec.continuation
  dsimp only
  rw [h _ rfl, h _ rfl, h _ rfl, h _ rfl]

/-- The rule read off the solution is worth exactly what the recursion says, whatever happened before. -/
theorem payoff_rule (e : Spec.Economy K) (T : Nat) :
    ∀ (r : Nat) (h : List (Spec.Event K)) (s : State) (x : K), s.period + r = T →
      Spec.payoff e (Spec.Plan.ofRule (Spec.solutionRule e T)) r h s x = Spec.W e r s x
  | 0, _, _, _, _ => rfl
  | r + 1, h, s, x, ht => by
    unfold Spec.payoff Spec.W
    congr 1
    congr 1
    funext d w
    dsimp only
    congr 1
    have hc : ∀ c : Fin 3, Spec.continuation e (Spec.payoff e (Spec.Plan.ofRule (Spec.solutionRule e T)) r
        (Spec.Event.mk s x (d * e.par.shock_sd) :: h)) s x c = Spec.continuation e (Spec.W e r) s x c := by
      intro c
      refine continuation_congr (fun s' hs' => ?_) x c
      funext y
      exact payoff_rule e T r _ s' y (by omega)
    rw [hc, hc, hc]
    have hT : T - (s.period + 1) = r := by omega
    refine (pick_mean (fun c => Spec.flow e s x c (d * e.par.shock_sd)
      + e.par.delta * Spec.continuation e (Spec.W e r) s x c)
      (Spec.solutionRule e T s x (d * e.par.shock_sd))).trans ?_
    unfold Spec.solutionRule Spec.best
    rw [hT]
    exact firstBest_max fun c => Spec.flow e s x c (d * e.par.shock_sd)
      + e.par.delta * Spec.continuation e (Spec.W e r) s x c

theorem continuation_payoff_rule (e : Spec.Economy K) (T : Nat) {r : Nat} (h : List (Spec.Event K)) {s : State}
    (hs : s.period + 1 + r = T) (x : K) (c : Fin 3) :
    Spec.continuation e (Spec.payoff e (Spec.Plan.ofRule (Spec.solutionRule e T)) r h) s x c
      = Spec.continuation e (Spec.W e r) s x c := by
  refine continuation_congr (fun s' hs' => ?_) x c
  funext y
  exact payoff_rule e T r _ s' y (by omega)

end Soepy
