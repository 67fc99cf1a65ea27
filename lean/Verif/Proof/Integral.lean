import Verif.Spec.Integral
import Verif.Proof.GridError

/-! How far the values computed with draws and weights are from the values computed with another expectation. -/

set_option linter.unusedSectionVars false

namespace Soepy
variable {K : Type} [Field K] [LinearOrder K] [IsStrictOrderedRing K] [Transc K]

/-- Close values next period give close continuation values. -/
theorem continuation_close {e : Spec.Economy K} (hv : ValidBeliefs e) (hg : UnitGrid e.spec.exp_grid)
    (hp : ProperBeliefs e) {V V' : State → K → K} {s : State} (hs : Spec.InRange e.spec s) {D : K} {c : Fin 3}
    {x : K}
    (h : ∀ birth q, q < 2 → ∀ a ∈ e.spec.exp_grid, |V (Spec.successor e.spec.child_age_max s c birth q) a
      - V' (Spec.successor e.spec.child_age_max s c birth q) a| ≤ D) :
    |Spec.continuation e V s x c - Spec.continuation e V' s x c| ≤ D := by
  obtain ⟨y0, y1⟩ := stockNext_mem e s x c
  unfold Spec.continuation
  exact abs_mix (hv.birth0 _ _) (hv.birth1 _ _) (hv.partner _ _ _ _) (hv.partner _ _ _ _)
    (hp.partners _ _ _ hs.period hs.educ hs.partner) (u := fun b q => Spec.interp e.spec.exp_grid
      (V (Spec.successor e.spec.child_age_max s c b q)) (Spec.stockNext e s x c))
    (v := fun b q => Spec.interp e.spec.exp_grid
      (V' (Spec.successor e.spec.child_age_max s c b q)) (Spec.stockNext e s x c))
    fun b q hq => abs_interp hg y0 y1 (h b q hq)

/-- Close continuation values give close values of the best choice. -/
theorem best_close {e : Spec.Economy K} (hv : ValidBeliefs e) {V V' : State → K → K} {s : State} {x D shock : K}
    (h : ∀ c, |Spec.continuation e V s x c - Spec.continuation e V' s x c| ≤ D) :
    |Spec.best e V s x shock - Spec.best e V' s x shock| ≤ e.par.delta * D := by
  unfold Spec.best
  refine abs_max3 (a := fun c => Spec.flow e s x c shock + e.par.delta * Spec.continuation e V s x c)
    (b := fun c => Spec.flow e s x c shock + e.par.delta * Spec.continuation e V' s x c) ?_
  intro c
  rw [add_sub_add_left_eq_sub, ← mul_sub, abs_mul, abs_of_nonneg hv.delta]
  exact mul_le_mul_of_nonneg_left (h c) hv.delta

/-- The weighted sum that the solver computes, for the values next period of the other problem. -/
def drawSum (E : (K → K) → K) (e : Spec.Economy K) (r : Nat) (s : State) (x : K) : K :=
  (List.zipWith (fun d w => w * Spec.best e (Spec.valueW E e r) s x (d * e.par.shock_sd)) e.draws e.weights).sum

theorem integration_errors {E : (K → K) → K} {e : Spec.Economy K} (hv : ValidBeliefs e)
    (hg : UnitGrid e.spec.exp_grid) (hp : ProperBeliefs e) {ε : K}
    (hε : ∀ r (s : State), Spec.InRange e.spec s → s.period + (r + 1) = e.spec.num_periods → ∀ x ∈ e.spec.exp_grid,
      |drawSum E e r s x - Spec.valueW E e (r + 1) s x| ≤ ε) :
    ∀ (r : Nat) (s : State), Spec.InRange e.spec s → s.period + (r + 1) = e.spec.num_periods →
      (∀ x c, |Spec.continuation e (Spec.W e r) s x c - Spec.continuation e (Spec.valueW E e r) s x c|
        ≤ Spec.geometric e.par.delta r * ε) ∧
      ∀ x ∈ e.spec.exp_grid, |Spec.W e (r + 1) s x - Spec.valueW E e (r + 1) s x|
        ≤ Spec.geometric e.par.delta (r + 1) * ε := by
  have step : ∀ (r : Nat) (s : State), Spec.InRange e.spec s → s.period + (r + 1) = e.spec.num_periods →
      (∀ x c, |Spec.continuation e (Spec.W e r) s x c - Spec.continuation e (Spec.valueW E e r) s x c|
        ≤ Spec.geometric e.par.delta r * ε) →
      ∀ x ∈ e.spec.exp_grid, |Spec.W e (r + 1) s x - Spec.valueW E e (r + 1) s x|
        ≤ Spec.geometric e.par.delta (r + 1) * ε := by
    intro r s hs ht h x hx
    have h1 : |Spec.W e (r + 1) s x - drawSum E e r s x| ≤ e.par.delta * (Spec.geometric e.par.delta r * ε) := by
      unfold drawSum
      rw [Spec.W]
      exact abs_expect (f := fun d => Spec.best e (Spec.W e r) s x (d * e.par.shock_sd))
        (g := fun d => Spec.best e (Spec.valueW E e r) s x (d * e.par.shock_sd)) hv.weights hp.weights hp.draws
        fun d _ => best_close hv (h x)
    refine (abs_sub_le _ (drawSum E e r s x) _).trans ((add_le_add h1 (hε r s hs ht x hx)).trans_eq ?_)
    rw [geometric_step]
    ring
  intro r
  induction r with
  | zero =>
    intro s hs ht
    have h : ∀ x c, |Spec.continuation e (Spec.W e 0) s x c - Spec.continuation e (Spec.valueW E e 0) s x c|
        ≤ Spec.geometric e.par.delta 0 * ε := by
      intro x c
      have : Spec.W e 0 = Spec.valueW E e 0 := by
        funext s x
        rfl
      rw [this]
      simp [Spec.geometric]
    exact ⟨h, step 0 s hs ht h⟩
  | succ r ih =>
    intro s hs ht
    have h : ∀ x c, |Spec.continuation e (Spec.W e (r + 1)) s x c
        - Spec.continuation e (Spec.valueW E e (r + 1)) s x c| ≤ Spec.geometric e.par.delta (r + 1) * ε := by
      intro x c
      have hn : ∀ b q, q < 2 → Spec.InRange e.spec (Spec.successor e.spec.child_age_max s c b q) :=
        fun _ _ hq => successor_inRange hs (by omega) c.isLt hq fun _ => hp.ages
      have ht' : s.period + 1 + (r + 1) = e.spec.num_periods := by omega
      exact continuation_close hv hg hp hs fun b q hq a ha => (ih _ (hn b q hq) ht').2 a ha
    exact ⟨h, step (r + 1) s hs ht h⟩

end Soepy
