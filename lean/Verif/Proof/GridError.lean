import Verif.Spec.Exact
import Verif.Proof.Patience

/-! How far the values on the experience grid are from the values without a grid. -/

set_option linter.unusedSectionVars false

namespace Soepy
variable {K : Type} [Field K] [LinearOrder K] [IsStrictOrderedRing K] [Transc K]

theorem abs_max3 {a b : Fin 3 → K} {D : K} (h : ∀ c, |a c - b c| ≤ D) :
    |max (max (a 0) (a 1)) (a 2) - max (max (b 0) (b 1)) (b 2)| ≤ D :=
  (abs_max_sub_max_le_max _ _ _ _).trans
    (max_le ((abs_max_sub_max_le_max _ _ _ _).trans (max_le (h 0) (h 1))) (h 2))

theorem abs_expect {f g : K → K} {xs ws : List K} {D : K} (hw : ∀ w ∈ ws, 0 ≤ w) (hsum : ws.sum = 1)
    (hl : xs.length = ws.length) (h : ∀ x ∈ xs, |f x - g x| ≤ D) :
    |(List.zipWith (fun d w => w * f d) xs ws).sum - (List.zipWith (fun d w => w * g d) xs ws).sum| ≤ D := by
  have key : ∀ {f g : K → K}, (∀ x ∈ xs, |f x - g x| ≤ D) →
      (List.zipWith (fun d w => w * f d) xs ws).sum ≤ (List.zipWith (fun d w => w * g d) xs ws).sum + D := by
    intro f g h
    have := expect_le_mem (f := f) (g := fun d => g d + D) hw fun x hx => by linarith [(abs_le.1 (h x hx)).2]
    simp only [mul_add] at this
    rw [zipWith_sum_add (fun d w => w * g d) (fun _ w => w * D), zipWith_sum_const D hl, hsum, one_mul] at this
    exact this
  have h1 := key h
  have h2 := key fun x hx => by rw [abs_sub_comm]; exact h x hx
  rw [abs_le]
  constructor <;> linarith

theorem abs_mix {b p0 p1 D : K} (hb0 : 0 ≤ b) (hb1 : b ≤ 1) (h0 : 0 ≤ p0) (h1 : 0 ≤ p1) (hp : p0 + p1 = 1)
    {u v : Bool → Nat → K} (h : ∀ birth q, q < 2 → |u birth q - v birth q| ≤ D) :
    |((1 - b) * p0 * u false 0 + (1 - b) * p1 * u false 1 + b * p0 * u true 0 + b * p1 * u true 1)
      - ((1 - b) * p0 * v false 0 + (1 - b) * p1 * v false 1 + b * p0 * v true 0 + b * p1 * v true 1)| ≤ D := by
  have key : ∀ {u v : Bool → Nat → K}, (∀ birth q, q < 2 → |u birth q - v birth q| ≤ D) →
      (1 - b) * p0 * u false 0 + (1 - b) * p1 * u false 1 + b * p0 * u true 0 + b * p1 * u true 1
      ≤ (1 - b) * p0 * v false 0 + (1 - b) * p1 * v false 1 + b * p0 * v true 0 + b * p1 * v true 1 + D := by
    intro u v h
    have hD : (1 - b) * p0 * D + (1 - b) * p1 * D + b * p0 * D + b * p1 * D = D := by linear_combination D * hp
    have hb := sub_nonneg.2 hb1
    have e1 := mul_le_mul_of_nonneg_left (abs_le.1 (h false 0 (by omega))).2 (mul_nonneg hb h0)
    have e2 := mul_le_mul_of_nonneg_left (abs_le.1 (h false 1 (by omega))).2 (mul_nonneg hb h1)
    have e3 := mul_le_mul_of_nonneg_left (abs_le.1 (h true 0 (by omega))).2 (mul_nonneg hb0 h0)
    have e4 := mul_le_mul_of_nonneg_left (abs_le.1 (h true 1 (by omega))).2 (mul_nonneg hb0 h1)
    linarith
  have h1 := key h
  have h2 := key fun birth q hq => by rw [abs_sub_comm]; exact h birth q hq
  rw [abs_le]
  constructor <;> linarith

theorem abs_interp {grid : List K} (hg : UnitGrid grid) {y : K} (h0 : 0 ≤ y) (h1 : y ≤ 1) {f f' : K → K} {D : K}
    (h : ∀ a ∈ grid, |f a - f' a| ≤ D) : |Spec.interp grid f y - Spec.interp grid f' y| ≤ D := by
  obtain ⟨i, w, hi, hw0, hw1, hw⟩ := linearInterp1d_weights hg.sorted hg.nodes (y := y) (by rw [hg.first]; exact h0)
    (h1.trans hg.last)
  rw [← linearInterp1d_eq_interp hg.sorted hg.nodes, ← linearInterp1d_eq_interp hg.sorted hg.nodes,
    hw _ (by simp), hw _ (by simp)]
  have hi' : i < grid.length := by omega
  rw [getD_of_lt (by simpa using hi'), getD_of_lt (by simpa using hi), getD_of_lt (by simpa using hi'),
    getD_of_lt (by simpa using hi)]
  simp only [List.getElem_map]
  have a := abs_le.1 (h _ (List.getElem_mem hi'))
  have b := abs_le.1 (h _ (List.getElem_mem hi))
  rw [abs_le]
  constructor <;> nlinarith

theorem geometric_step (δ : K) (r : Nat) : Spec.geometric δ (r + 1) = 1 + δ * Spec.geometric δ r :=
  geometric_succ δ r

theorem geometric_nonneg {δ : K} (h : 0 ≤ δ) : ∀ r, 0 ≤ Spec.geometric δ r
  | 0 => by simp [Spec.geometric]
  | r + 1 => by
    rw [geometric_step]
    have := mul_nonneg h (geometric_nonneg h r)
    linarith

theorem geometric_le {δ : K} (h : 0 ≤ δ) {r n : Nat} (hrn : r ≤ n) : Spec.geometric δ r ≤ Spec.geometric δ n := by
  induction n generalizing r with
  | zero => obtain rfl : r = 0 := by omega
            exact le_rfl
  | succ n ih =>
    cases r with
    | zero => rw [show Spec.geometric δ 0 = 0 by simp [Spec.geometric]]; exact geometric_nonneg h _
    | succ r =>
      rw [geometric_step, geometric_step]
      have := mul_le_mul_of_nonneg_left (ih (r := r) (by omega)) h
      linarith

/-- Error of one continuation value: the error of the values next period and the error of interpolating the exact
values. -/
theorem continuation_error {e : Spec.Economy K} (hv : ValidBeliefs e) (hg : UnitGrid e.spec.exp_grid)
    (hp : ProperBeliefs e) {V V' : State → K → K} {s : State} (hs : Spec.InRange e.spec s) {D ε : K} {c : Fin 3}
    {x : K}
    (h : ∀ birth q, q < 2 → ∀ a ∈ e.spec.exp_grid, |V (Spec.successor e.spec.child_age_max s c birth q) a
      - V' (Spec.successor e.spec.child_age_max s c birth q) a| ≤ D)
    (hε : ∀ birth q, q < 2 → ∀ y, 0 ≤ y → y ≤ 1 →
      |Spec.interp e.spec.exp_grid (V' (Spec.successor e.spec.child_age_max s c birth q)) y
        - V' (Spec.successor e.spec.child_age_max s c birth q) y| ≤ ε) :
    |Spec.continuation e V s x c - Spec.exactContinuation e V' s x c| ≤ D + ε := by
  obtain ⟨y0, y1⟩ := stockNext_mem e s x c
  unfold Spec.continuation Spec.exactContinuation
  refine abs_mix (hv.birth0 _ _) (hv.birth1 _ _) (hv.partner _ _ _ _) (hv.partner _ _ _ _)
    (hp.partners _ _ _ hs.period hs.educ hs.partner) (u := fun b q => Spec.interp e.spec.exp_grid
      (V (Spec.successor e.spec.child_age_max s c b q)) (Spec.stockNext e s x c))
    (v := fun b q => V' (Spec.successor e.spec.child_age_max s c b q) (Spec.stockNext e s x c)) ?_
  intro b q hq
  refine (abs_sub_le _ (Spec.interp e.spec.exp_grid (V' (Spec.successor e.spec.child_age_max s c b q))
    (Spec.stockNext e s x c)) _).trans (add_le_add ?_ (hε b q hq _ y0 y1))
  exact abs_interp hg y0 y1 (h b q hq)

/-- Error of the value of a state, from the errors of its continuation values. -/
theorem exactW_error_step {e : Spec.Economy K} (hv : ValidBeliefs e) (hp : ProperBeliefs e) {r : Nat} {s : State}
    {x D : K} (h : ∀ c, |Spec.continuation e (Spec.W e r) s x c
      - Spec.exactContinuation e (Spec.exactW e r) s x c| ≤ D) :
    |Spec.W e (r + 1) s x - Spec.exactW e (r + 1) s x| ≤ e.par.delta * D := by
  unfold Spec.W Spec.exactW Spec.best
  refine abs_expect hv.weights hp.weights hp.draws fun d _ => abs_max3
    (a := fun c => Spec.flow e s x c (d * e.par.shock_sd) + e.par.delta * Spec.continuation e (Spec.W e r) s x c)
    (b := fun c => Spec.flow e s x c (d * e.par.shock_sd)
      + e.par.delta * Spec.exactContinuation e (Spec.exactW e r) s x c) ?_
  intro c
  rw [add_sub_add_left_eq_sub, ← mul_sub, abs_mul, abs_of_nonneg hv.delta]
  exact mul_le_mul_of_nonneg_left (h c) hv.delta

theorem exact_errors {e : Spec.Economy K} (hv : ValidBeliefs e) (hg : UnitGrid e.spec.exp_grid)
    (hp : ProperBeliefs e) {ε : K}
    (hε : ∀ r (s : State), Spec.InRange e.spec s → s.period + r = e.spec.num_periods → ∀ y, 0 ≤ y → y ≤ 1 →
      |Spec.interp e.spec.exp_grid (Spec.exactW e r s) y - Spec.exactW e r s y| ≤ ε) :
    ∀ (r : Nat) (s : State), Spec.InRange e.spec s → s.period + (r + 1) = e.spec.num_periods → ∀ x,
      (∀ c, |Spec.continuation e (Spec.W e r) s x c - Spec.exactContinuation e (Spec.exactW e r) s x c|
        ≤ Spec.geometric e.par.delta r * ε) ∧
      |Spec.W e (r + 1) s x - Spec.exactW e (r + 1) s x|
        ≤ e.par.delta * (Spec.geometric e.par.delta r * ε)
  | 0, s, hs, _, x => by
    have h : ∀ c, |Spec.continuation e (Spec.W e 0) s x c - Spec.exactContinuation e (Spec.exactW e 0) s x c|
        ≤ Spec.geometric e.par.delta 0 * ε := by
      intro c
      rw [W_zero, continuation_zero]
      simp [Spec.exactContinuation, Spec.exactW, Spec.geometric]
    exact ⟨h, exactW_error_step hv hp h⟩
  | r + 1, s, hs, ht, x => by
    have h : ∀ c, |Spec.continuation e (Spec.W e (r + 1)) s x c
        - Spec.exactContinuation e (Spec.exactW e (r + 1)) s x c| ≤ Spec.geometric e.par.delta (r + 1) * ε := by
      intro c
      have hn : ∀ b q, q < 2 → Spec.InRange e.spec (Spec.successor e.spec.child_age_max s c b q) :=
        fun _ _ hq => successor_inRange hs (by omega) c.isLt hq fun _ => hp.ages
      have ht' : s.period + 1 + (r + 1) = e.spec.num_periods := by omega
      refine (continuation_error hv hg hp hs
        (fun b q hq a _ => (exact_errors hv hg hp hε r _ (hn b q hq) ht' a).2)
        (fun b q hq => hε (r + 1) _ (hn b q hq) ht')).trans_eq ?_
      rw [geometric_step]; ring
    exact ⟨h, exactW_error_step hv hp h⟩

/-! ## Interpolation errors -/

/-- A value between two nodes is a mean of the values there. -/
theorem interp_between {grid : List K} (hg : UnitGrid grid) {y : K} (h0 : 0 ≤ y) (h1 : y ≤ 1) (f : K → K) :
    ∃ (i : Nat) (hi : i + 1 < grid.length) (w : K), 0 ≤ w ∧ w ≤ 1 ∧ grid[i] ≤ y ∧ y ≤ grid[i + 1] ∧
      Spec.interp grid f y = (1 - w) * f grid[i] + w * f grid[i + 1] := by
  obtain ⟨i, hi, ha, hb⟩ := exists_segment hg.nodes (x := y) (by rw [hg.first]; exact h0) (h1.trans hg.last)
  have hlt := pairwise_get_lt hg.sorted hi (Nat.lt_succ_self i)
  refine ⟨i, hi, (y - grid[i]) / (grid[i + 1] - grid[i]), div_nonneg (sub_nonneg.2 ha) (sub_pos.2 hlt).le, ?_, ha, hb,
    ?_⟩
  · rw [div_le_one (sub_pos.2 hlt)]; linarith
  · rw [← linearInterp1d_eq_interp hg.sorted hg.nodes, linearInterp1d_between hg.sorted (by simp) hi ha hb]
    unfold Spec.line
    simp only [List.getElem_map]
    ring

/-- Interpolation of an increasing function is off by at most the largest rise between neighbouring nodes. -/
theorem interp_error_mono {grid : List K} (hg : UnitGrid grid) {f : K → K} {J : K}
    (hf : ∀ x y, 0 ≤ x → x ≤ y → f x ≤ f y)
    (hJ : ∀ i (a b : K), grid[i]? = some a → grid[i + 1]? = some b → f b - f a ≤ J) {y : K} (h0 : 0 ≤ y) (h1 : y ≤ 1) :
    |Spec.interp grid f y - f y| ≤ J := by
  obtain ⟨i, hi, w, hw0, hw1, ha, hb, he⟩ := interp_between hg h0 h1 f
  have hJ' := hJ i _ _ (List.getElem?_eq_getElem (by omega)) (List.getElem?_eq_getElem hi)
  have hi0 : 0 ≤ grid[i] := by
    have := pairwise_get_le hg.sorted (j := i) (by omega) (Nat.zero_le i)
    rw [hg.first] at this; exact this
  have fa := hf _ _ hi0 ha
  have fb := hf _ _ h0 hb
  rw [he, abs_le]
  constructor <;> nlinarith

/-- Interpolation of a function with slopes of at most `L` is off by at most `L` times the mesh of the grid. -/
theorem interp_error_lipschitz {grid : List K} (hg : UnitGrid grid) {f : K → K} {L h X : K} (hL : 0 ≤ L)
    (hX : ∀ a ∈ grid, a ≤ X)
    (hf : ∀ x y, 0 ≤ x → x ≤ X → 0 ≤ y → y ≤ X → |f x - f y| ≤ L * |x - y|) (hm : Spec.MeshAtMost grid h) {y : K}
    (h0 : 0 ≤ y) (h1 : y ≤ 1) : |Spec.interp grid f y - f y| ≤ L * h := by
  obtain ⟨i, hi, w, hw0, hw1, ha, hb, he⟩ := interp_between hg h0 h1 f
  have hm' := hm i _ _ (List.getElem?_eq_getElem (by omega)) (List.getElem?_eq_getElem hi)
  have hi0 : 0 ≤ grid[i] := by
    have := pairwise_get_le hg.sorted (j := i) (by omega) (Nat.zero_le i)
    rw [hg.first] at this; exact this
  have hyX : y ≤ X := hb.trans (hX _ (List.getElem_mem hi))
  have fa := hf grid[i] y hi0 (ha.trans hyX) h0 hyX
  have fb := hf grid[i + 1] y (h0.trans hb) (hX _ (List.getElem_mem hi)) h0 hyX
  have ga : L * |grid[i] - y| ≤ L * h := by
    refine mul_le_mul_of_nonneg_left ?_ hL
    rw [abs_sub_comm, abs_of_nonneg (sub_nonneg.2 ha)]; linarith
  have gb : L * |grid[i + 1] - y| ≤ L * h := by
    refine mul_le_mul_of_nonneg_left ?_ hL
    rw [abs_of_nonneg (sub_nonneg.2 hb)]; linarith
  have fa' := abs_le.1 (fa.trans ga)
  have fb' := abs_le.1 (fb.trans gb)
  rw [he, abs_le]
  constructor <;> nlinarith

/-! ## The exact values -/

theorem exactContinuation_le {e : Spec.Economy K} (hv : ValidBeliefs e) {V : State → K → K} {s : State} {x y : K}
    {c : Fin 3} (h : ∀ birth q, V (Spec.successor e.spec.child_age_max s c birth q) (Spec.stockNext e s x c)
      ≤ V (Spec.successor e.spec.child_age_max s c birth q) (Spec.stockNext e s y c)) :
    Spec.exactContinuation e V s x c ≤ Spec.exactContinuation e V s y c := by
  unfold Spec.exactContinuation
  have b0 := hv.birth0 s.period s.educ
  have b1 := sub_nonneg.2 (hv.birth1 s.period s.educ)
  have p0 := hv.partner s.period s.educ s.partner 0
  have p1 := hv.partner s.period s.educ s.partner 1
  refine add_le_add (add_le_add (add_le_add ?_ ?_) ?_) ?_
  · exact mul_le_mul_of_nonneg_left (h false 0) (mul_nonneg b1 p0)
  · exact mul_le_mul_of_nonneg_left (h false 1) (mul_nonneg b1 p1)
  · exact mul_le_mul_of_nonneg_left (h true 0) (mul_nonneg b0 p0)
  · exact mul_le_mul_of_nonneg_left (h true 1) (mul_nonneg b0 p1)

/-- Exact values do not fall in experience if flow utility does not. -/
theorem exactW_mono {e : Spec.Economy K} (hv : ValidBeliefs e)
    (hflow : ∀ s x y c shock, 0 ≤ x → x ≤ y → Spec.flow e s x c shock ≤ Spec.flow e s y c shock) :
    ∀ (r : Nat) (s : State) (x y : K), 0 ≤ x → x ≤ y → Spec.exactW e r s x ≤ Spec.exactW e r s y
  | 0, _, _, _, _, _ => le_rfl
  | r + 1, s, x, y, hx, hxy => by
    unfold Spec.exactW
    have h : ∀ (c : Fin 3) (d : K), Spec.flow e s x c (d * e.par.shock_sd)
        + e.par.delta * Spec.exactContinuation e (Spec.exactW e r) s x c
        ≤ Spec.flow e s y c (d * e.par.shock_sd)
          + e.par.delta * Spec.exactContinuation e (Spec.exactW e r) s y c := fun c d =>
      add_le_add (hflow s x y c _ hx hxy) (mul_le_mul_of_nonneg_left (exactContinuation_le hv fun b q =>
        exactW_mono hv hflow r _ _ _ (stockNext_mem e s x c).1 (stockNext_mono e s c hxy)) hv.delta)
    exact expect_le hv.weights fun d => max_le_max (max_le_max (h 0 d) (h 1 d)) (h 2 d)

/-- Exact values do not depend on experience if flow utility does not. -/
theorem exactW_flat {e : Spec.Economy K}
    (hflow : ∀ s x y c shock, Spec.flow e s x c shock = Spec.flow e s y c shock) :
    ∀ (r : Nat) (s : State) (x y : K), Spec.exactW e r s x = Spec.exactW e r s y
  | 0, _, _, _ => rfl
  | r + 1, s, x, y => by
    unfold Spec.exactW Spec.exactContinuation
    simp only [hflow s x y, fun s' c => exactW_flat hflow r s' (Spec.stockNext e s x c) (Spec.stockNext e s y c)]

theorem stockNext_lipschitz (e : Spec.Economy K) (s : State) (c : Nat) (x y : K) :
    |Spec.stockNext e s x c - Spec.stockNext e s y c| ≤ |x - y| := by
  unfold Spec.stockNext
  dsimp only
  set pt := Spec.ptIncrement e.par e.biased s
  have h1 := mostYears_nonneg (pt := pt) (Nat.cast_nonneg (α := K) e.spec.init_exp_max) s.period
  have h2 : Spec.mostYears (e.spec.init_exp_max : K) pt (s.period + 1)
      = Spec.mostYears (e.spec.init_exp_max : K) pt s.period + max 1 pt := rfl
  rw [h2]
  set m := Spec.mostYears (e.spec.init_exp_max : K) pt s.period
  have h3 : (1 : K) ≤ max 1 pt := le_max_left _ _
  refine (abs_min_sub_min_le_max _ _ _ _).trans (max_le ((abs_max_sub_max_le_max _ _ _ _).trans (max_le ?_ ?_)) ?_)
  · rw [← sub_div, add_sub_add_right_eq_sub, ← sub_mul, abs_div, abs_mul, abs_of_nonneg h1,
      abs_of_pos (show (0 : K) < m + max 1 pt by linarith), div_le_iff₀ (by linarith)]
    exact mul_le_mul_of_nonneg_left (by linarith) (abs_nonneg _)
  · simp
  · simp

/-- Exact values with `r` periods to go have slopes of at most `1 + δ + … + δ^(r-1)` times those of flow utility. -/
theorem exactW_lipschitz {e : Spec.Economy K} (hv : ValidBeliefs e) (hp : ProperBeliefs e) {L X : K}
    (hX : 1 ≤ X) (hL : 0 ≤ L)
    (hflow : ∀ s : State, Spec.InRange e.spec s → ∀ (c : Fin 3), ∀ d ∈ e.draws, ∀ x y, 0 ≤ x → x ≤ X → 0 ≤ y →
      y ≤ X → |Spec.flow e s x c (d * e.par.shock_sd) - Spec.flow e s y c (d * e.par.shock_sd)| ≤ L * |x - y|) :
    ∀ (r : Nat) (s : State), (0 < r → Spec.InRange e.spec s) → s.period + r = e.spec.num_periods →
      ∀ x y, 0 ≤ x → x ≤ X → 0 ≤ y → y ≤ X →
      |Spec.exactW e r s x - Spec.exactW e r s y| ≤ Spec.geometric e.par.delta r * L * |x - y|
  | 0, _, _, _, _, _, _, _, _, _ => by simp [Spec.exactW, Spec.geometric]
  | r + 1, s, hs, ht, x, y, hx, hx1, hy, hy1 => by
    have hs := hs (Nat.succ_pos r)
    have hn : ∀ (c : Fin 3) b q, q < 2 → 0 < r →
        Spec.InRange e.spec (Spec.successor e.spec.child_age_max s c b q) :=
      fun c _ _ hq hr => successor_inRange hs (by omega) c.isLt hq fun _ => hp.ages
    have hc : ∀ c : Fin 3, |Spec.exactContinuation e (Spec.exactW e r) s x c
        - Spec.exactContinuation e (Spec.exactW e r) s y c| ≤ Spec.geometric e.par.delta r * L * |x - y| := by
      intro c
      unfold Spec.exactContinuation
      refine abs_mix (hv.birth0 _ _) (hv.birth1 _ _) (hv.partner _ _ _ _) (hv.partner _ _ _ _)
        (hp.partners _ _ _ hs.period hs.educ hs.partner)
        (u := fun b q => Spec.exactW e r (Spec.successor e.spec.child_age_max s c b q) (Spec.stockNext e s x c))
        (v := fun b q => Spec.exactW e r (Spec.successor e.spec.child_age_max s c b q) (Spec.stockNext e s y c)) ?_
      intro b q hq
      have m1 := stockNext_mem e s x c
      have m2 := stockNext_mem e s y c
      refine (exactW_lipschitz hv hp hX hL hflow r _ (hn c b q hq) (by show s.period + 1 + r = _; omega) _ _ m1.1
        (m1.2.trans hX) m2.1 (m2.2.trans hX)).trans ?_
      exact mul_le_mul_of_nonneg_left (stockNext_lipschitz e s c x y)
        (mul_nonneg (geometric_nonneg hv.delta r) hL)
    unfold Spec.exactW
    refine abs_expect hv.weights hp.weights hp.draws fun d hd => abs_max3
      (a := fun c => Spec.flow e s x c (d * e.par.shock_sd)
        + e.par.delta * Spec.exactContinuation e (Spec.exactW e r) s x c)
      (b := fun c => Spec.flow e s y c (d * e.par.shock_sd)
        + e.par.delta * Spec.exactContinuation e (Spec.exactW e r) s y c) ?_
    intro c
    have h1 := hflow s hs c d hd x y hx hx1 hy hy1
    have h2 := mul_le_mul_of_nonneg_left (hc c) hv.delta
    rw [← abs_of_nonneg hv.delta, ← abs_mul, abs_of_nonneg hv.delta, mul_sub] at h2
    rw [add_sub_add_comm]
    refine (abs_add_le _ _).trans ((add_le_add h1 h2).trans_eq ?_)
    rw [geometric_step]; ring

end Soepy
