import Verif.Proof.Rounded

/-! Compensated summation (Python's `sum` from version 3.12 on). -/

set_option linter.unusedSectionVars false

namespace Soepy
variable {K : Type} [Field K] [LinearOrder K] [IsStrictOrderedRing K] [FloorRing K]
variable {p : ℕ}

open Spec (IsNumber)

/-- The difference of two numbers, the larger at most twice the smaller, is a number. -/
theorem isNumber_sub (hp : 1 ≤ p) {a t : K} (ha : IsNumber p a) (ht : IsNumber p t) (ha0 : 0 < a) (h1 : a ≤ t)
    (h2 : t ≤ 2 * a) :
    (∃ E k : ℤ, t - a = k * 2 ^ E ∧ 2 ^ (E + ((p : ℤ) - 1)) ≤ a) ∧ IsNumber p (t - a) := by
  have hl := log_le ha0.ne'
  have hu := lt_log a
  rw [abs_of_pos ha0] at hl hu
  set L := Int.log 2 a
  obtain ⟨m, hm⟩ := ha.multiple hl hp
  obtain ⟨k, hk⟩ := ht.multiple (hl.trans h1) hp
  set E := L - ((p : ℤ) - 1)
  have hE : (0 : K) < 2 ^ E := two_zpow_pos E
  have hd : t - a = ((k - m : ℤ) : K) * 2 ^ E := by rw [hk, hm]; push_cast; ring
  refine ⟨⟨E, k - m, hd, by rw [show E + ((p : ℤ) - 1) = L by simp [E]]; exact hl⟩, k - m, E, ?_, hd⟩
  have h3 : (0 : K) ≤ ((k - m : ℤ) : K) * 2 ^ E := by rw [← hd]; linarith
  have h4 : (0 : K) ≤ ((k - m : ℤ) : K) := nonneg_of_mul_nonneg_left h3 hE
  have h4' : 0 ≤ k - m := by exact_mod_cast h4
  have h5 : ((k - m : ℤ) : K) * 2 ^ E ≤ (2 : K) ^ (L + 1) := by rw [← hd]; linarith
  have h6 : (2 : K) ^ (L + 1) = 2 ^ p * 2 ^ E := by
    rw [← zpow_natCast, ← zpow_add₀ (by norm_num : (2 : K) ≠ 0)]; congr 1; simp [E]; ring
  rw [h6] at h5
  have h7 : ((k - m : ℤ) : K) ≤ 2 ^ p := le_of_mul_le_mul_right h5 hE
  rw [abs_of_nonneg h4']
  exact_mod_cast h7

/-- The error of a rounded sum is computed without error. -/
theorem sum_error (hp : 1 ≤ p) {a x : K} (ha : IsNumber p a) (hx : IsNumber p x) (hx0 : 0 ≤ x) (hxa : x ≤ a) :
    binary p (binary p (a - binary p (a + x)) + x) = a + x - binary p (a + x) := by
  rcases hx0.eq_or_lt with rfl | hx0
  · simp [ha.fixed hp]
  have ha0 : 0 < a := hx0.trans_le hxa
  set t := binary p (a + x) with ht
  have htn : IsNumber p t := isNumber_binary _
  have h2a : IsNumber p (2 * a) := by
    obtain ⟨m, e, hm, rfl⟩ := ha
    refine ⟨m, e + 1, hm, ?_⟩
    rw [zpow_add₀ (by norm_num : (2 : K) ≠ 0), zpow_one]; ring
  have h1 : a ≤ t := le_binary_of_le hp ha (by linarith)
  have h2 : t ≤ 2 * a := binary_le_of_le hp h2a (by linarith)
  obtain ⟨⟨E, k, hk, hE⟩, hd⟩ := isNumber_sub hp ha htn ha0 h1 h2
  have e1 : binary p (a - t) = a - t := by
    have := hd.neg.fixed hp
    rwa [neg_sub] at this
  rw [e1]
  have e2 : a - t + x = a + x - t := by ring
  rw [e2]
  refine Spec.IsNumber.fixed hp ?_
  -- the error is a multiple of the unit of `x`, and at most `x`
  have hbound : |a + x - t| ≤ x := by
    have := binary_nearest hp (a + x) ha
    rw [abs_sub_comm]
    refine this.trans ?_
    rw [show a - (a + x) = -x by ring, abs_neg, abs_of_pos hx0]
  have hl := log_le hx0.ne'
  have hu := lt_log x
  rw [abs_of_pos hx0] at hl hu
  set L := Int.log 2 x
  obtain ⟨m, hm⟩ := hx.multiple hl hp
  have hLE : L - ((p : ℤ) - 1) ≤ L := by omega
  -- `t - a` is a multiple of the unit of `x`
  obtain ⟨ka, hka⟩ := ha.multiple (hl.trans hxa) hp
  obtain ⟨kt, hkt⟩ := htn.multiple ((hl.trans hxa).trans h1) hp
  set F := L - ((p : ℤ) - 1)
  have hF : (0 : K) < 2 ^ F := two_zpow_pos F
  have he : a + x - t = ((ka + m - kt : ℤ) : K) * 2 ^ F := by rw [hka, hm, hkt]; push_cast; ring
  refine ⟨ka + m - kt, F, ?_, he⟩
  have h6 : (2 : K) ^ (L + 1) = 2 ^ p * 2 ^ F := by
    rw [← zpow_natCast, ← zpow_add₀ (by norm_num : (2 : K) ≠ 0)]; congr 1; simp [F]; ring
  have h7 : |((ka + m - kt : ℤ) : K)| * 2 ^ F ≤ 2 ^ p * 2 ^ F := by
    rw [← abs_of_pos hF, ← abs_mul, abs_of_pos hF, ← he, ← h6]
    exact hbound.trans hu.le
  have h8 := le_of_mul_le_mul_right h7 hF
  exact_mod_cast h8

/-- One step of the summation. -/
theorem pySumStepR_eq (hp : 1 ≤ p) {s : K × K} {x : K} (hs : IsNumber p s.1) (hs0 : 0 ≤ s.1) (hx : IsNumber p x)
    (hx0 : 0 ≤ x) :
    pySumStepR (binary p) s x =
      (binary p (s.1 + x), binary p (s.2 + (s.1 + x - binary p (s.1 + x)))) := by
  unfold pySumStepR
  dsimp only
  rw [abs_of_nonneg hs0, abs_of_nonneg hx0]
  split_ifs with h
  · rw [sum_error hp hs hx hx0 h]
  · rw [add_comm s.1 x, sum_error hp hx hs hs0 (not_le.1 h).le]

/-- Rounding keeps multiples of a unit. -/
theorem binary_multiple (hp : 1 ≤ p) {z : K} {g : ℤ} (hz0 : 0 ≤ z) (hz : ∃ j : ℤ, z = j * 2 ^ g) :
    ∃ j : ℤ, binary p z = j * 2 ^ g := by
  rcases le_or_gt z (2 ^ (g + p : ℤ)) with c | c
  · obtain ⟨j, rfl⟩ := hz
    have hG : (0 : K) < 2 ^ g := two_zpow_pos g
    refine ⟨j, Spec.IsNumber.fixed hp ⟨j, g, ?_, rfl⟩⟩
    rw [zpow_add₀ (by norm_num : (2 : K) ≠ 0), zpow_natCast, mul_comm ((2 : K) ^ g)] at c
    have h1 : (j : K) ≤ 2 ^ p := le_of_mul_le_mul_right c hG
    have h0 : (0 : K) ≤ j := nonneg_of_mul_nonneg_left hz0 hG
    have h0' : 0 ≤ j := by exact_mod_cast h0
    rw [abs_of_nonneg h0']
    exact_mod_cast h1
  · have hn : IsNumber p ((2 : K) ^ (g + p : ℤ)) := ⟨1, g + p, by simp [one_le_pow₀], by simp⟩
    obtain ⟨k, hk⟩ := (isNumber_binary (p := p) z).multiple (le_binary_of_le hp hn c.le) hp
    refine ⟨k * 2, ?_⟩
    rw [hk, show g + (p : ℤ) - ((p : ℤ) - 1) = 1 + g by ring, zpow_add₀ (by norm_num : (2 : K) ≠ 0)]
    push_cast; rw [zpow_one]; ring

/-- A short multiple of a unit is a number. -/
theorem isNumber_of_multiple {z : K} {g : ℤ} (hz : ∃ j : ℤ, z = j * 2 ^ g) (h : |z| ≤ 2 ^ p * 2 ^ g) :
    IsNumber p z := by
  obtain ⟨j, rfl⟩ := hz
  have hG : (0 : K) < 2 ^ g := two_zpow_pos g
  refine ⟨j, g, ?_, rfl⟩
  rw [abs_mul, abs_of_pos hG] at h
  exact_mod_cast le_of_mul_le_mul_right h hG

/-- The running sum and the correction together are the exact sum. -/
theorem pySum_state (hp : 1 ≤ p) {k n : ℕ} (hk : 2 ≤ k) (hn : n * 2 ^ k ≤ 2 ^ p) :
    ∀ (xs : List K) (s : K × K) (i : ℕ), i + xs.length ≤ n →
      IsNumber p s.1 → 0 ≤ s.1 → (∃ j : ℤ, s.1 = j * 2 ^ (-((k : ℤ) + (p - 1)))) →
      (∃ j : ℤ, s.2 = j * 2 ^ (-((k : ℤ) + (p - 1)))) →
      |s.2| ≤ i * (2 / 2 ^ p) → s.1 + s.2 + xs.sum ≤ 3 / 2 →
      (∀ x ∈ xs, IsNumber p x ∧ (x = 0 ∨ (2 : K) ^ (-(k : ℤ)) ≤ x)) →
      IsNumber p (xs.foldl (pySumStepR (binary p)) s).1 ∧
      (xs.foldl (pySumStepR (binary p)) s).1 + (xs.foldl (pySumStepR (binary p)) s).2 = s.1 + s.2 + xs.sum
  | [], s, _, _, h1, _, _, _, _, _, _ => by simpa using h1
  | x :: xs, s, i, hi, h1, h2, h3, h4, h5, h6, h7 => by
    have hP : (0 : K) < 2 ^ p := by positivity
    obtain ⟨hxn, hxk⟩ := h7 x (by simp)
    have hx0 : 0 ≤ x := by
      rcases hxk with rfl | h
      · exact le_rfl
      · exact (two_zpow_pos _).le.trans h
    have hxs0 : 0 ≤ xs.sum := List.sum_nonneg (fun y hy => by
      rcases (h7 y (by simp [hy])).2 with rfl | h
      · exact le_rfl
      · exact (two_zpow_pos _).le.trans h)
    set g : ℤ := -((k : ℤ) + (p - 1)) with hg
    have hxm : ∃ j : ℤ, x = j * 2 ^ g := by
      rcases hxk with rfl | h
      · exact ⟨0, by simp⟩
      · obtain ⟨j, hj⟩ := hxn.multiple h hp
        exact ⟨j, by rw [hj, hg]; congr 2; ring⟩
    have hnK : (n : K) * 2 ^ k ≤ 2 ^ p := by exact_mod_cast hn
    have hk4 : (4 : K) ≤ 2 ^ k := by
      calc (4 : K) = 2 ^ 2 := by norm_num
        _ ≤ 2 ^ k := pow_le_pow_right₀ (by norm_num) hk
    have hi1 : ((i : K) + 1) ≤ n := by
      have : i + 1 ≤ n := by simp at hi; omega
      exact_mod_cast this
    have hi0 : (0 : K) ≤ i := Nat.cast_nonneg i
    -- the bound of the correction
    have hcn : ((i : K) + 1) * (2 / 2 ^ p) ≤ 2 ^ p * 2 ^ g := by
      have e1 : (2 : K) ^ p * 2 ^ g = 2 / 2 ^ k := by
        rw [← zpow_natCast, ← zpow_add₀ (by norm_num : (2 : K) ≠ 0), hg,
          show (p : ℤ) + -((k : ℤ) + (p - 1)) = 1 - k by ring, zpow_sub₀ (by norm_num : (2 : K) ≠ 0), zpow_one,
          zpow_natCast]
      rw [e1, ← mul_div_assoc, div_le_div_iff₀ hP (by linarith)]
      have : ((i : K) + 1) * 2 ^ k ≤ n * 2 ^ k := mul_le_mul_of_nonneg_right hi1 (by linarith)
      nlinarith
    have hhalf : (i : K) * (2 / 2 ^ p) ≤ 1 / 2 := by
      have e1 : ((i : K) + 1) * (2 / 2 ^ p) ≤ 1 / 2 := by
        rw [← mul_div_assoc, div_le_div_iff₀ hP (by norm_num)]
        have : ((i : K) + 1) * 4 ≤ n * 2 ^ k := mul_le_mul hi1 hk4 (by norm_num) (by linarith)
        nlinarith
      have : (0 : K) ≤ 2 / 2 ^ p := by positivity
      nlinarith
    have hsum2 : s.1 + x ≤ 2 := by
      have : -s.2 ≤ 1 / 2 := (neg_le_abs _).trans (h5.trans hhalf)
      simp only [List.sum_cons] at h6
      linarith
    have herr : |s.1 + x - binary p (s.1 + x)| ≤ 2 / 2 ^ p := by
      rw [abs_sub_comm]
      refine (binary_error p (s.1 + x)).trans ?_
      rw [abs_of_nonneg (by linarith)]
      exact div_le_div_of_nonneg_right hsum2 hP.le
    have hzm : ∃ j : ℤ, s.1 + x = j * 2 ^ g := by
      obtain ⟨a, ha⟩ := h3
      obtain ⟨b, hb⟩ := hxm
      exact ⟨a + b, by rw [ha, hb]; push_cast; ring⟩
    have htm := binary_multiple hp (add_nonneg h2 hx0) hzm
    have hem : ∃ j : ℤ, s.2 + (s.1 + x - binary p (s.1 + x)) = j * 2 ^ g := by
      obtain ⟨a, ha⟩ := h4
      obtain ⟨b, hb⟩ := hzm
      obtain ⟨c, hc⟩ := htm
      exact ⟨a + (b - c), by rw [ha, hc, hb]; push_cast; ring⟩
    have hcb : |s.2 + (s.1 + x - binary p (s.1 + x))| ≤ ((i : K) + 1) * (2 / 2 ^ p) := by
      refine (abs_add_le _ _).trans ?_
      linarith
    have hcfix : binary p (s.2 + (s.1 + x - binary p (s.1 + x))) = s.2 + (s.1 + x - binary p (s.1 + x)) :=
      (isNumber_of_multiple hem (hcb.trans hcn)).fixed hp
    rw [List.foldl_cons, pySumStepR_eq hp h1 h2 hxn hx0, hcfix]
    have ih := pySum_state hp hk hn xs
      (binary p (s.1 + x), s.2 + (s.1 + x - binary p (s.1 + x))) (i + 1) (by simp at hi; omega)
      (isNumber_binary _) (binary_nonneg p (add_nonneg h2 hx0)) htm hem (by push_cast; exact hcb)
      (by simp only [List.sum_cons] at h6 ⊢; linarith) (fun y hy => h7 y (by simp [hy]))
    refine ⟨ih.1, ih.2.trans ?_⟩
    simp only [List.sum_cons]; ring

/-- The compensated sum is the exact sum, rounded once. -/
theorem pySumR_eq (hp : 1 ≤ p) {k : ℕ} (hk : 2 ≤ k) {xs : List K} (hn : xs.length * 2 ^ k ≤ 2 ^ p)
    (hx : ∀ x ∈ xs, IsNumber p x ∧ (x = 0 ∨ (2 : K) ^ (-(k : ℤ)) ≤ x)) (hs : xs.sum ≤ 3 / 2) :
    pySumR (binary p) xs = binary p xs.sum := by
  obtain ⟨h1, h2⟩ := pySum_state (K := K) hp hk hn xs (0, 0) 0 (by simp) isNumber_zero le_rfl ⟨0, by simp⟩
    ⟨0, by simp⟩ (by simp) (by simpa using hs) hx
  simp only [zero_add] at h2
  unfold pySumR
  dsimp only
  split_ifs with h
  · rw [← h2, h, add_zero, h1.fixed hp]
  · rw [h2]

/-- Halfway between one and the next number: rounded to one. -/
theorem binary_one_half (hp : 2 ≤ p) : binary p (1 + 1 / 2 ^ p : K) = 1 := by
  have hP : (0 : K) < 2 ^ p := by positivity
  have h4 : (4 : K) ≤ 2 ^ p := by
    calc (4 : K) = 2 ^ 2 := by norm_num
      _ ≤ 2 ^ p := pow_le_pow_right₀ (by norm_num) hp
  have hd : (0 : K) < 1 / 2 ^ p := by positivity
  have hd1 : (1 : K) / 2 ^ p ≤ 1 / 4 := by
    rw [div_le_div_iff₀ hP (by norm_num)]; linarith
  have hpos : (0 : K) < 1 + 1 / 2 ^ p := by linarith
  have hlog : Int.log 2 |(1 + 1 / 2 ^ p : K)| = 0 := by
    refine log_eq_of ?_ ?_
    · rw [abs_of_pos hpos, zpow_zero]; linarith
    · rw [abs_of_pos hpos, zero_add, zpow_one]; linarith
  unfold binary
  rw [if_neg hpos.ne']
  dsimp only
  rw [hlog]
  obtain ⟨q, rfl⟩ : ∃ q, p = q + 2 := ⟨p - 2, by omega⟩
  have hU : (2 : K) ^ (0 - (((q + 2 : ℕ) : ℤ) - 1)) = 1 / 2 ^ (q + 1) := by
    rw [show (0 : ℤ) - (((q + 2 : ℕ) : ℤ) - 1) = -((q + 1 : ℕ) : ℤ) by push_cast; ring, zpow_neg, zpow_natCast,
      one_div]
  rw [hU]
  have hQ : (0 : K) < 2 ^ (q + 1) := by positivity
  have hdiv : (1 + 1 / 2 ^ (q + 2) : K) / (1 / 2 ^ (q + 1)) = ((2 ^ (q + 1) : ℤ) : K) + 1 / 2 := by
    push_cast
    field_simp
    ring
  have hfl : ⌊((2 ^ (q + 1) : ℤ) : K) + 1 / 2⌋ = 2 ^ (q + 1) := by
    rw [Int.floor_intCast_add]
    have : ⌊(1 / 2 : K)⌋ = 0 := by rw [Int.floor_eq_iff]; norm_num
    omega
  have hre : roundEven (((2 ^ (q + 1) : ℤ) : K) + 1 / 2) = 2 ^ (q + 1) := by
    unfold roundEven
    dsimp only
    rw [hfl]
    have e : 2 * (((2 ^ (q + 1) : ℤ) : K) + 1 / 2 - ((2 ^ (q + 1) : ℤ) : K)) = 1 := by ring
    rw [e, if_neg (lt_irrefl _), if_neg (lt_irrefl _), if_pos]
    rw [pow_succ]; omega
  rw [hdiv, hre]
  push_cast
  field_simp

end Soepy
