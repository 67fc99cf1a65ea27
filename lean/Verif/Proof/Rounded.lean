import Verif.Proof.Binary
import Verif.Proof.Interp
import Verif.Spec.Rounded

/-! # Interpolation in rounded arithmetic -/

set_option linter.unusedSectionVars false

namespace Soepy
variable {K : Type} [Field K] [LinearOrder K] [IsStrictOrderedRing K] [FloorRing K]
variable {p : ℕ}

open Spec (IsNumber Between)

theorem isNumber_binary (x : K) : IsNumber p (binary p x) := by
  obtain ⟨m, e, hm, he⟩ := binary_repr p x
  exact ⟨m, e, hm, he⟩

theorem Spec.IsNumber.fixed (hp : 1 ≤ p) {x : K} (h : IsNumber p x) : binary p x = x := by
  obtain ⟨m, e, hm, rfl⟩ := h
  exact binary_fixed p hp m e hm

theorem isNumber_of_fixed {x : K} (h : binary p x = x) : IsNumber p x := h ▸ isNumber_binary x

theorem Spec.IsNumber.neg {x : K} (h : IsNumber p x) : IsNumber p (-x) := by
  obtain ⟨m, e, hm, rfl⟩ := h
  exact ⟨-m, e, by rwa [abs_neg], by push_cast; ring⟩

theorem isNumber_zero : IsNumber p (0 : K) := ⟨0, 0, by positivity, by simp⟩

theorem isNumber_nat {n : ℕ} (h : n ≤ 2 ^ p) : IsNumber p (n : K) :=
  ⟨n, 0, by rw [Nat.abs_cast]; exact_mod_cast h, by simp⟩

theorem isNumber_one : IsNumber p (1 : K) := by
  have := isNumber_nat (K := K) (p := p) (n := 1) Nat.one_le_two_pow
  simpa using this

/-- Nothing is rounded past a number of the format. -/
theorem binary_le_of_le (hp : 1 ≤ p) {x y : K} (hy : IsNumber p y) (h : x ≤ y) : binary p x ≤ y := by
  have := binary_mono p hp h
  rwa [hy.fixed hp] at this

theorem le_binary_of_le (hp : 1 ≤ p) {x y : K} (hx : IsNumber p x) (h : x ≤ y) : x ≤ binary p y := by
  have := binary_mono p hp h
  rwa [hx.fixed hp] at this

/-- An integer is nearer than `roundEven` to no number. -/
theorem roundEven_nearest (t : K) (k : ℤ) : |(roundEven t : K) - t| ≤ |(k : K) - t| := by
  have hf := Int.floor_le t
  have hl := Int.lt_floor_add_one t
  rcases le_or_gt k ⌊t⌋ with h | h
  · have hk : (k : K) ≤ ⌊t⌋ := by exact_mod_cast h
    rcases roundEven_cases t with ⟨e, h'⟩ | ⟨e, h'⟩
    · rw [e, abs_sub_comm, abs_of_nonneg (by linarith), abs_sub_comm, abs_of_nonneg (by linarith)]
      linarith
    · rw [e, abs_sub_comm (k : K), abs_of_nonneg (show (0 : K) ≤ t - k by linarith)]
      push_cast
      rw [abs_of_nonneg (by linarith)]
      linarith
  · have hk : (⌊t⌋ : K) + 1 ≤ k := by exact_mod_cast h
    rcases roundEven_cases t with ⟨e, h'⟩ | ⟨e, h'⟩
    · rw [e, abs_sub_comm, abs_of_nonneg (by linarith), abs_of_nonneg (by linarith)]
      linarith
    · rw [e, abs_of_nonneg (show (0 : K) ≤ k - t by linarith)]
      push_cast
      rw [abs_of_nonneg (by linarith)]
      linarith

/-- A number at least `2 ^ L` is a multiple of the unit of that binade. -/
theorem Spec.IsNumber.multiple {y : K} (hy : IsNumber p y) {L : ℤ} (h : (2 : K) ^ L ≤ y) (hp : 1 ≤ p) :
    ∃ k : ℤ, y = k * 2 ^ (L - ((p : ℤ) - 1)) := by
  obtain ⟨m, e, hm, rfl⟩ := hy
  have hpos : (0 : K) < (m : K) * 2 ^ e := (two_zpow_pos L).trans_le h
  have hm0 : (0 : K) < m := pos_of_mul_pos_left hpos (two_zpow_pos e).le
  have hm0' : 0 < m := by exact_mod_cast hm0
  rw [abs_of_pos hm0'] at hm
  have hmK : (m : K) ≤ 2 ^ (p : ℤ) := by exact_mod_cast hm
  have hb : L ≤ p + e := by
    rw [← zpow_le_zpow_iff_right₀ (by norm_num : (1 : K) < 2), zpow_add₀ (by norm_num)]
    exact h.trans (mul_le_mul_of_nonneg_right hmK (two_zpow_pos e).le)
  rcases hb.lt_or_eq with hb | hb
  · obtain ⟨j, hj⟩ := Int.le.dest (show L - ((p : ℤ) - 1) ≤ e by omega)
    refine ⟨m * 2 ^ j, ?_⟩
    rw [← hj, zpow_add₀ (by norm_num)]
    push_cast; rw [zpow_natCast]; ring
  · have hm2 : m = 2 ^ p := by
      refine le_antisymm hm ?_
      have : (2 : K) ^ (p : ℤ) ≤ (m : K) := by
        rw [hb, zpow_add₀ (by norm_num)] at h
        exact le_of_mul_le_mul_right h (two_zpow_pos e)
      exact_mod_cast this
    obtain ⟨q, rfl⟩ : ∃ q, p = q + 1 := ⟨p - 1, by omega⟩
    refine ⟨2 ^ q, ?_⟩
    have hL' : L - (((q + 1 : ℕ) : ℤ) - 1) = e + 1 := by rw [hb]; push_cast; ring
    rw [hL', hm2, zpow_add₀ (by norm_num)]
    push_cast; rw [pow_succ]; ring

theorem binary_nearest_pos (hp : 1 ≤ p) {x : K} (hx : 0 < x) {y : K} (hy : IsNumber p y) :
    |binary p x - x| ≤ |y - x| := by
  have hle := log_le hx.ne'
  rw [abs_of_pos hx] at hle
  -- it is enough to compare with multiples of the unit
  have key : ∀ k : ℤ, |binary p x - x| ≤ |(k : K) * 2 ^ (Int.log 2 |x| - ((p : ℤ) - 1)) - x| := by
    intro k
    unfold binary
    rw [if_neg hx.ne']
    dsimp only
    set u := (2 : K) ^ (Int.log 2 |x| - ((p : ℤ) - 1)) with hu
    have hup : 0 < u := two_zpow_pos _
    have e1 : ∀ n : ℤ, (n : K) * u - x = ((n : K) - x / u) * u := by
      intro n; rw [sub_mul, div_mul_cancel₀ _ hup.ne']
    rw [e1, e1, abs_mul, abs_mul]
    exact mul_le_mul_of_nonneg_right (roundEven_nearest _ _) (abs_nonneg _)
  rcases le_or_gt ((2 : K) ^ Int.log 2 |x|) y with h | h
  · obtain ⟨k, hk⟩ := hy.multiple h hp
    rw [hk]; exact key k
  · have h2 : IsNumber p ((2 : K) ^ Int.log 2 |x|) := ⟨1, Int.log 2 |x|, by
      rw [abs_one]; exact_mod_cast Nat.one_le_two_pow, by simp⟩
    obtain ⟨k, hk⟩ := h2.multiple le_rfl hp
    refine (key k).trans ?_
    rw [← hk]
    rw [abs_of_pos hx] at h ⊢
    rw [abs_sub_comm, abs_of_nonneg (by linarith), abs_sub_comm, abs_of_nonneg (by linarith)]
    linarith

theorem binary_nearest (hp : 1 ≤ p) (x : K) {y : K} (hy : IsNumber p y) :
    |binary p x - x| ≤ |y - x| := by
  rcases lt_trichotomy x 0 with hx | hx | hx
  · have := binary_nearest_pos hp (x := -x) (by linarith) hy.neg
    rwa [binary_neg, ← neg_sub', abs_neg, ← neg_sub', abs_neg] at this
  · simp [hx]
  · exact binary_nearest_pos hp hx hy

/-! ## A weight below one -/

/-- Multiplying a positive number by a number below one gives less, even after rounding. -/
theorem binary_shrink (hp : 1 ≤ p) {d w : K} (hd : IsNumber p d) (hd0 : 0 < d)
    (hw : IsNumber p w) (hw1 : w < 1) : binary p (w * d) < d := by
  rcases le_or_gt w 0 with hw0 | hw0
  · refine lt_of_le_of_lt (binary_le_of_le hp isNumber_zero ?_) hd0
    exact mul_nonpos_of_nonpos_of_nonneg hw0 hd0.le
  -- the largest number below one
  have hwle : w ≤ 1 - 1 / 2 ^ p := by
    obtain ⟨m, e, hm, rfl⟩ := hw
    have hm0 : (0 : K) < m := pos_of_mul_pos_left hw0 (two_zpow_pos e).le
    have hm0' : 0 < m := by exact_mod_cast hm0
    rw [abs_of_pos hm0'] at hm
    have he : e < 0 := by
      by_contra hcon
      obtain ⟨j, hj⟩ := Int.eq_ofNat_of_zero_le (not_lt.1 hcon)
      rw [hj] at hw1
      have h1 : (1 : K) ≤ m := by exact_mod_cast hm0'
      have h2 : (1 : K) ≤ 2 ^ ((j : ℕ) : ℤ) := by rw [zpow_natCast]; exact one_le_pow₀ (by norm_num)
      have := one_le_mul_of_one_le_of_one_le h1 h2
      linarith
    obtain ⟨j, hj⟩ := Int.eq_ofNat_of_zero_le (show 0 ≤ -e by omega)
    have he' : e = -(j : ℤ) := by omega
    subst he'
    rw [zpow_neg, zpow_natCast] at hw1 ⊢
    have hj0 : (0 : K) < 2 ^ j := by positivity
    have hlt : (m : K) < 2 ^ j := by
      rw [← div_eq_mul_inv, div_lt_one hj0] at hw1; exact hw1
    have hlt' : m + 1 ≤ 2 ^ j := by exact_mod_cast hlt
    have hp0 : (0 : K) < 2 ^ p := by positivity
    rw [← div_eq_mul_inv, div_le_iff₀ hj0, sub_mul, one_mul, div_mul_eq_mul_div, one_mul,
      le_sub_iff_add_le]
    rcases le_or_gt j p with h | h
    · have : (2 : K) ^ j / 2 ^ p ≤ 1 := by
        rw [div_le_one hp0]; exact pow_le_pow_right₀ (by norm_num) h
      have h3 : (m : K) + 1 ≤ 2 ^ j := by exact_mod_cast hlt'
      linarith
    · obtain ⟨q, rfl⟩ : ∃ q, j = p + (q + 1) := ⟨j - p - 1, by omega⟩
      have hmK : (m : K) ≤ 2 ^ p := by exact_mod_cast hm
      have e1 : (2 : K) ^ (p + (q + 1)) / 2 ^ p = 2 ^ (q + 1) := by
        rw [pow_add, mul_div_cancel_left₀ _ hp0.ne']
      rw [e1, pow_add (2 : K) p (q + 1)]
      have h2 : (2 : K) ≤ 2 ^ p := by
        calc (2 : K) = 2 ^ 1 := by norm_num
          _ ≤ 2 ^ p := pow_le_pow_right₀ (by norm_num) hp
      have h3 : (2 : K) ≤ 2 ^ (q + 1) := by
        calc (2 : K) = 2 ^ 1 := by norm_num
          _ ≤ 2 ^ (q + 1) := pow_le_pow_right₀ (by norm_num) (by omega)
      nlinarith [mul_nonneg (sub_nonneg.2 h2) (sub_nonneg.2 h3)]
  refine lt_of_le_of_lt (binary_mono p hp (mul_le_mul_of_nonneg_right hwle hd0.le)) ?_
  -- the number next to `d`
  set L := Int.log 2 |d| with hL
  have hle := log_le hd0.ne'
  have hlt := lt_log d
  rw [← hL, abs_of_pos hd0] at hle hlt
  have hp0 : (0 : K) < 2 ^ p := by positivity
  rcases hle.lt_or_eq with hne | heq
  · obtain ⟨k, hk⟩ := hd.multiple hle hp
    set u := (2 : K) ^ (L - ((p : ℤ) - 1)) with hu
    have hup : 0 < u := two_zpow_pos _
    obtain ⟨q, rfl⟩ : ∃ q, p = q + 1 := ⟨p - 1, by omega⟩
    have e1 : (2 : K) ^ L = 2 ^ q * u := by
      rw [hu, ← zpow_natCast, ← zpow_add₀ (by norm_num)]; congr 1; push_cast; ring
    have e2 : (2 : K) ^ (L + 1) = 2 ^ (q + 1) * u := by
      rw [hu, ← zpow_natCast, ← zpow_add₀ (by norm_num)]; congr 1; push_cast; ring
    rw [e1, hk] at hne
    rw [e2, hk] at hlt
    have k1 : (2 : K) ^ q < k := lt_of_mul_lt_mul_right hne hup.le
    have k2 : (k : K) < 2 ^ (q + 1) := lt_of_mul_lt_mul_right hlt hup.le
    have k1' : 2 ^ q + 1 ≤ k := by exact_mod_cast k1
    have k1'' : (2 : K) ^ q + 1 ≤ k := by exact_mod_cast k1'
    have hz : (1 - 1 / 2 ^ (q + 1)) * d = ((k : K) - k / 2 ^ (q + 1)) * u := by rw [hk]; ring
    have hkk : (1 : K) / 2 < k / 2 ^ (q + 1) := by
      rw [div_lt_div_iff₀ (by norm_num) hp0, pow_succ]; linarith
    have hkk2 : (k : K) / 2 ^ (q + 1) < 1 := (div_lt_one hp0).2 k2
    have hpos : 0 < (1 - 1 / 2 ^ (q + 1)) * d := by
      rw [hz]; exact mul_pos (by
        have : (1 : K) ≤ 2 ^ q := one_le_pow₀ (by norm_num)
        linarith) hup
    have hlog : Int.log 2 |(1 - 1 / 2 ^ (q + 1)) * d| = L := by
      apply log_eq_of
      · rw [abs_of_pos hpos, hz, e1]
        exact mul_le_mul_of_nonneg_right (by linarith) hup.le
      · rw [abs_of_pos hpos, hz, e2]
        exact mul_lt_mul_of_pos_right (by linarith) hup
    unfold binary
    rw [if_neg hpos.ne', hlog, ← hu]
    dsimp only
    rw [hz, mul_div_cancel_right₀ _ hup.ne', hk]
    refine mul_lt_mul_of_pos_right ?_ hup
    have : roundEven ((k : K) - k / 2 ^ (q + 1)) < k := by
      have hfl : ⌊(k : K) - k / 2 ^ (q + 1)⌋ = k - 1 := by
        rw [Int.floor_eq_iff]; push_cast; constructor <;> linarith
      rcases roundEven_cases ((k : K) - k / 2 ^ (q + 1)) with ⟨h, -⟩ | ⟨-, h'⟩
      · rw [h, hfl]; omega
      · rw [hfl] at h'; push_cast at h'; linarith
    exact_mod_cast this
  · have hnum : IsNumber p ((1 - 1 / 2 ^ p) * d) := by
      refine ⟨2 ^ p - 1, L - p, ?_, ?_⟩
      · have : (1 : ℤ) ≤ 2 ^ p := by exact_mod_cast Nat.one_le_two_pow
        rw [abs_of_nonneg (by linarith)]; linarith
      · rw [← heq, zpow_sub₀ (by norm_num), zpow_natCast]; push_cast
        field_simp
    rw [hnum.fixed hp]
    have : (0 : K) < 1 / 2 ^ p := by positivity
    nlinarith

/-- Rounded interpolation with a weight below one stays between the two values: increasing case. -/
theorem lerp_between_aux (hp : 1 ≤ p) {a b w : K} (ha : IsNumber p a) (hb : IsNumber p b)
    (hw : IsNumber p w) (hw0 : 0 ≤ w) (hw1 : w < 1) (hab : a ≤ b) :
    a ≤ binary p (a + binary p (w * binary p (b - a))) ∧
      binary p (a + binary p (w * binary p (b - a))) ≤ b := by
  set d := binary p (b - a) with hd
  have hd0 : 0 ≤ d := le_binary_of_le hp isNumber_zero (by linarith)
  have hz0 : 0 ≤ binary p (w * d) := le_binary_of_le hp isNumber_zero (mul_nonneg hw0 hd0)
  refine ⟨le_binary_of_le hp ha (by linarith), binary_le_of_le hp hb ?_⟩
  have hdn : IsNumber p d := isNumber_binary _
  rcases hd0.eq_or_lt with h0 | h0
  · rw [← h0]; simpa using hab
  · have hlt := binary_shrink hp hdn h0 hw hw1
    have hz : IsNumber p (binary p (w * d)) := isNumber_binary _
    have : binary p (w * d) ≤ b - a := by
      by_contra hcon
      have := binary_le_of_le hp hz (not_le.1 hcon).le
      rw [← hd] at this
      linarith
    linarith

theorem lerp_between (hp : 1 ≤ p) {a b w : K} (ha : IsNumber p a) (hb : IsNumber p b)
    (hw : IsNumber p w) (hw0 : 0 ≤ w) (hw1 : w < 1) :
    Between a b (binary p (a + binary p (w * binary p (b - a)))) := by
  unfold Between
  rcases le_total a b with h | h
  · rw [min_eq_left h, max_eq_right h]
    exact lerp_between_aux hp ha hb hw hw0 hw1 h
  · rw [min_eq_right h, max_eq_left h]
    have := lerp_between_aux hp ha.neg hb.neg hw hw0 hw1 (by linarith : -a ≤ -b)
    have e1 : -b - -a = -(b - a) := by ring
    have e2 : w * -binary p (b - a) = -(w * binary p (b - a)) := by ring
    have e3 : -a + -binary p (w * binary p (b - a)) = -(a + binary p (w * binary p (b - a))) := by ring
    rw [e1, binary_neg, e2, binary_neg, e3, binary_neg] at this
    constructor <;> linarith [this.1, this.2]

/-- The fractional part of a number that is not negative is a number. -/
theorem isNumber_fract {u : K} (hu : IsNumber p u) (h0 : 0 ≤ u) : IsNumber p (u - ⌊u⌋) := by
  have hf0 : 0 ≤ ⌊u⌋ := Int.floor_nonneg.2 h0
  have hf := Int.floor_le u
  obtain ⟨m, e, hm, rfl⟩ := hu
  have hm0 : 0 ≤ m := by
    by_contra hcon
    have : (m : K) < 0 := by exact_mod_cast not_le.1 hcon
    have := mul_neg_of_neg_of_pos this (two_zpow_pos (K := K) e)
    linarith
  rw [abs_of_nonneg hm0] at hm
  rcases le_or_gt 0 e with he | he
  · obtain ⟨j, hj⟩ := Int.eq_ofNat_of_zero_le he
    subst hj
    have : (m : K) * 2 ^ ((j : ℕ) : ℤ) = ((m * 2 ^ j : ℤ) : K) := by push_cast; rw [zpow_natCast]
    rw [this, Int.floor_intCast, sub_self]
    exact isNumber_zero
  · obtain ⟨j, hj⟩ := Int.eq_ofNat_of_zero_le (show 0 ≤ -e by omega)
    have he' : e = -(j : ℤ) := by omega
    subst he'
    set f := ⌊(m : K) * 2 ^ (-(j : ℤ))⌋ with hfdef
    have hj0 : (0 : K) < 2 ^ j := by positivity
    have hfm : f * 2 ^ j ≤ m := by
      have : (f : K) * 2 ^ j ≤ m := by
        rw [zpow_neg, zpow_natCast, ← div_eq_mul_inv, le_div_iff₀ hj0] at hf; exact hf
      exact_mod_cast this
    refine ⟨m - f * 2 ^ j, -(j : ℤ), ?_, ?_⟩
    · rw [abs_of_nonneg (by linarith)]
      have : 0 ≤ f * 2 ^ j := mul_nonneg hf0 (by positivity)
      linarith
    · push_cast
      rw [zpow_neg, zpow_natCast]
      field_simp

end Soepy
