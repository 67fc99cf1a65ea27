import Verif.Model.Rounded
import Mathlib.Tactic.Linarith
import Mathlib.Tactic.Positivity
import Mathlib.Tactic.FieldSimp
import Mathlib.Tactic.Ring
import Mathlib.Tactic.NormNum

/-! # Binary rounding is monotone, odd, idempotent, exact on its numbers, and has a small relative error -/

set_option linter.unusedSectionVars false

namespace Soepy
variable {K : Type} [Field K] [LinearOrder K] [IsStrictOrderedRing K] [FloorRing K]

/-! ## `roundEven` -/

theorem roundEven_int (n : ℤ) : roundEven (n : K) = n := by
  unfold roundEven; simp

/-- The nearest integers are the only candidates. -/
theorem roundEven_cases (x : K) :
    (roundEven x = ⌊x⌋ ∧ 2 * (x - ⌊x⌋) ≤ 1) ∨ (roundEven x = ⌊x⌋ + 1 ∧ 1 ≤ 2 * (x - ⌊x⌋)) := by
  unfold roundEven
  dsimp only
  split_ifs with h1 h2 h3
  · exact .inl ⟨rfl, h1.le⟩
  · exact .inr ⟨rfl, h2.le⟩
  · exact .inl ⟨rfl, not_lt.1 h2⟩
  · exact .inr ⟨rfl, not_lt.1 h1⟩

theorem roundEven_error (x : K) : 2 * |(roundEven x : K) - x| ≤ 1 := by
  have hf := Int.floor_le x
  have hl := Int.lt_floor_add_one x
  rcases roundEven_cases x with ⟨h, h'⟩ | ⟨h, h'⟩
  · rw [h, abs_sub_comm, abs_of_nonneg (by linarith)]; linarith
  · rw [h]; push_cast; rw [abs_of_nonneg (by linarith)]; linarith

theorem roundEven_mono : Monotone (roundEven : K → ℤ) := by
  intro x y h
  have hfl : ⌊x⌋ ≤ ⌊y⌋ := Int.floor_mono h
  rcases hfl.lt_or_eq with hlt | heq
  · have h1 : roundEven x ≤ ⌊x⌋ + 1 := by rcases roundEven_cases x with ⟨h, -⟩ | ⟨h, -⟩ <;> omega
    have h2 : ⌊y⌋ ≤ roundEven y := by rcases roundEven_cases y with ⟨h, -⟩ | ⟨h, -⟩ <;> omega
    omega
  · unfold roundEven
    rw [heq]
    dsimp only
    have : (⌊x⌋ : K) = ⌊y⌋ := by rw [heq]
    split_ifs <;> first | omega | (exfalso; linarith)

theorem roundEven_neg (x : K) : roundEven (-x) = -roundEven x := by
  by_cases hx : (⌊x⌋ : K) = x
  · rw [← hx, ← Int.cast_neg, roundEven_int, roundEven_int]
  · have hf := Int.floor_le x
    have hl := Int.lt_floor_add_one x
    have hlt : (⌊x⌋ : K) < x := lt_of_le_of_ne hf hx
    have hn : ⌊-x⌋ = -⌊x⌋ - 1 := by
      rw [Int.floor_eq_iff]; push_cast; constructor <;> linarith
    have hn' : ((⌊-x⌋ : ℤ) : K) = -(⌊x⌋ : K) - 1 := by rw [hn]; push_cast; ring
    unfold roundEven
    dsimp only
    rw [hn']
    rw [hn]
    split_ifs <;> first | omega | (exfalso; linarith)

/-! ## `binary` -/

section binary
variable (p : ℕ)

@[simp] theorem binary_zero : binary p (0 : K) = 0 := by simp [binary]

theorem binary_neg (x : K) : binary p (-x) = -binary p x := by
  unfold binary
  by_cases h : x = 0
  · simp [h]
  · rw [if_neg h, if_neg (neg_ne_zero.2 h), abs_neg]
    dsimp only
    rw [neg_div, roundEven_neg]
    push_cast; ring

theorem two_zpow_pos (n : ℤ) : (0 : K) < 2 ^ n := zpow_pos (by norm_num) n

theorem log_le {x : K} (h : x ≠ 0) : (2 : K) ^ Int.log 2 |x| ≤ |x| :=
  by exact_mod_cast Int.zpow_log_le_self (b := 2) (by norm_num) (abs_pos.2 h)

theorem lt_log (x : K) : |x| < (2 : K) ^ (Int.log 2 |x| + 1) := by
  exact_mod_cast Int.lt_zpow_succ_log_self (b := 2) (by norm_num) |x|

theorem log_eq_of {x : K} {n : ℤ} (h1 : (2 : K) ^ n ≤ |x|) (h2 : |x| < 2 ^ (n + 1)) :
    Int.log 2 |x| = n := by
  have hx : x ≠ 0 := by
    rintro rfl
    have := two_zpow_pos (K := K) n
    simp at h1; linarith
  have a := lt_of_le_of_lt h1 (lt_log x)
  have b := lt_of_le_of_lt (log_le hx) h2
  have a' := (zpow_lt_zpow_iff_right₀ (by norm_num : (1 : K) < 2)).1 a
  have b' := (zpow_lt_zpow_iff_right₀ (by norm_num : (1 : K) < 2)).1 b
  omega

/-- Numbers with at most `p` digits are not changed. -/
theorem binary_fixed (hp : 1 ≤ p) (m e : ℤ) (hm : |m| ≤ 2 ^ p) :
    binary p ((m : K) * 2 ^ e) = (m : K) * 2 ^ e := by
  by_cases h0 : m = 0
  · simp [h0]
  have hx : (m : K) * 2 ^ e ≠ 0 :=
    mul_ne_zero (by exact_mod_cast h0) (two_zpow_pos e).ne'
  unfold binary
  rw [if_neg hx]
  dsimp only
  set L := Int.log 2 |(m : K) * 2 ^ e| with hL
  have hle := log_le hx
  have hlt := lt_log ((m : K) * 2 ^ e)
  rw [← hL] at hle hlt
  have habs : |(m : K) * 2 ^ e| = (|m| : ℤ) * (2 : K) ^ e := by
    rw [abs_mul, abs_of_pos (two_zpow_pos (K := K) e)]; push_cast; rfl
  rw [habs] at hle hlt
  have hmK : ((|m| : ℤ) : K) ≤ 2 ^ (p : ℤ) := by exact_mod_cast hm
  have hbound : L ≤ p + e := by
    rw [← zpow_le_zpow_iff_right₀ (by norm_num : (1 : K) < 2), zpow_add₀ (by norm_num)]
    exact hle.trans (mul_le_mul_of_nonneg_right hmK (two_zpow_pos e).le)
  -- the scaled number is an integer
  obtain ⟨k, hk⟩ : ∃ k : ℤ, (m : K) * 2 ^ e / 2 ^ (L - ((p : ℤ) - 1)) = k := by
    rcases hbound.lt_or_eq with hb | hb
    · obtain ⟨j, hj⟩ := Int.le.dest (show L - ((p : ℤ) - 1) ≤ e by omega)
      refine ⟨m * 2 ^ j, ?_⟩
      rw [← hj, zpow_add₀ (by norm_num), div_eq_iff (two_zpow_pos _).ne']
      push_cast
      rw [zpow_natCast]; ring
    · -- |m| = 2 ^ p
      have hm2 : |m| = 2 ^ p := by
        refine le_antisymm hm ?_
        have : (2 : K) ^ (p : ℤ) ≤ ((|m| : ℤ) : K) := by
          rw [hb, zpow_add₀ (by norm_num)] at hle
          exact le_of_mul_le_mul_right hle (two_zpow_pos e)
        exact_mod_cast this
      obtain ⟨q, rfl⟩ : ∃ q, p = q + 1 := ⟨p - 1, by omega⟩
      have hL' : L - (((q + 1 : ℕ) : ℤ) - 1) = e + 1 := by rw [hb]; push_cast; ring
      rw [hL']
      rcases abs_choice m with hs | hs
      · refine ⟨2 ^ q, ?_⟩
        rw [hs] at hm2
        rw [hm2, div_eq_iff (two_zpow_pos _).ne', zpow_add₀ (by norm_num)]
        push_cast; rw [pow_succ]; ring
      · refine ⟨-2 ^ q, ?_⟩
        have : m = -2 ^ (q + 1) := by omega
        rw [this, div_eq_iff (two_zpow_pos _).ne', zpow_add₀ (by norm_num)]
        push_cast; rw [pow_succ]; ring
  rw [hk, roundEven_int, ← hk, div_mul_cancel₀ _ (two_zpow_pos _).ne']

/-- A rounded number has at most `p` digits. -/
theorem binary_repr (x : K) :
    ∃ m e : ℤ, |m| ≤ 2 ^ p ∧ binary p x = (m : K) * 2 ^ e := by
  by_cases hx : x = 0
  · exact ⟨0, 0, by positivity, by simp [hx]⟩
  refine ⟨roundEven (x / 2 ^ (Int.log 2 |x| - ((p : ℤ) - 1))), Int.log 2 |x| - ((p : ℤ) - 1), ?_, ?_⟩
  · set u := (2 : K) ^ (Int.log 2 |x| - ((p : ℤ) - 1)) with hu
    have hup : 0 < u := two_zpow_pos _
    have hlt : |x| < (2 : K) ^ (p : ℤ) * u := by
      rw [hu, ← zpow_add₀ (by norm_num)]
      convert lt_log x using 2; ring
    have h1 : |x / u| < 2 ^ (p : ℤ) := by
      rw [abs_div, abs_of_pos hup, div_lt_iff₀ hup]; exact hlt
    rw [abs_lt] at h1
    have h2 : x / u ≤ ((2 ^ p : ℤ) : K) := by push_cast; rw [← zpow_natCast]; exact h1.2.le
    have h3 : ((-2 ^ p : ℤ) : K) ≤ x / u := by push_cast; rw [← zpow_natCast]; exact h1.1.le
    have h2' := roundEven_mono h2
    have h3' := roundEven_mono h3
    rw [roundEven_int] at h2' h3'
    exact abs_le.2 ⟨h3', h2'⟩
  · unfold binary; rw [if_neg hx]

theorem binary_idem (hp : 1 ≤ p) (x : K) : binary p (binary p x) = binary p x := by
  obtain ⟨m, e, hm, he⟩ := binary_repr p x
  rw [he]; exact binary_fixed p hp m e hm

theorem binary_nonneg {x : K} (h : 0 ≤ x) : 0 ≤ binary p x := by
  unfold binary
  split_ifs with h0
  · exact le_rfl
  · have : (0 : ℤ) ≤ roundEven (x / 2 ^ (Int.log 2 |x| - ((p : ℤ) - 1))) := by
      have := roundEven_mono (K := K) (div_nonneg h (two_zpow_pos (Int.log 2 |x| - ((p : ℤ) - 1))).le)
      have h00 := roundEven_int (K := K) 0
      rw [Int.cast_zero] at h00
      rwa [h00] at this
    have h1 : (0 : K) ≤ (roundEven (x / 2 ^ (Int.log 2 |x| - ((p : ℤ) - 1))) : K) := by exact_mod_cast this
    exact mul_nonneg h1 (two_zpow_pos _).le

/-- A rounded positive number stays between the powers of two around it. -/
theorem binary_between (hp : 1 ≤ p) {x : K} (h : 0 < x) :
    (2 : K) ^ Int.log 2 |x| ≤ binary p x ∧ binary p x ≤ 2 ^ (Int.log 2 |x| + 1) := by
  set L := Int.log 2 |x| with hL
  have hle := log_le h.ne'
  have hlt := lt_log x
  rw [← hL, abs_of_pos h] at hle hlt
  unfold binary
  rw [if_neg h.ne', ← hL]
  dsimp only
  set u := (2 : K) ^ (L - ((p : ℤ) - 1)) with hu
  have hup : 0 < u := two_zpow_pos _
  obtain ⟨q, rfl⟩ : ∃ q, p = q + 1 := ⟨p - 1, by omega⟩
  have e1 : (2 : K) ^ L = ((2 ^ q : ℤ) : K) * u := by
    rw [hu]; push_cast; rw [← zpow_natCast, ← zpow_add₀ (by norm_num)]; congr 1; ring
  have e2 : (2 : K) ^ (L + 1) = ((2 ^ (q + 1) : ℤ) : K) * u := by
    rw [hu]; push_cast; rw [← zpow_natCast, ← zpow_add₀ (by norm_num)]; congr 1; push_cast; ring
  rw [e1] at hle ⊢
  rw [e2] at hlt ⊢
  have a : ((2 ^ q : ℤ) : K) ≤ x / u := (le_div_iff₀ hup).2 hle
  have b : x / u ≤ ((2 ^ (q + 1) : ℤ) : K) := (div_le_iff₀ hup).2 hlt.le
  have a' := roundEven_mono a
  have b' := roundEven_mono b
  rw [roundEven_int] at a' b'
  constructor
  · exact mul_le_mul_of_nonneg_right (by exact_mod_cast a') hup.le
  · exact mul_le_mul_of_nonneg_right (by exact_mod_cast b') hup.le

theorem binary_pos (hp : 1 ≤ p) {x : K} (h : 0 < x) : 0 < binary p x :=
  (two_zpow_pos _).trans_le (binary_between p hp h).1

theorem binary_mono_pos (hp : 1 ≤ p) {x y : K} (hx : 0 < x) (h : x ≤ y) : binary p x ≤ binary p y := by
  have hy : 0 < y := hx.trans_le h
  rcases lt_trichotomy (Int.log 2 |x|) (Int.log 2 |y|) with hl | hl | hl
  · have h1 := (binary_between p hp hx).2
    have h2 := (binary_between p hp hy).1
    refine h1.trans (le_trans ?_ h2)
    exact (zpow_le_zpow_iff_right₀ (by norm_num : (1 : K) < 2)).2 (by omega)
  · unfold binary
    rw [if_neg hx.ne', if_neg hy.ne', hl]
    have : roundEven (x / 2 ^ (Int.log 2 |y| - ((p : ℤ) - 1))) ≤
        roundEven (y / 2 ^ (Int.log 2 |y| - ((p : ℤ) - 1))) :=
      roundEven_mono (div_le_div_of_nonneg_right h (two_zpow_pos _).le)
    exact mul_le_mul_of_nonneg_right (by exact_mod_cast this) (two_zpow_pos _).le
  · exfalso
    have h1 := log_le hx.ne'
    have h2 := lt_log y
    rw [abs_of_pos hx, ] at h1
    rw [abs_of_pos hy] at h2
    rw [abs_of_pos hx, abs_of_pos hy] at hl
    have : (2 : K) ^ (Int.log 2 y + 1) ≤ 2 ^ Int.log 2 x :=
      (zpow_le_zpow_iff_right₀ (by norm_num : (1 : K) < 2)).2 (by omega)
    linarith

theorem binary_mono (hp : 1 ≤ p) : Monotone (binary p : K → K) := by
  intro x y h
  rcases lt_trichotomy x 0 with hx | hx | hx
  · rcases le_or_gt 0 y with hy | hy
    · have := binary_nonneg p (x := -x) (by linarith)
      rw [binary_neg] at this
      have := binary_nonneg p hy
      linarith
    · have := binary_mono_pos p hp (x := -y) (y := -x) (by linarith) (by linarith)
      rw [binary_neg, binary_neg] at this
      linarith
  · subst hx; rw [binary_zero]; exact binary_nonneg p h
  · exact binary_mono_pos p hp hx h

/-- Integers of at most `p` binary digits are numbers of the format. -/
theorem binary_natCast (hp : 1 ≤ p) (n : ℕ) (h : n ≤ 2 ^ p) : binary p (n : K) = n := by
  have := binary_fixed (K := K) p hp n 0 (by rw [Nat.abs_cast]; exact_mod_cast h)
  simpa using this

/-- The relative error is at most `2 ^ -p`. -/
theorem binary_error (x : K) : |binary p x - x| ≤ |x| / 2 ^ p := by
  by_cases hx : x = 0
  · simp [hx]
  have hle := log_le hx
  unfold binary
  rw [if_neg hx]
  dsimp only
  set L := Int.log 2 |x|
  set u := (2 : K) ^ (L - ((p : ℤ) - 1)) with hu
  have hup : 0 < u := two_zpow_pos _
  have h1 := roundEven_error (x / u)
  have h2 : ((roundEven (x / u) : ℤ) : K) * u - x = ((roundEven (x / u) : K) - x / u) * u := by
    rw [sub_mul, div_mul_cancel₀ _ hup.ne']
  have h3 : u / 2 * 2 ^ p = 2 ^ L := by
    rw [hu, ← zpow_natCast, zpow_sub₀ (by norm_num), zpow_sub₀ (by norm_num), zpow_one]
    have : (2 : K) ^ (p : ℤ) ≠ 0 := (two_zpow_pos _).ne'
    field_simp
  rw [h2, abs_mul, abs_of_pos hup, le_div_iff₀ (by positivity)]
  refine le_trans ?_ hle
  rw [← h3]
  refine mul_le_mul_of_nonneg_right ?_ (by positivity)
  have := mul_le_mul_of_nonneg_right h1 hup.le
  linarith

end binary

end Soepy
