import Verif.Proof.Rounded
import Verif.Proof.Interp
import Verif.Proof.Tax
import Verif.Props.RoundedTax
import Mathlib.Algebra.Order.Group.MinMax

/-! # C99: how far rounded results are from exact ones -/

set_option linter.unusedSectionVars false

namespace Soepy.Props
variable {K : Type} [Field K] [LinearOrder K] [IsStrictOrderedRing K] [FloorRing K]
variable {p : ℕ}

open Spec (IsNumber)

/-! ## Experience over a career -/

/-- The stock after a list of choices, with a rule for one period. -/
def career (step : K → ℕ → ℕ → K) : K → ℕ → List ℕ → K
  | s, _, [] => s
  | s, t, c :: cs => career step (step s t c) (t + 1) cs

theorem clip_lip (a b : K) : |clip a 0 1 - clip b 0 1| ≤ |a - b| := by
  unfold clip
  refine (abs_min_sub_min_le_max _ _ _ _).trans ?_
  rw [sub_self, abs_zero]
  refine max_le ((abs_max_sub_max_le_max _ _ _ _).trans ?_) (abs_nonneg _)
  rw [sub_self, abs_zero]
  exact max_le le_rfl (abs_nonneg _)

/-- One period: the error grows by at most four units. -/
theorem nextStockR_error (hp : 1 ≤ p) (initExpMax t c : ℕ) (pt : K) (hpt0 : 0 ≤ pt) (hpt : pt ≤ 1)
    (hsize : initExpMax + t + 1 ≤ 2 ^ p) {s s' : K} (h0 : 0 ≤ s') (h1 : s' ≤ 1) :
    |nextStockR (binary p) s' t (initExpMax : K) pt c - nextStock s t (initExpMax : K) pt c| ≤
      |s' - s| + 4 / 2 ^ p := by
  have hP : (0 : K) < 2 ^ p := by positivity
  have hmaxR : ∀ t : ℕ, initExpMax + t ≤ 2 ^ p →
      maxExpYearsR (binary p) t (initExpMax : K) pt = ((initExpMax + t : ℕ) : K) := by
    intro t ht
    have h1 : binary p ((t : K) * pt) ≤ t := by
      refine binary_le_of_le hp (isNumber_nat (by omega)) ?_
      exact mul_le_of_le_one_right (Nat.cast_nonneg t) hpt
    unfold maxExpYearsR
    rw [max_eq_left h1, ← Nat.cast_add]
    exact (isNumber_nat ht).fixed hp
  have hmax : ∀ t : ℕ, maxExpYears t (initExpMax : K) pt = ((initExpMax + t : ℕ) : K) := by
    intro t
    unfold maxExpYears
    rw [max_eq_left (mul_le_of_le_one_right (Nat.cast_nonneg t) hpt), ← Nat.cast_add]
  set M : K := ((initExpMax + t : ℕ) : K) with hM
  have hM1 : ((initExpMax + (t + 1) : ℕ) : K) = M + 1 := by rw [hM]; push_cast; ring
  have hM0 : 0 ≤ M := Nat.cast_nonneg _
  have hnum1 : IsNumber p (M + 1) := by rw [← hM1]; exact isNumber_nat (by omega)
  have hnum0 : IsNumber p M := isNumber_nat (by omega)
  -- the pieces
  set y1 := binary p (s' * M) with hy1
  have a1 : 0 ≤ y1 := binary_nonneg p (mul_nonneg h0 hM0)
  have b1 : y1 ≤ M := binary_le_of_le hp hnum0 (mul_le_of_le_one_left hM0 h1)
  have e1 : |y1 - s' * M| ≤ M / 2 ^ p := by
    refine (binary_error p _).trans ?_
    rw [abs_of_nonneg (mul_nonneg h0 hM0)]
    exact div_le_div_of_nonneg_right (mul_le_of_le_one_left hM0 h1) hP.le
  obtain ⟨i1, i2, hi1, hi2, hi12, hd1, hd2⟩ : ∃ i1 i2 : K, 0 ≤ i1 ∧ 0 ≤ i2 ∧ i1 + i2 ≤ 1 ∧
      i1 = ind (c == 1) * pt ∧ i2 = ind (c == 2) * 1 := by
    refine ⟨_, _, ?_, ?_, ?_, rfl, rfl⟩
    · rcases Bool.eq_false_or_eq_true (c == 1) with h | h <;> simp [h, ind, hpt0]
    · rcases Bool.eq_false_or_eq_true (c == 2) with h | h <;> simp [h, ind]
    · rcases Bool.eq_false_or_eq_true (c == 1) with h | h
      · have : (c == 2) = false := by
          have := of_decide_eq_true h
          subst this; rfl
        simp [h, this, ind, hpt]
      · rcases Bool.eq_false_or_eq_true (c == 2) with h' | h' <;> simp [h, h', ind]
  have hi2' : i2 = 0 ∨ i1 = 0 := by
    rcases Bool.eq_false_or_eq_true (c == 1) with h | h
    · have : (c == 2) = false := by
        have := of_decide_eq_true h
        subst this; rfl
      left; rw [hd2, this]; simp [ind]
    · right; rw [hd1, h]; simp [ind]
  set y2 := binary p (y1 + i1) with hy2
  have a2 : 0 ≤ y2 := binary_nonneg p (by linarith)
  have b2 : y2 + i2 ≤ M + 1 := by
    rcases hi2' with h | h
    · rw [h, add_zero]; exact binary_le_of_le hp hnum1 (by linarith)
    · have : y2 = y1 := by rw [hy2, h, add_zero, hy1, binary_idem p hp]
      rw [this]; linarith
  have e2 : |y2 - (y1 + i1)| ≤ (M + 1) / 2 ^ p := by
    refine (binary_error p _).trans ?_
    rw [abs_of_nonneg (by linarith)]
    exact div_le_div_of_nonneg_right (by linarith) hP.le
  set y3 := binary p (y2 + i2) with hy3
  have a3 : 0 ≤ y3 := binary_nonneg p (by linarith)
  have b3 : y3 ≤ M + 1 := binary_le_of_le hp hnum1 b2
  have e3 : |y3 - (y2 + i2)| ≤ (M + 1) / 2 ^ p := by
    refine (binary_error p _).trans ?_
    rw [abs_of_nonneg (by linarith)]
    exact div_le_div_of_nonneg_right b2 hP.le
  have hpos : 0 < M + 1 := by linarith
  have hq1 : y3 / (M + 1) ≤ 1 := by rw [div_le_one hpos]; exact b3
  have e4 : |binary p (y3 / (M + 1)) - y3 / (M + 1)| ≤ 1 / 2 ^ p := by
    refine (binary_error p _).trans ?_
    rw [abs_of_nonneg (div_nonneg a3 hpos.le)]
    exact div_le_div_of_nonneg_right hq1 hP.le
  have r1 : nextStockR (binary p) s' t (initExpMax : K) pt c = clip (binary p (y3 / (M + 1))) 0 1 := by
    unfold nextStockR expYearsToStockR nextExpYearsR stockToExpYearsR
    rw [hmaxR t (by omega), hmaxR (t + 1) (by omega), hM1, ← hM]
    dsimp only
    rw [if_pos hpos, ← hd1, ← hd2]
  have r2 : nextStock s t (initExpMax : K) pt c = clip ((s * M + i1 + i2) / (M + 1)) 0 1 := by
    unfold nextStock expYearsToStock nextExpYears stockToExpYears
    rw [hmax t, hmax (t + 1), hM1, ← hM]
    dsimp only
    rw [if_pos hpos, ← hd1, ← hd2]
  rw [r1, r2]
  refine (clip_lip _ _).trans ?_
  have f1 : y3 / (M + 1) - (s * M + i1 + i2) / (M + 1) =
      ((y3 - (y2 + i2)) + (y2 - (y1 + i1)) + (y1 - s' * M) + (s' - s) * M) / (M + 1) := by
    rw [← sub_div]; congr 1; ring
  have f2 : |y3 / (M + 1) - (s * M + i1 + i2) / (M + 1)| ≤ |s' - s| + 3 / 2 ^ p := by
    rw [f1, abs_div, abs_of_pos hpos, div_le_iff₀ hpos]
    have g1 := abs_add_le ((y3 - (y2 + i2)) + (y2 - (y1 + i1)) + (y1 - s' * M)) ((s' - s) * M)
    have g2 := abs_add_le ((y3 - (y2 + i2)) + (y2 - (y1 + i1))) (y1 - s' * M)
    have g3 := abs_add_le (y3 - (y2 + i2)) (y2 - (y1 + i1))
    rw [abs_mul, abs_of_nonneg hM0] at g1
    have g4 : |s' - s| * M ≤ |s' - s| * (M + 1) := mul_le_mul_of_nonneg_left (by linarith) (abs_nonneg _)
    have g5 : M / 2 ^ p ≤ (M + 1) / 2 ^ p := div_le_div_of_nonneg_right (by linarith) hP.le
    have g6 : (|s' - s| + 3 / 2 ^ p) * (M + 1) = |s' - s| * (M + 1) + 3 * ((M + 1) / 2 ^ p) := by ring
    rw [g6]
    linarith
  have f3 := abs_sub_le (binary p (y3 / (M + 1))) (y3 / (M + 1)) ((s * M + i1 + i2) / (M + 1))
  have f4 : (4 : K) / 2 ^ p = 1 / 2 ^ p + 3 / 2 ^ p := by ring
  rw [f4]
  linarith

/-- C99: over a career of any length, experience computed with `p` binary digits is within `4 / 2^p` per period of
exact experience, whatever the choices: errors do not build up beyond that. -/
theorem C99_career (hp : 1 ≤ p) (initExpMax : ℕ) (pt : K) (hpt0 : 0 ≤ pt) (hpt : pt ≤ 1) (s : K) (h0 : 0 ≤ s)
    (h1 : s ≤ 1) (t : ℕ) (choices : List ℕ) (hsize : initExpMax + t + choices.length ≤ 2 ^ p) :
    |career (fun s t c => nextStockR (binary p) s t (initExpMax : K) pt c) s t choices -
      career (fun s t c => nextStock s t (initExpMax : K) pt c) s t choices| ≤
      choices.length * (4 / 2 ^ p) := by
  have key : ∀ (cs : List ℕ) (t : ℕ) (s' s : K), 0 ≤ s' → s' ≤ 1 → initExpMax + t + cs.length ≤ 2 ^ p →
      |career (fun s t c => nextStockR (binary p) s t (initExpMax : K) pt c) s' t cs -
        career (fun s t c => nextStock s t (initExpMax : K) pt c) s t cs| ≤ |s' - s| + cs.length * (4 / 2 ^ p) := by
    intro cs
    induction cs with
    | nil => intro t s' s _ _ _; simp [career]
    | cons c cs ih =>
      intro t s' s a b hs
      have hs' : initExpMax + t + 1 + cs.length ≤ 2 ^ p := by simp at hs; omega
      have hin : 0 ≤ nextStockR (binary p) s' t (initExpMax : K) pt c ∧
          nextStockR (binary p) s' t (initExpMax : K) pt c ≤ 1 := by
        unfold nextStockR clip
        exact ⟨le_min (le_max_right _ _) zero_le_one, min_le_right _ _⟩
      have h := ih (t + 1) (nextStockR (binary p) s' t (initExpMax : K) pt c)
        (nextStock s t (initExpMax : K) pt c) hin.1 hin.2 (by omega)
      have h2 := nextStockR_error hp initExpMax t c pt hpt0 hpt (by omega) (s := s) a b
      simp only [career]
      refine h.trans ?_
      simp only [List.length_cons]
      push_cast
      linarith
  have := key choices t s s h0 h1 hsize
  rwa [sub_self, abs_zero, zero_add] at this

/-! ## Lookups -/

/-- The line through the points `(i, f i)`. -/
def poly (f : ℕ → K) (u : K) : K := f ⌊u⌋₊ + (u - (⌊u⌋₊ : K)) * (f (⌊u⌋₊ + 1) - f ⌊u⌋₊)

theorem chain {f : ℕ → K} {D : K} (hD : ∀ i, |f (i + 1) - f i| ≤ D) (i k : ℕ) :
    |f (i + k) - f i| ≤ D * k := by
  induction k with
  | zero => simp
  | succ k ih =>
    have := abs_sub_le (f (i + (k + 1))) (f (i + k)) (f i)
    have h2 := hD (i + k)
    rw [show i + k + 1 = i + (k + 1) by ring] at h2
    push_cast
    linarith

theorem poly_lip {f : ℕ → K} {D : K} (hD : ∀ i, |f (i + 1) - f i| ≤ D) {a b : K} (ha : 0 ≤ a)
    (hab : a ≤ b) : |poly f b - poly f a| ≤ D * (b - a) := by
  have hb : 0 ≤ b := ha.trans hab
  have hm : ⌊a⌋₊ ≤ ⌊b⌋₊ := Nat.floor_le_floor hab
  have a1 := Nat.floor_le ha
  have a2 := Nat.lt_floor_add_one a
  have b1 := Nat.floor_le hb
  unfold poly
  rcases hm.eq_or_lt with h | h
  · rw [← h]
    have : f ⌊a⌋₊ + (b - (⌊a⌋₊ : K)) * (f (⌊a⌋₊ + 1) - f ⌊a⌋₊)
        - (f ⌊a⌋₊ + (a - (⌊a⌋₊ : K)) * (f (⌊a⌋₊ + 1) - f ⌊a⌋₊)) = (f (⌊a⌋₊ + 1) - f ⌊a⌋₊) * (b - a) := by ring
    rw [this, abs_mul, abs_of_nonneg (sub_nonneg.2 hab)]
    exact mul_le_mul_of_nonneg_right (hD _) (sub_nonneg.2 hab)
  · set i := ⌊a⌋₊ with hi
    set j := ⌊b⌋₊ with hj
    obtain ⟨k, hk⟩ : ∃ k, j = i + 1 + k := ⟨j - (i + 1), by omega⟩
    have hc := chain hD (i + 1) k
    rw [← hk] at hc
    have hkK : (j : K) = i + 1 + k := by rw [hk]; push_cast; ring
    have e : f j + (b - (j : K)) * (f (j + 1) - f j) - (f i + (a - (i : K)) * (f (i + 1) - f i))
        = (b - (j : K)) * (f (j + 1) - f j) + (f j - f (i + 1)) + ((i : K) + 1 - a) * (f (i + 1) - f i) := by ring
    rw [e]
    have g1 : |(b - (j : K)) * (f (j + 1) - f j)| ≤ (b - j) * D := by
      rw [abs_mul, abs_of_nonneg (by linarith : (0 : K) ≤ b - j)]
      exact mul_le_mul_of_nonneg_left (hD j) (by linarith)
    have g2 : |((i : K) + 1 - a) * (f (i + 1) - f i)| ≤ ((i : K) + 1 - a) * D := by
      rw [abs_mul, abs_of_nonneg (by linarith : (0 : K) ≤ (i : K) + 1 - a)]
      exact mul_le_mul_of_nonneg_left (hD i) (by linarith)
    have h1 := abs_add_le ((b - (j : K)) * (f (j + 1) - f j) + (f j - f (i + 1)))
      (((i : K) + 1 - a) * (f (i + 1) - f i))
    have h2 := abs_add_le ((b - (j : K)) * (f (j + 1) - f j)) (f j - f (i + 1))
    have : D * (b - a) = (b - j) * D + D * k + ((i : K) + 1 - a) * D := by rw [hkK]; ring
    rw [this]
    linarith

/-- The entries, the last one repeated. -/
def entry (values : List K) (i : ℕ) : K := values.getD (min i (values.length - 1)) 0

theorem entry_step {values : List K} (hn : 1 ≤ values.length) {D : K} (hD0 : 0 ≤ D)
    (hD : ∀ (i : ℕ) (h : i + 1 < values.length), |values[i + 1] - values[i]| ≤ D) (i : ℕ) :
    |entry values (i + 1) - entry values i| ≤ D := by
  unfold entry
  rcases lt_or_ge (i + 1) values.length with h | h
  · rw [min_eq_left (by omega), min_eq_left (by omega), getD_of_lt h, getD_of_lt (by omega)]
    exact hD i h
  · rw [min_eq_right (by omega), min_eq_right (by omega), sub_self, abs_zero]
    exact hD0

theorem position {n : ℕ} (hn : 1 ≤ n) {u : K} (h0 : 0 ≤ u) (h1 : u ≤ ((n - 1 : ℕ) : K)) :
    ∃ i : ℕ, ⌊u⌋ = (i : ℤ) ∧ ⌊u⌋₊ = i ∧ i ≤ n - 1 ∧ i < n ∧ min (i + 1) (n - 1) < n ∧
      min ((i : ℤ) + 1) ((n : ℤ) - 1) = ((min (i + 1) (n - 1) : ℕ) : ℤ) := by
  refine ⟨⌊u⌋₊, (Int.natCast_floor_eq_floor h0).symm, rfl, ?_, ?_, by omega, by omega⟩
  · exact Nat.floor_le_of_le h1
  · have := Nat.floor_le_of_le h1; omega

theorem lookup_exact {values : List K} (hn : 1 ≤ values.length) (stock : K) :
    interpUniformGrid values stock =
      .ok (poly (entry values) (min (max stock 0) 1 * ((values.length - 1 : ℕ) : K))) := by
  set n := values.length with hndef
  have hcast : (((n : ℤ) - 1 : ℤ) : K) = ((n - 1 : ℕ) : K) := by
    rw [Nat.cast_sub hn]; push_cast; ring
  have hnn : (0 : K) ≤ ((n - 1 : ℕ) : K) := Nat.cast_nonneg _
  set c := min (max stock (0 : K)) 1 with hc
  have hc0 : 0 ≤ c := le_min (le_max_right _ _) zero_le_one
  obtain ⟨i, hfl, hfn, hi1, hi, hj, hmin⟩ := position hn (mul_nonneg hc0 hnn)
    (mul_le_of_le_one_left hnn (min_le_right _ _))
  unfold interpUniformGrid clip poly entry
  dsimp only
  rw [← hndef, hcast, ← hc, hfl, hfn, hmin, npGet_of_lt hi, ok_bind, npGet_of_lt hj, ok_bind, Int.cast_natCast, min_eq_left hi1,
    getD_of_lt hi, getD_of_lt hj]
  rfl

private theorem lookup_rounded (hp : 1 ≤ p) {values : List K} (hn : 1 ≤ values.length)
    (hsize : values.length ≤ 2 ^ p + 1) (stock : K) :
    ∃ u : K, u = binary p (min (max stock 0) 1 * ((values.length - 1 : ℕ) : K)) ∧ 0 ≤ u ∧
      interpUniformGridR (binary p) values stock =
        .ok (binary p (entry values ⌊u⌋₊ + binary p ((u - (⌊u⌋₊ : K)) *
          binary p (entry values (⌊u⌋₊ + 1) - entry values ⌊u⌋₊)))) := by
  set n := values.length with hndef
  have hcast : (((n : ℤ) - 1 : ℤ) : K) = ((n - 1 : ℕ) : K) := by
    rw [Nat.cast_sub hn]; push_cast; ring
  have hnn : (0 : K) ≤ ((n - 1 : ℕ) : K) := Nat.cast_nonneg _
  set c := min (max stock (0 : K)) 1 with hc
  have hc0 : 0 ≤ c := le_min (le_max_right _ _) zero_le_one
  set u := binary p (c * ((n - 1 : ℕ) : K)) with hu
  have hu0 : 0 ≤ u := binary_nonneg p (mul_nonneg hc0 hnn)
  have hu1 : u ≤ ((n - 1 : ℕ) : K) :=
    binary_le_of_le hp (isNumber_nat (by omega)) (mul_le_of_le_one_left hnn (min_le_right _ _))
  obtain ⟨i, hfl, hfn, hi1, hi, hj, hmin⟩ := position hn hu0 hu1
  have hw : IsNumber p (u - (i : K)) := by
    have := isNumber_fract (isNumber_binary (p := p) (c * ((n - 1 : ℕ) : K))) hu0
    rwa [← hu, hfl, Int.cast_natCast] at this
  refine ⟨u, rfl, hu0, ?_⟩
  have hcell : uniformCellR (binary p) (n : ℤ) stock
      = ((i : ℤ), ((min (i + 1) (n - 1) : ℕ) : ℤ), u - (i : K)) := by
    unfold uniformCellR clip
    dsimp only
    rw [hcast, ← hc, ← hu, hfl, Int.cast_natCast, hmin, hw.fixed hp]
  unfold interpUniformGridR entry
  rw [← hndef, hcell, hfn]
  dsimp only
  rw [npGet_of_lt hi, ok_bind, npGet_of_lt hj, ok_bind, min_eq_left hi1, getD_of_lt hi, getD_of_lt hj]
  rfl

/-- C99: the lookup of the simulator computed with `p` binary digits is within `(V + (n + 4) D) / 2^p` of the exact one,
if the `n` entries are at most `V` in absolute value and neighbours differ by at most `D`. -/
theorem C99_lookup (hp : 1 ≤ p) {values : List K} (hn : 1 ≤ values.length) (hsize : values.length ≤ 2 ^ p + 1)
    (stock V D : K) (hV : ∀ v ∈ values, |v| ≤ V) (hD0 : 0 ≤ D)
    (hD : ∀ (i : ℕ) (h : i + 1 < values.length), |values[i + 1] - values[i]| ≤ D) :
    ∃ v v', interpUniformGrid values stock = .ok v ∧ interpUniformGridR (binary p) values stock = .ok v' ∧
      |v' - v| ≤ (V + (values.length + 4) * D) / 2 ^ p := by
  obtain ⟨u, hu, hu0, hR⟩ := lookup_rounded hp hn hsize stock
  refine ⟨_, _, lookup_exact hn stock, hR, ?_⟩
  set x := min (max stock (0 : K)) 1 * ((values.length - 1 : ℕ) : K) with hx
  have hP : (0 : K) < 2 ^ p := by positivity
  have hP1 : (1 : K) / 2 ^ p ≤ 1 := by
    rw [div_le_one hP]; exact one_le_pow₀ (by norm_num)
  have hnn : (0 : K) ≤ ((values.length - 1 : ℕ) : K) := Nat.cast_nonneg _
  have hc0 : (0 : K) ≤ min (max stock 0) 1 := le_min (le_max_right _ _) zero_le_one
  have hx0 : 0 ≤ x := mul_nonneg hc0 hnn
  have hxn : x ≤ ((values.length - 1 : ℕ) : K) := mul_le_of_le_one_left hnn (min_le_right _ _)
  have hstep := entry_step hn hD0 hD
  -- the position
  have hpos : |poly (entry values) u - poly (entry values) x| ≤ D * (((values.length - 1 : ℕ) : K) / 2 ^ p) := by
    have herr : |u - x| ≤ ((values.length - 1 : ℕ) : K) / 2 ^ p := by
      rw [hu]
      refine (binary_error p x).trans ?_
      rw [abs_of_nonneg hx0]
      exact div_le_div_of_nonneg_right hxn hP.le
    rcases le_total x u with h | h
    · refine (poly_lip hstep hx0 h).trans (mul_le_mul_of_nonneg_left ?_ hD0)
      rwa [abs_of_nonneg (sub_nonneg.2 h)] at herr
    · rw [abs_sub_comm]
      refine (poly_lip hstep hu0 h).trans (mul_le_mul_of_nonneg_left ?_ hD0)
      rwa [abs_sub_comm, abs_of_nonneg (sub_nonneg.2 h)] at herr
  -- the evaluation
  set i := ⌊u⌋₊ with hi
  set w := u - (i : K) with hw
  have hw0 : 0 ≤ w := sub_nonneg.2 (Nat.floor_le hu0)
  have hw1 : w ≤ 1 := by have := Nat.lt_floor_add_one u; linarith
  set d := entry values (i + 1) - entry values i with hd
  have hdD : |d| ≤ D := hstep i
  have e1 : |binary p d - d| ≤ D / 2 ^ p := (binary_error p d).trans (div_le_div_of_nonneg_right hdD hP.le)
  have b1 : |binary p d| ≤ 2 * D := by
    have h1 := abs_add_le (binary p d - d) d
    rw [sub_add_cancel] at h1
    have h2 : D / 2 ^ p ≤ D := by rw [div_eq_mul_one_div]; exact mul_le_of_le_one_right hD0 hP1
    linarith
  have b2 : |w * binary p d| ≤ 2 * D := by
    rw [abs_mul, abs_of_nonneg hw0]
    exact (mul_le_of_le_one_left (abs_nonneg _) hw1).trans b1
  have e2 : |binary p (w * binary p d) - w * binary p d| ≤ 2 * D / 2 ^ p :=
    (binary_error p _).trans (div_le_div_of_nonneg_right b2 hP.le)
  have e2' : |w * binary p d - w * d| ≤ D / 2 ^ p := by
    rw [← mul_sub, abs_mul, abs_of_nonneg hw0]
    exact (mul_le_of_le_one_left (abs_nonneg _) hw1).trans e1
  have hentry : |entry values i| ≤ V := by
    unfold entry
    rw [getD_of_lt (by omega)]
    exact hV _ (List.getElem_mem _)
  -- |binary p (w * binary p d)| ≤ 2 D: rounding does not leave [-|binary p d|, |binary p d|]
  have b3 : |binary p (w * binary p d)| ≤ 2 * D := by
    have hnum : IsNumber p |binary p d| := by
      rcases abs_choice (binary p d) with h | h <;> rw [h]
      · exact isNumber_binary _
      · exact (isNumber_binary _).neg
    have hle : |w * binary p d| ≤ |binary p d| := by
      rw [abs_mul, abs_of_nonneg hw0]
      exact mul_le_of_le_one_left (abs_nonneg _) hw1
    refine le_trans (abs_le.2 ⟨?_, ?_⟩) b1
    · exact le_binary_of_le hp hnum.neg (abs_le.1 hle).1
    · exact binary_le_of_le hp hnum (abs_le.1 hle).2
  have e3 : |binary p (entry values i + binary p (w * binary p d)) -
      (entry values i + binary p (w * binary p d))| ≤ (V + 2 * D) / 2 ^ p := by
    refine (binary_error p _).trans (div_le_div_of_nonneg_right ?_ hP.le)
    exact (abs_add_le _ _).trans (add_le_add hentry b3)
  have hpoly : poly (entry values) u = entry values i + w * d := rfl
  have t : binary p (entry values i + binary p (w * binary p d)) - poly (entry values) x =
      (binary p (entry values i + binary p (w * binary p d)) - (entry values i + binary p (w * binary p d)))
      + (binary p (w * binary p d) - w * binary p d) + (w * binary p d - w * d)
      + (poly (entry values) u - poly (entry values) x) := by
    rw [hpoly]; ring
  rw [t]
  have t1 := abs_add_le ((binary p (entry values i + binary p (w * binary p d)) -
      (entry values i + binary p (w * binary p d))) + (binary p (w * binary p d) - w * binary p d)
      + (w * binary p d - w * d)) (poly (entry values) u - poly (entry values) x)
  have t2 := abs_add_le ((binary p (entry values i + binary p (w * binary p d)) -
      (entry values i + binary p (w * binary p d))) + (binary p (w * binary p d) - w * binary p d))
      (w * binary p d - w * d)
  have t3 := abs_add_le (binary p (entry values i + binary p (w * binary p d)) -
      (entry values i + binary p (w * binary p d))) (binary p (w * binary p d) - w * binary p d)
  have hcast : ((values.length - 1 : ℕ) : K) = (values.length : K) - 1 := by
    rw [Nat.cast_sub hn]; push_cast; ring
  have tot : (V + 2 * D) / 2 ^ p + 2 * D / 2 ^ p + D / 2 ^ p + D * (((values.length - 1 : ℕ) : K) / 2 ^ p)
      = (V + (values.length + 4) * D) / 2 ^ p := by
    rw [hcast]; ring
  rw [← tot]
  linarith

/-! ## Taxes -/

/-- A computed amount that is not negative, and its relative error in units. -/
private def Near (p k : ℕ) (a b : K) : Prop :=
  0 ≤ b ∧ b * (1 - 1 / 2 ^ p) ^ k ≤ a ∧ a ≤ b * (1 + 1 / 2 ^ p) ^ k

private theorem unit_mem : (0 : K) ≤ 1 - 1 / 2 ^ p ∧ (1 : K) - 1 / 2 ^ p ≤ 1 ∧ (1 : K) ≤ 1 + 1 / 2 ^ p := by
  have hP : (0 : K) < 2 ^ p := by positivity
  have : (1 : K) / 2 ^ p ≤ 1 := by rw [div_le_one hP]; exact one_le_pow₀ (by norm_num)
  have h0 : (0 : K) < 1 / 2 ^ p := by positivity
  exact ⟨by linarith, by linarith, by linarith⟩

private theorem Near.nonneg {k : ℕ} {a b : K} (h : Near p k a b) : 0 ≤ a :=
  (mul_nonneg h.1 (pow_nonneg unit_mem.1 _)).trans h.2.1

private theorem Near.weaken {k l : ℕ} {a b : K} (h : Near p k a b) (hkl : k ≤ l) : Near p l a b :=
  ⟨h.1, (mul_le_mul_of_nonneg_left (pow_le_pow_of_le_one unit_mem.1 unit_mem.2.1 hkl) h.1).trans h.2.1,
    h.2.2.trans (mul_le_mul_of_nonneg_left (pow_le_pow_right₀ unit_mem.2.2 hkl) h.1)⟩

private theorem Near.refl {a : K} (h : 0 ≤ a) : Near p 0 a a := ⟨h, by simp, by simp⟩

private theorem Near.round {k : ℕ} {a b : K} (h : Near p k a b) : Near p (k + 1) (binary p a) b := by
  have ha := h.nonneg
  have e := abs_le.1 (binary_error p a)
  rw [abs_of_nonneg ha] at e
  have l1 : a * (1 - 1 / 2 ^ p) ≤ binary p a := by
    have : a * (1 - 1 / 2 ^ p) = a - a / 2 ^ p := by ring
    rw [this]; linarith [e.1]
  have l2 : binary p a ≤ a * (1 + 1 / 2 ^ p) := by
    have : a * (1 + 1 / 2 ^ p) = a + a / 2 ^ p := by ring
    rw [this]; linarith [e.2]
  refine ⟨h.1, ?_, ?_⟩
  · rw [pow_succ, ← mul_assoc]
    exact (mul_le_mul_of_nonneg_right h.2.1 unit_mem.1).trans l1
  · rw [pow_succ, ← mul_assoc]
    exact l2.trans (mul_le_mul_of_nonneg_right h.2.2 (by linarith [unit_mem (K := K) (p := p)]))

private theorem Near.add {k : ℕ} {a b a' b' : K} (h : Near p k a b) (h' : Near p k a' b') :
    Near p k (a + a') (b + b') :=
  ⟨add_nonneg h.1 h'.1, by rw [add_mul]; exact add_le_add h.2.1 h'.2.1, by rw [add_mul]; exact add_le_add h.2.2 h'.2.2⟩

private theorem Near.mul {k l : ℕ} {a b a' b' : K} (h : Near p k a b) (h' : Near p l a' b') :
    Near p (k + l) (a * a') (b * b') := by
  refine ⟨mul_nonneg h.1 h'.1, ?_, ?_⟩
  · rw [pow_add, mul_mul_mul_comm]
    exact mul_le_mul h.2.1 h'.2.1 (mul_nonneg h'.1 (pow_nonneg unit_mem.1 _)) h.nonneg
  · rw [pow_add, mul_mul_mul_comm]
    exact mul_le_mul h.2.2 h'.2.2 h'.nonneg (mul_nonneg h.1 (pow_nonneg (by linarith [unit_mem (K := K) (p := p)]) _))

private theorem interval_near (hp : 1 ≤ p) (tp : TaxParams K) (i : Fin 4) (hb : 0 ≤ tp.base i)
    (hl : 0 ≤ tp.linear i) (hq : 0 ≤ tp.quad i) {x : K} (hx : tp.thresholds i ≤ x) :
    Near p 6 (calcIntervalTaxR (binary p) tp x i) (calcIntervalTax tp x i) := by
  have d : Near p 1 (binary p (x - tp.thresholds i)) (x - tp.thresholds i) :=
    (Near.refl (sub_nonneg.2 hx)).round
  have d2 := (d.mul d).round
  rw [← pow_two, ← pow_two] at d2
  have q := ((Near.refl hq).mul d2).round
  have l := ((Near.refl hl).mul d).round
  have t := ((l.weaken (by norm_num : 0 + 1 + 1 ≤ 0 + (1 + 1 + 1) + 1)).add q).round
  exact (((Near.refl hb).weaken (Nat.zero_le _)).add t).round

/-- C99: the income tax computed with `p` binary digits has a relative error of at most six roundings, for every
schedule with ordered thresholds and coefficients that are not negative, and every income. -/
theorem C99_tax (hp : 1 ≤ p) (tp : TaxParams K) (h01 : tp.thresholds 0 ≤ tp.thresholds 1)
    (h12 : tp.thresholds 1 ≤ tp.thresholds 2) (h23 : tp.thresholds 2 ≤ tp.thresholds 3)
    (hb : ∀ i, 0 ≤ tp.base i) (hl : ∀ i, 0 ≤ tp.linear i) (hq : ∀ i, 0 ≤ tp.quad i) (x : K) :
    incTax tp x * (1 - 1 / 2 ^ p) ^ 6 ≤ incTaxR (binary p) tp x ∧
      incTaxR (binary p) tp x ≤ incTax tp x * (1 + 1 / 2 ^ p) ^ 6 := by
  have n := fun i => interval_near (x := x) hp tp i (hb i) (hl i) (hq i)
  rw [incTaxR_eq hp tp h01 h12 h23]
  rw [incTax_cases ⟨h01, h12, h23⟩]
  split_ifs with c0 c1 c2 c3
  · simp
  · exact (n 0 (not_lt.1 c0)).2
  · exact (n 1 (not_lt.1 c1)).2
  · exact (n 2 (not_lt.1 c2)).2
  · exact (n 3 (not_lt.1 c3)).2

/-! ## Instances -/

/-- C99: forty periods in single precision: experience is off by less than 0.00001. -/
example (s : ℚ) (h0 : 0 ≤ s) (h1 : s ≤ 1) (choices : List ℕ) (h : choices.length = 40) :
    |career (fun s t c => nextStockR (binary 24) s t ((4 : ℕ) : ℚ) (1 / 2) c) s 0 choices -
      career (fun s t c => nextStock s t ((4 : ℕ) : ℚ) (1 / 2) c) s 0 choices| ≤ 1 / 100000 := by
  refine (C99_career (by norm_num) 4 (1 / 2) (by norm_num) (by norm_num) s h0 h1 0 choices
    (by rw [h]; norm_num)).trans ?_
  rw [h]; norm_num

/-- C99: a career in which rounding is visible, in double precision. -/
example : career (fun s t c => nextStockR (binary 53) s t ((2 : ℕ) : ℚ) (1 / 2) c) 0 0 [1] ≠
    career (fun s t c => nextStock s t ((2 : ℕ) : ℚ) (1 / 2) c) 0 0 [1] := by
  decide +kernel

/-- C99: a table of three values at a stock of a third. -/
example : ∃ v v', interpUniformGrid [1, 2, 4] (1 / 3 : ℚ) = .ok v ∧
    interpUniformGridR (binary 53) [1, 2, 4] (1 / 3 : ℚ) = .ok v' ∧ |v' - v| ≤ (4 + (3 + 4) * 2) / 2 ^ 53 := by
  have h := C99_lookup (p := 53) (values := ([1, 2, 4] : List ℚ)) (by norm_num) (by simp) (by simp) (1 / 3) 4 2
    (by intro v hv
        simp only [List.mem_cons, List.not_mem_nil, or_false] at hv
        rcases hv with rfl | rfl | rfl <;> norm_num [abs_of_pos])
    (by norm_num)
    (by intro i hi
        have : i = 0 ∨ i = 1 := by simp at hi; omega
        rcases this with rfl | rfl <;> norm_num [abs_of_pos])
  simpa using h

/-- C99: the schedule of 2007 as it is stored in double precision. -/
example (x : ℚ) : incTax (createTaxParametersR (binary 53)) x * (1 - 1 / 2 ^ 53) ^ 6 ≤
      incTaxR (binary 53) (createTaxParametersR (binary 53)) x ∧
    incTaxR (binary 53) (createTaxParametersR (binary 53)) x ≤
      incTax (createTaxParametersR (binary 53)) x * (1 + 1 / 2 ^ 53) ^ 6 :=
  C99_tax (by norm_num) _ (by decide +kernel) (by decide +kernel) (by decide +kernel)
    (by intro i; fin_cases i <;> decide +kernel) (by intro i; fin_cases i <;> decide +kernel)
    (by intro i; fin_cases i <;> decide +kernel) x

end Soepy.Props
