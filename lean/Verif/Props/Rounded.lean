import Verif.Proof.Rounded
import Verif.Model.Experience
import Mathlib.Tactic.NormNum

/-! # C95, C96: experience and interpolation in rounded arithmetic -/

set_option linter.unusedSectionVars false

namespace Soepy.Props
variable {K : Type} [Field K] [LinearOrder K] [IsStrictOrderedRing K] [FloorRing K]
variable {p : ℕ}

open Spec (IsNumber Between)

/-! ## C95: the simulator's lookup -/

/-- C95 (what rounding means here): the result has `p` binary digits, and no number with `p` digits is
nearer. -/
theorem C95_nearest (hp : 1 ≤ p) (x : K) :
    IsNumber p (binary p x) ∧ ∀ y, IsNumber p y → |binary p x - x| ≤ |y - x| :=
  ⟨isNumber_binary x, fun _ hy => binary_nearest hp x hy⟩

/-- C95 (link to the rest of the model): without rounding the functions are those of the model. -/
theorem C95_without_rounding :
    (∀ (stock : K) period initExpMax pt choice,
      nextStockR id stock period initExpMax pt choice = nextStock stock period initExpMax pt choice) ∧
    (∀ (values : List K) stock, interpUniformGridR id values stock = interpUniformGrid values stock) ∧
    (∀ grid values (x : K), linearInterp1dR id grid values x = linearInterp1d grid values x) :=
  ⟨fun _ _ _ _ _ => rfl, fun _ _ => rfl, fun _ _ _ => rfl⟩

/-- C95: whatever the rounding, experience stays in the unit interval. -/
theorem C95_stock_in_unit_interval (r : K → K) (stock : K) (period : ℕ) (initExpMax pt : K)
    (choice : ℕ) :
    0 ≤ nextStockR r stock period initExpMax pt choice ∧
      nextStockR r stock period initExpMax pt choice ≤ 1 := by
  unfold nextStockR clip
  exact ⟨le_min (le_max_right _ _) zero_le_one, min_le_right _ _⟩

/-- C95: whoever has the full stock and works full-time keeps exactly the full stock, if part-time work
does not count more than full-time work and the years are integers of the format. -/
theorem C95_full_career (hp : 1 ≤ p) (initExpMax period : ℕ) (pt : K) (hpt : pt ≤ 1)
    (hsize : initExpMax + period + 1 ≤ 2 ^ p) :
    nextStockR (binary p) 1 period (initExpMax : K) pt 2 = 1 := by
  have hmax : ∀ t : ℕ, initExpMax + t ≤ 2 ^ p →
      maxExpYearsR (binary p) t (initExpMax : K) pt = ((initExpMax + t : ℕ) : K) := by
    intro t ht
    have h1 : binary p ((t : K) * pt) ≤ t := by
      refine binary_le_of_le hp (isNumber_nat (by omega)) ?_
      exact mul_le_of_le_one_right (Nat.cast_nonneg t) hpt
    unfold maxExpYearsR
    rw [max_eq_left h1, ← Nat.cast_add]
    exact (isNumber_nat ht).fixed hp
  have hyears : stockToExpYearsR (binary p) (1 : K) period (initExpMax : K) pt
      = ((initExpMax + period : ℕ) : K) := by
    unfold stockToExpYearsR
    rw [hmax period (by omega), one_mul]
    exact (isNumber_nat (by omega)).fixed hp
  have hnext : nextExpYearsR (binary p) ((initExpMax + period : ℕ) : K) 2 pt
      = ((initExpMax + (period + 1) : ℕ) : K) := by
    have i1 : (ind ((2 : ℕ) == 1) : K) = 0 := rfl
    have i2 : (ind ((2 : ℕ) == 2) : K) = 1 := rfl
    unfold nextExpYearsR
    dsimp only
    rw [i1, i2, zero_mul, add_zero, one_mul, (isNumber_nat (K := K) (by omega : initExpMax + period ≤ 2 ^ p)).fixed hp]
    have : ((initExpMax + period : ℕ) : K) + 1 = ((initExpMax + (period + 1) : ℕ) : K) := by
      push_cast; ring
    rw [this]
    exact (isNumber_nat (by omega)).fixed hp
  unfold nextStockR
  dsimp only
  rw [hyears, hnext]
  unfold expYearsToStockR
  rw [hmax (period + 1) (by omega)]
  have hpos' : (0 : K) < ((initExpMax + (period + 1) : ℕ) : K) := by exact_mod_cast (by omega)
  dsimp only
  rw [if_pos hpos', div_self hpos'.ne', isNumber_one.fixed hp]
  simp [clip]

/-- C95: in binary arithmetic the lookup of the simulator returns, for a list of numbers that is
not empty and not longer than the format can count, and its result lies between two neighbouring entries: the
one at or below the position `stock * (n - 1)` as it is computed, and the one above (itself at the end). -/
theorem C95_lookup (hp : 1 ≤ p) {values : List K} (hv : ∀ v ∈ values, IsNumber p v)
    (hn : 1 ≤ values.length) (hsize : values.length ≤ 2 ^ p + 1) (stock : K) :
    ∃ (i : ℕ) (hi : i < values.length) (hj : min (i + 1) (values.length - 1) < values.length) (v : K),
      interpUniformGridR (binary p) values stock = .ok v ∧
      Between values[i] values[min (i + 1) (values.length - 1)] v ∧
      (i : K) ≤ binary p (min (max stock 0) 1 * ((values.length : K) - 1)) ∧
      binary p (min (max stock 0) 1 * ((values.length : K) - 1)) < (i : K) + 1 := by
  set n := values.length with hndef
  have hcast : (((n : ℤ) - 1 : ℤ) : K) = ((n - 1 : ℕ) : K) := by
    rw [Nat.cast_sub hn]; push_cast; ring
  have hcast' : (n : K) - 1 = ((n - 1 : ℕ) : K) := by rw [Nat.cast_sub hn]; push_cast; ring
  set c := min (max stock (0 : K)) 1 with hc
  have hc0 : 0 ≤ c := le_min (le_max_right _ _) zero_le_one
  have hc1 : c ≤ 1 := min_le_right _ _
  set u := binary p (c * ((n - 1 : ℕ) : K)) with hu
  have hnn : (0 : K) ≤ ((n - 1 : ℕ) : K) := Nat.cast_nonneg _
  have hu0 : 0 ≤ u := le_binary_of_le hp isNumber_zero (mul_nonneg hc0 hnn)
  have hu1 : u ≤ ((n - 1 : ℕ) : K) :=
    binary_le_of_le hp (isNumber_nat (by omega)) (mul_le_of_le_one_left hnn hc1)
  have hun : IsNumber p u := isNumber_binary _
  have hf0 : 0 ≤ ⌊u⌋ := Int.floor_nonneg.2 hu0
  obtain ⟨i, hi⟩ := Int.eq_ofNat_of_zero_le hf0
  have hfl := Int.floor_le u
  have hfl2 := Int.lt_floor_add_one u
  rw [hi] at hfl hfl2
  have hiK : (((i : ℕ) : ℤ) : K) = (i : K) := Int.cast_natCast i
  rw [hiK] at hfl hfl2
  have hin : i ≤ n - 1 := by exact_mod_cast hfl.trans hu1
  have hilt : i < n := by omega
  have hjlt : min (i + 1) (n - 1) < n := by omega
  have hw : IsNumber p (u - (i : K)) := by
    have := isNumber_fract hun hu0
    rwa [hi, hiK] at this
  refine ⟨i, hilt, hjlt, _, ?_, lerp_between hp (hv _ (List.getElem_mem hilt))
    (hv _ (List.getElem_mem hjlt)) hw (by linarith) (by linarith), by rw [hcast']; exact hfl,
    by rw [hcast']; exact hfl2⟩
  have e2 : min ((i : ℤ) + 1) ((n : ℤ) - 1) = ((min (i + 1) (n - 1) : ℕ) : ℤ) := by omega
  have hcell : uniformCellR (binary p) (n : ℤ) stock
      = ((i : ℤ), ((min (i + 1) (n - 1) : ℕ) : ℤ), u - (i : K)) := by
    unfold uniformCellR clip
    dsimp only
    rw [hcast, ← hc, ← hu, hi, hiK, e2, hw.fixed hp]
  unfold interpUniformGridR
  show (do
    let (idxLo, idxHi, w) := uniformCellR (binary p) (n : ℤ) stock
    let takeLo ← npGet values idxLo
    let takeHi ← npGet values idxHi
    pure (binary p (takeLo + binary p (w * binary p (takeHi - takeLo))))) = _
  rw [hcell]
  dsimp only
  rw [npGet_of_lt hilt, ok_bind, npGet_of_lt hjlt, ok_bind]
  rfl

/-- C95: bounds of the entries are bounds of the result. -/
theorem C95_lookup_bounds (hp : 1 ≤ p) {values : List K} (hv : ∀ v ∈ values, IsNumber p v)
    (hn : 1 ≤ values.length) (hsize : values.length ≤ 2 ^ p + 1) (stock lo hi : K)
    (hlo : ∀ v ∈ values, lo ≤ v) (hhi : ∀ v ∈ values, v ≤ hi) :
    ∃ v, interpUniformGridR (binary p) values stock = .ok v ∧ lo ≤ v ∧ v ≤ hi := by
  obtain ⟨i, h1, h2, v, hv', ⟨hb1, hb2⟩, -⟩ := C95_lookup hp hv hn hsize stock
  exact ⟨v, hv', (le_min (hlo _ (List.getElem_mem h1)) (hlo _ (List.getElem_mem h2))).trans hb1,
    hb2.trans (max_le (hhi _ (List.getElem_mem h1)) (hhi _ (List.getElem_mem h2)))⟩

/-- C95: at a node the lookup returns the entry, without any error. -/
theorem C95_lookup_node (hp : 1 ≤ p) {values : List K} (hv : ∀ v ∈ values, IsNumber p v)
    (hsize : values.length ≤ 2 ^ p + 1) (stock : K) {k : ℕ} (hk : k < values.length)
    (hnode : min (max stock 0) 1 * ((values.length : K) - 1) = k) :
    interpUniformGridR (binary p) values stock = .ok values[k] := by
  set n := values.length with hndef
  have hcast : (((n : ℤ) - 1 : ℤ) : K) = (n : K) - 1 := by push_cast; ring
  have hj : min (k + 1) (n - 1) < n := by omega
  unfold interpUniformGridR uniformCellR clip
  rw [← hndef, hcast, hnode, (isNumber_nat (K := K) (by omega : k ≤ 2 ^ p)).fixed hp]
  have hfl : ⌊(k : K)⌋ = (k : ℤ) := Int.floor_natCast k
  dsimp only
  have e2 : min ((k : ℤ) + 1) ((n : ℤ) - 1) = ((min (k + 1) (n - 1) : ℕ) : ℤ) := by omega
  rw [hfl, e2, npGet_of_lt hk, ok_bind, npGet_of_lt hj, ok_bind, Int.cast_natCast, sub_self, binary_zero,
    zero_mul, binary_zero, add_zero, (hv _ (List.getElem_mem hk)).fixed hp]
  rfl

/-! ## C96: the solver's interpolation -/

/-- Which segment the solver uses (as in Proof/Interp). -/
private theorem upper_index {grid : List K} (hs : grid.Pairwise (· < ·)) {x : K} {i : ℕ}
    (hi : i + 1 < grid.length) (hlo : grid[i] ≤ x) (hhi : i + 2 = grid.length ∨ x < grid[i + 1]) :
    min (max (searchsortedRight grid x : Int) 1) ((grid.length : Int) - 1) = ((i + 1 : ℕ) : Int) := by
  by_cases hx : x < grid[i + 1]
  · have : searchsortedRight grid x = i + 1 := by
      apply searchsortedRight_eq (by omega)
      · intro j hj hjk
        exact le_trans (pairwise_get_le hs (by omega) (by omega : j ≤ i)) hlo
      · intro j hj hjk
        exact lt_of_lt_of_le hx (pairwise_get_le hs hj hjk)
    rw [this]; omega
  · have hn : i + 2 = grid.length := by tauto
    have : searchsortedRight grid x = grid.length := by
      apply searchsortedRight_eq le_rfl
      · intro j hj hjk
        exact le_trans (pairwise_get_le hs (by omega) (by omega : j ≤ i + 1)) (not_lt.1 hx)
      · intro j hj hjk; omega
    rw [this]; omega

theorem linearInterp1dR_segment (hp : 1 ≤ p) {grid values : List K} (hs : grid.Pairwise (· < ·))
    (hlen : values.length = grid.length) {x : K} {i : ℕ}
    (hi : i + 1 < grid.length) (hlo : grid[i] ≤ x) (hhi : i + 2 = grid.length ∨ x < grid[i + 1]) :
    linearInterp1dR (binary p) grid values x =
      binary p (values[i] + binary p (binary p (binary p (x - grid[i]) / binary p (grid[i + 1] - grid[i]))
        * binary p (values[i + 1] - values[i]))) := by
  unfold linearInterp1dR
  simp only [upper_index hs hi hlo hhi]
  have e1 : ((i + 1 : ℕ) : Int) - 1 = ((i : ℕ) : Int) := by omega
  rw [e1, jget_of_lt 0 (by omega : i < grid.length), jget_of_lt 0 hi,
    jget_of_lt 0 (by omega : i < values.length), jget_of_lt 0 (by omega : i + 1 < values.length)]
  have hlt : grid[i] < grid[i + 1] := pairwise_get_lt hs hi (Nat.lt_succ_self i)
  rw [if_pos (binary_pos p hp (sub_pos.2 hlt))]

/-- C96: between two nodes of an increasing grid the weight is between zero and one, and the result lies
between the value at the lower node and the rounded sum of that value and the rounded difference. -/
theorem C96_between (hp : 1 ≤ p) {grid values : List K} (hs : grid.Pairwise (· < ·))
    (hv : ∀ v ∈ values, IsNumber p v) (hlen : values.length = grid.length) {x : K} {i : ℕ}
    (hi : i + 1 < grid.length) (hlo : grid[i] ≤ x) (hhi : x < grid[i + 1]) :
    Between values[i] (binary p (values[i] + binary p (values[i + 1] - values[i])))
      (linearInterp1dR (binary p) grid values x) := by
  rw [linearInterp1dR_segment hp hs hlen hi hlo (.inr hhi)]
  have hlt : grid[i] < grid[i + 1] := pairwise_get_lt hs hi (Nat.lt_succ_self i)
  set w := binary p (binary p (x - grid[i]) / binary p (grid[i + 1] - grid[i])) with hw
  have hden := binary_pos p hp (sub_pos.2 hlt)
  have hnum : binary p (x - grid[i]) ≤ binary p (grid[i + 1] - grid[i]) := binary_mono p hp (by linarith)
  have hw0 : 0 ≤ w := le_binary_of_le hp isNumber_zero
    (div_nonneg (le_binary_of_le hp isNumber_zero (by linarith)) hden.le)
  have hw1 : w ≤ 1 := binary_le_of_le hp isNumber_one ((div_le_one hden).2 hnum)
  have ha : IsNumber p values[i] := hv _ (List.getElem_mem _)
  set a := values[i] with hadef
  set b := values[i + 1] with hbdef
  set d := binary p (b - a) with hd
  have hdn : IsNumber p d := isNumber_binary _
  unfold Between
  rcases le_total 0 d with h | h
  · have h0 : 0 ≤ binary p (w * d) := le_binary_of_le hp isNumber_zero (mul_nonneg hw0 h)
    have h1 : binary p (w * d) ≤ d := binary_le_of_le hp hdn (mul_le_of_le_one_left h hw1)
    have h2 : a ≤ binary p (a + d) := le_binary_of_le hp ha (by linarith)
    rw [min_eq_left h2, max_eq_right h2]
    exact ⟨le_binary_of_le hp ha (by linarith), binary_mono p hp (by linarith)⟩
  · have h0 : binary p (w * d) ≤ 0 :=
      binary_le_of_le hp isNumber_zero (mul_nonpos_of_nonneg_of_nonpos hw0 h)
    have h1 : d ≤ binary p (w * d) := le_binary_of_le hp hdn (by nlinarith)
    have h2 : binary p (a + d) ≤ a := binary_le_of_le hp ha (by linarith)
    rw [min_eq_right h2, max_eq_left h2]
    exact ⟨binary_mono p hp (by linarith), binary_le_of_le hp ha (by linarith)⟩

/-- C96: at every node but the last the result is the value there, without any error. -/
theorem C96_node (hp : 1 ≤ p) {grid values : List K} (hs : grid.Pairwise (· < ·))
    (hv : ∀ v ∈ values, IsNumber p v) (hlen : values.length = grid.length) {i : ℕ}
    (hi : i + 1 < grid.length) :
    linearInterp1dR (binary p) grid values grid[i] = values[i] := by
  rw [linearInterp1dR_segment hp hs hlen hi le_rfl (.inr (pairwise_get_lt hs hi (Nat.lt_succ_self i))), sub_self,
    binary_zero, zero_div, binary_zero, zero_mul, binary_zero, add_zero]
  exact (hv _ (List.getElem_mem _)).fixed hp

/-- C96: the end of the grid.  There the code returns the rounded sum of the last value but one and the
rounded last difference, which misses the last value by no more than its rounding errors. -/
theorem C96_last (hp : 1 ≤ p) {grid values : List K} (hs : grid.Pairwise (· < ·))
    (hlen : values.length = grid.length) {i : ℕ} (hi : i + 2 = grid.length) :
    linearInterp1dR (binary p) grid values grid[i + 1] =
      binary p (values[i] + binary p (values[i + 1] - values[i])) ∧
    |linearInterp1dR (binary p) grid values grid[i + 1] - values[i + 1]| ≤
      (|values[i + 1]| + 2 * |values[i + 1] - values[i]|) / 2 ^ p := by
  have hi' : i + 1 < grid.length := by omega
  have hlt : grid[i] < grid[i + 1] := pairwise_get_lt hs hi' (Nat.lt_succ_self i)
  have e : linearInterp1dR (binary p) grid values grid[i + 1] =
      binary p (values[i] + binary p (values[i + 1] - values[i])) := by
    rw [linearInterp1dR_segment hp hs hlen hi' hlt.le (.inl hi), div_self (binary_pos p hp (sub_pos.2 hlt)).ne',
      isNumber_one.fixed hp, one_mul, binary_idem p hp]
  refine ⟨e, ?_⟩
  rw [e]
  set a := values[i]
  set b := values[i + 1]
  have h1 := binary_error p (b - a)
  have h2 := binary_error p (a + binary p (b - a))
  have hP : (1 : K) ≤ 2 ^ p := one_le_pow₀ (by norm_num)
  have hP0 : (0 : K) < 2 ^ p := by linarith
  have e3 : a + binary p (b - a) - b = binary p (b - a) - (b - a) := by ring
  have h3 : |a + binary p (b - a)| ≤ |b| + |b - a| := by
    have : a + binary p (b - a) = b + (binary p (b - a) - (b - a)) := by ring
    rw [this]
    refine (abs_add_le _ _).trans (add_le_add le_rfl (h1.trans ?_))
    exact div_le_self (abs_nonneg _) hP
  calc |binary p (a + binary p (b - a)) - b|
      ≤ |binary p (a + binary p (b - a)) - (a + binary p (b - a))| + |a + binary p (b - a) - b| :=
        abs_sub_le _ _ _
    _ ≤ (|b| + |b - a|) / 2 ^ p + |b - a| / 2 ^ p := by
        rw [e3]
        exact add_le_add (h2.trans (div_le_div_of_nonneg_right h3 hP0.le)) h1
    _ = (|b| + 2 * |b - a|) / 2 ^ p := by ring

/-- C96, as one might expect it (results stay within the values on the grid), fails in the arithmetic of
Python at the end of the grid: with values -0.3 and 0.1 the result at 1 is above 0.1.  The lookup of the
simulator returns the value itself. -/
theorem C96_last_node_can_exceed :
    ¬ ∀ (grid values : List ℚ) (x : ℚ), grid.Pairwise (· < ·) → values.length = grid.length →
      2 ≤ grid.length → (∀ v ∈ values, IsNumber 53 v) → (∀ v ∈ grid, IsNumber 53 v) → x ∈ grid →
      ∃ v ∈ values, linearInterp1dR (binary 53) grid values x ≤ v := by
  intro h
  obtain ⟨v, hv, hle⟩ := h [0, 1] [binary 53 (-0.3), binary 53 0.1] 1 (by simp) rfl (by simp)
    (by intro v hv
        simp only [List.mem_cons, List.not_mem_nil, or_false] at hv
        rcases hv with rfl | rfl <;> exact isNumber_binary _)
    (by intro v hv
        simp only [List.mem_cons, List.not_mem_nil, or_false] at hv
        rcases hv with rfl | rfl
        · exact isNumber_zero
        · exact isNumber_one) (by simp)
  have : ∀ v ∈ [binary 53 (-0.3), binary 53 (0.1 : ℚ)],
      v < linearInterp1dR (binary 53) [0, 1] [binary 53 (-0.3), binary 53 0.1] 1 := by decide +kernel
  exact absurd hle (not_le.2 (this v hv))

/-- The simulator on the same values: exactly the last value. -/
example : interpUniformGridR (binary 53) [binary 53 (-0.3), binary 53 (0.1 : ℚ)] 1
    = .ok (binary 53 0.1) :=
  C95_lookup_node (by norm_num)
    (by intro v hv
        simp only [List.mem_cons, List.not_mem_nil, or_false] at hv
        rcases hv with rfl | rfl <;> exact isNumber_binary _)
    (by norm_num) 1 (k := 1) (by simp) (by norm_num)

/-- Rounding to 53 digits changes 0.1. -/
example : binary 53 (0.1 : ℚ) = 3602879701896397 / 36028797018963968 := by decide +kernel

/-- 25 periods after entering with at most four years, in 24 digits. -/
example : nextStockR (binary 24) (1 : ℚ) 25 (4 : ℕ) (1/2) 2 = 1 :=
  C95_full_career (by norm_num) 4 25 _ (by norm_num) (by norm_num)

/-- A lookup off the nodes that rounds. -/
example : ∃ v, interpUniformGridR (binary 24) [binary 24 (1/3), binary 24 (2/3), binary 24 (0.1 : ℚ)] (1/7)
    = .ok v ∧ binary 24 0.1 ≤ v ∧ v ≤ binary 24 (2/3) :=
  C95_lookup_bounds (by norm_num)
    (by intro v hv
        simp only [List.mem_cons, List.not_mem_nil, or_false] at hv
        rcases hv with rfl | rfl | rfl <;> exact isNumber_binary _)
    (by norm_num) (by norm_num) _ _ _ (by decide +kernel) (by decide +kernel)

/-- Values of the solver between the nodes of a grid with three points. -/
example : Between (binary 24 (1/3)) (binary 24 (binary 24 (1/3) + binary 24 (binary 24 (2/3) - binary 24 (1/3))))
    (linearInterp1dR (binary 24) [0, 1/2, (1 : ℚ)] [binary 24 (1/3), binary 24 (2/3), binary 24 0.1] (1/7)) :=
  C96_between (p := 24) (grid := [0, 1/2, (1 : ℚ)])
    (values := [binary 24 (1/3), binary 24 (2/3), binary 24 0.1]) (i := 0) (by norm_num) (by decide +kernel)
    (by intro v hv
        simp only [List.mem_cons, List.not_mem_nil, or_false] at hv
        rcases hv with rfl | rfl | rfl <;> exact isNumber_binary _) rfl (by norm_num) (by norm_num) (by norm_num)

end Soepy.Props
