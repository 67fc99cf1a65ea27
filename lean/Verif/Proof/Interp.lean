import Verif.Model.Interp
import Verif.Spec.Interp
import Verif.Proof.Experience
import Verif.Proof.Except

set_option linter.unusedSectionVars false

namespace Soepy
variable {K : Type} [Field K] [LinearOrder K] [IsStrictOrderedRing K]

theorem jaxIndex_of_lt {n : Nat} {i : Nat} (h : i < n) : jaxIndex n (i : Int) = i := by
  unfold jaxIndex
  have : ¬ ((i : Int) < 0) := by omega
  simp only [this, if_false]
  omega

theorem getD_of_lt {α : Type} {d : α} {l : List α} {i : Nat} (h : i < l.length) :
    l.getD i d = l[i] := by
  rw [List.getD_eq_getElem?_getD, List.getElem?_eq_getElem h]
  rfl

theorem jget_of_lt {α : Type} (d : α) {l : List α} {i : Nat} (h : i < l.length) :
    jget d l (i : Int) = l[i] := by
  unfold jget
  rw [jaxIndex_of_lt h, List.getD_eq_getElem?_getD, List.getElem?_eq_getElem h]
  rfl

/-- The number of nodes `<= x`, from the position of `x` in the grid. -/
theorem searchsortedRight_eq {grid : List K} {x : K} {k : Nat} (hk : k ≤ grid.length)
    (hlo : ∀ j (h : j < grid.length), j < k → grid[j] ≤ x)
    (hhi : ∀ j (h : j < grid.length), k ≤ j → x < grid[j]) : searchsortedRight grid x = k := by
  unfold searchsortedRight
  conv_lhs => rw [← List.take_append_drop k grid]
  rw [List.countP_append]
  have h1 : (grid.take k).countP (fun g => decide (g ≤ x)) = (grid.take k).length := by
    rw [List.countP_eq_length]
    intro a ha
    obtain ⟨j, hj, rfl⟩ := List.mem_iff_getElem.1 ha
    simp only [List.length_take] at hj
    simp only [List.getElem_take, decide_eq_true_eq]
    exact hlo j (by omega) (by omega)
  have h2 : (grid.drop k).countP (fun g => decide (g ≤ x)) = 0 := by
    rw [List.countP_eq_zero]
    intro a ha
    obtain ⟨j, hj, rfl⟩ := List.mem_iff_getElem.1 ha
    simp only [List.length_drop] at hj
    simp only [List.getElem_drop, decide_eq_true_eq, not_le]
    exact hhi (k + j) (by omega) (by omega)
  rw [h1, h2, List.length_take, Nat.add_zero, min_eq_left hk]

theorem pairwise_get_lt {grid : List K} (hs : grid.Pairwise (· < ·)) {i j : Nat}
    (hj : j < grid.length) (hij : i < j) : grid[i] < grid[j] :=
  List.pairwise_iff_getElem.1 hs i j (by omega) hj hij

theorem pairwise_get_le {grid : List K} (hs : grid.Pairwise (· < ·)) {i j : Nat}
    (hj : j < grid.length) (hij : i ≤ j) : grid[i] ≤ grid[j] := by
  rcases Nat.eq_or_lt_of_le hij with h | h
  · subst h; exact le_rfl
  · exact (pairwise_get_lt hs hj h).le

/-- The main lemma: which segment is used. -/
theorem linearInterp1d_segment {grid values : List K} (hs : grid.Pairwise (· < ·))
    (hlen : values.length = grid.length) {x : K} {i : Nat} (hi : i + 1 < grid.length)
    (hlo : i = 0 ∨ grid[i] ≤ x) (hhi : i + 2 = grid.length ∨ x < grid[i + 1]) :
    linearInterp1d grid values x =
      Spec.line grid[i] grid[i + 1] values[i] values[i + 1] x := by
  -- the clipped upper index is `i + 1`
  have hidx : min (max (searchsortedRight grid x : Int) 1) ((grid.length : Int) - 1) = (i : Int) + 1 := by
    by_cases hx : x < grid[i + 1]
    · by_cases h0 : grid[i] ≤ x
      · have : searchsortedRight grid x = i + 1 := by
          apply searchsortedRight_eq (by omega)
          · intro j hj hjk
            exact le_trans (pairwise_get_le hs (by omega) (by omega : j ≤ i)) h0
          · intro j hj hjk
            exact lt_of_lt_of_le hx (pairwise_get_le hs hj hjk)
        rw [this]; omega
      · have hi0 : i = 0 := by tauto
        subst hi0
        have : searchsortedRight grid x = 0 := by
          apply searchsortedRight_eq (by omega)
          · intro j hj hjk; omega
          · intro j hj hjk
            exact lt_of_lt_of_le (not_le.1 h0) (pairwise_get_le hs hj (Nat.zero_le _))
        rw [this]; omega
    · have hn : i + 2 = grid.length := by tauto
      have : searchsortedRight grid x = grid.length := by
        apply searchsortedRight_eq le_rfl
        · intro j hj hjk
          exact le_trans (pairwise_get_le hs (by omega) (by omega : j ≤ i + 1)) (not_lt.1 hx)
        · intro j hj hjk; omega
      rw [this]; omega
  unfold linearInterp1d
  simp only [hidx]
  have e1 : ((i : Int) + 1) - 1 = ((i : Nat) : Int) := by omega
  have e2 : ((i : Int) + 1) = ((i + 1 : Nat) : Int) := by push_cast; ring
  rw [e1, e2, jget_of_lt 0 (by omega : i < grid.length), jget_of_lt 0 hi,
    jget_of_lt 0 (by omega : i < values.length), jget_of_lt 0 (by omega : i + 1 < values.length)]
  have hlt : grid[i] < grid[i + 1] := pairwise_get_lt hs hi (Nat.lt_succ_self i)
  have : grid[i + 1] - grid[i] > 0 := sub_pos.2 hlt
  simp only [this, if_true]
  rfl

/-- Every query point inside the span lies in some segment. -/
theorem exists_segment {grid : List K} (hn : 2 ≤ grid.length)
    {x : K} (h0 : grid[0] ≤ x) (h1 : x ≤ grid[grid.length - 1]) :
    ∃ (i : Nat) (hi : i + 1 < grid.length), grid[i] ≤ x ∧ x ≤ grid[i + 1] := by
  by_contra hcon
  push Not at hcon
  have : ∀ (i : Nat) (hi : i < grid.length), grid[i] ≤ x := by
    intro i
    induction i with
    | zero => intro _; exact h0
    | succ i ih => intro hi; exact (hcon i hi (ih (by omega))).le
  obtain ⟨m, hm⟩ : ∃ m, grid.length = m + 2 := ⟨grid.length - 2, by omega⟩
  have h2 := hcon m (by omega) (this m (by omega))
  have h3 : grid[grid.length - 1]'(by omega) = grid[m + 1]'(by omega) := by congr 1; omega
  rw [h3] at h1
  exact absurd h1 (not_le.2 h2)

/-- Between two neighbouring nodes, both ends included. -/
theorem linearInterp1d_between {grid values : List K} (hs : grid.Pairwise (· < ·))
    (hlen : values.length = grid.length) {x : K} {i : Nat} (hi : i + 1 < grid.length)
    (hlo : grid[i] ≤ x) (hhi : x ≤ grid[i + 1]) :
    linearInterp1d grid values x =
      Spec.line grid[i] grid[i + 1] values[i] values[i + 1] x := by
  rcases lt_or_eq_of_le hhi with h | h
  · exact linearInterp1d_segment hs hlen hi (Or.inr hlo) (Or.inr h)
  · by_cases hn : i + 2 = grid.length
    · exact linearInterp1d_segment hs hlen hi (Or.inr hlo) (Or.inl hn)
    · have hi2 : i + 1 + 1 < grid.length := by omega
      rw [linearInterp1d_segment hs hlen hi2 (Or.inr h.symm.le)
        (Or.inr (h.le.trans_lt (pairwise_get_lt hs hi2 (Nat.lt_succ_self _))))]
      have hlt : grid[i] < grid[i + 1] := pairwise_get_lt hs hi (Nat.lt_succ_self i)
      unfold Spec.line
      rw [h, sub_self, zero_div, zero_mul, div_self (sub_pos.2 hlt).ne']
      ring

theorem line_bounds {a b va vb x : K} (hab : a < b) (h0 : a ≤ x) (h1 : x ≤ b) :
    min va vb ≤ Spec.line a b va vb x ∧ Spec.line a b va vb x ≤ max va vb := by
  have hw0 : 0 ≤ (x - a) / (b - a) := div_nonneg (sub_nonneg.2 h0) (sub_pos.2 hab).le
  have hw1 : (x - a) / (b - a) ≤ 1 := by rw [div_le_one (sub_pos.2 hab)]; linarith
  unfold Spec.line
  set w := (x - a) / (b - a)
  have e : va + w * (vb - va) = (1 - w) * va + w * vb := by ring
  rw [e]
  constructor
  · calc min va vb = (1 - w) * min va vb + w * min va vb := by ring
      _ ≤ _ := add_le_add (mul_le_mul_of_nonneg_left (min_le_left _ _) (by linarith))
        (mul_le_mul_of_nonneg_left (min_le_right _ _) hw0)
  · calc (1 - w) * va + w * vb ≤ (1 - w) * max va vb + w * max va vb :=
          add_le_add (mul_le_mul_of_nonneg_left (le_max_left _ _) (by linarith))
            (mul_le_mul_of_nonneg_left (le_max_right _ _) hw0)
      _ = max va vb := by ring

theorem linearInterp1d_node {grid values : List K} (hs : grid.Pairwise (· < ·))
    (hlen : values.length = grid.length) (hn : 2 ≤ grid.length) {i : Nat} (hi : i < grid.length) :
    linearInterp1d grid values grid[i] = values[i] := by
  by_cases h : i + 1 < grid.length
  · rw [linearInterp1d_between hs hlen h le_rfl (pairwise_get_le hs h (Nat.le_succ i))]
    unfold Spec.line; rw [sub_self, zero_div, zero_mul, add_zero]
  · obtain ⟨m, rfl⟩ : ∃ m, i = m + 1 := ⟨i - 1, by omega⟩
    have hlt := pairwise_get_lt hs hi (Nat.lt_succ_self m)
    rw [linearInterp1d_between hs hlen hi hlt.le le_rfl]
    unfold Spec.line; rw [div_self (sub_pos.2 hlt).ne']; ring

/-- Interpolating the identity gives the identity. -/
theorem linearInterp1d_id {grid : List K} (hs : grid.Pairwise (· < ·)) {x : K}
    (hn : 2 ≤ grid.length) : linearInterp1d grid grid x = x := by
  have hline : ∀ (i : Nat) (hi : i + 1 < grid.length),
      Spec.line grid[i] grid[i + 1] grid[i] grid[i + 1] x = x := by
    intro i hi
    have hlt := pairwise_get_lt hs hi (Nat.lt_succ_self i)
    unfold Spec.line
    rw [div_mul_cancel₀ _ (sub_pos.2 hlt).ne']; ring
  rcases lt_or_ge x grid[0] with h0 | h0
  · rw [linearInterp1d_segment hs rfl (i := 0) (by omega) (Or.inl rfl)
      (Or.inr (h0.trans (pairwise_get_lt hs (by omega) Nat.zero_lt_one)))]
    exact hline 0 _
  · rcases lt_or_ge grid[grid.length - 1] x with h1 | h1
    · obtain ⟨m, hm⟩ : ∃ m, m + 2 = grid.length := ⟨grid.length - 2, by omega⟩
      rw [linearInterp1d_segment hs rfl (i := m) (by omega)
        (Or.inr ((pairwise_get_le hs (by omega) (by omega : m ≤ grid.length - 1)).trans h1.le))
        (Or.inl hm)]
      exact hline m _
    · obtain ⟨i, hi, ha, hb⟩ := exists_segment hn h0 h1
      rw [linearInterp1d_between hs rfl hi ha hb]
      exact hline i hi

/-! ## The simulator's lookup -/

variable [FloorRing K]

/-- The two positions read by `_interp_uniform_grid` are inside the axis. -/
theorem interpUniformGrid_in_range {n : Nat} (hn : 1 ≤ n) (stock : K) :
    let u : K := clip stock 0 1 * (((n : Int) - 1 : Int) : K)
    0 ≤ ⌊u⌋ ∧ ⌊u⌋ < n ∧ 0 ≤ min (⌊u⌋ + 1) ((n : Int) - 1) ∧ min (⌊u⌋ + 1) ((n : Int) - 1) < n := by
  intro u
  obtain ⟨h0, h1⟩ := clip_mem stock (0 : K) 1 zero_le_one
  have hn1 : (0 : K) ≤ (((n : Int) - 1 : Int) : K) := by exact_mod_cast (by omega : (0 : Int) ≤ (n : Int) - 1)
  have hu0 : 0 ≤ u := mul_nonneg h0 hn1
  have hu1 : u ≤ (((n : Int) - 1 : Int) : K) := mul_le_of_le_one_left hn1 h1
  have hf0 : 0 ≤ ⌊u⌋ := Int.floor_nonneg.2 hu0
  have hf1 : ⌊u⌋ ≤ (n : Int) - 1 := by
    have := Int.floor_le u
    exact_mod_cast this.trans hu1
  omega

/-- The value `_interp_uniform_grid` returns when nothing raises. -/
def uniformValue (values : List K) (stock : K) : K :=
  let n : Int := values.length
  let u : K := clip stock 0 1 * ((n - 1 : Int) : K)
  let idxLo : Int := ⌊u⌋
  let idxHi : Int := min (idxLo + 1) (n - 1)
  let w : K := u - (idxLo : K)
  values.getD idxLo.toNat 0 + w * (values.getD idxHi.toNat 0 - values.getD idxLo.toNat 0)

theorem npGet_toNat {l : List K} {i : Int} (h0 : 0 ≤ i) (h1 : i < l.length) :
    npGet l i = .ok (l.getD i.toNat 0) := by
  obtain ⟨k, rfl⟩ : ∃ k : Nat, i = (k : Int) := ⟨i.toNat, (Int.toNat_of_nonneg h0).symm⟩
  have hk : k < l.length := by omega
  rw [npGet_of_lt hk, Int.toNat_natCast, getD_of_lt hk]

/-- The lookup raises only for an empty axis. -/
theorem interpUniformGrid_ok {values : List K} (hn : 1 ≤ values.length) (stock : K) :
    interpUniformGrid values stock = .ok (uniformValue values stock) := by
  obtain ⟨h0, h1, h2, h3⟩ := interpUniformGrid_in_range hn stock
  unfold interpUniformGrid uniformValue
  dsimp only
  rw [npGet_toNat h0 h1, ok_bind, npGet_toNat h2 h3, ok_bind]
  rfl

theorem uniformGrid_length (n : Nat) : (Spec.uniformGrid n : List K).length = n := by
  simp [Spec.uniformGrid]

theorem uniformGrid_get {n i : Nat} (h : i < (Spec.uniformGrid n : List K).length) :
    (Spec.uniformGrid n : List K)[i] = (i : K) / ((n : K) - 1) := by
  simp [Spec.uniformGrid]

theorem uniformGrid_sorted {n : Nat} (hn : 2 ≤ n) : (Spec.uniformGrid n : List K).Pairwise (· < ·) := by
  rw [List.pairwise_iff_getElem]
  intro i j hi hj hij
  rw [uniformGrid_get, uniformGrid_get]
  have : (0 : K) < (n : K) - 1 := by
    have : (2 : K) ≤ n := by exact_mod_cast hn
    linarith
  exact div_lt_div_of_pos_right (by exact_mod_cast hij) this

theorem uniformValue_eq {values : List K} (hn : 2 ≤ values.length) {s : K}
    (h0 : 0 ≤ s) (h1 : s ≤ 1) :
    uniformValue values s = linearInterp1d (Spec.uniformGrid values.length) values s := by
  obtain ⟨m, hm⟩ : ∃ m, values.length = m + 2 := ⟨values.length - 2, by omega⟩
  have hgl : (Spec.uniformGrid values.length : List K).length = m + 2 := by
    rw [uniformGrid_length, hm]
  have hlen : values.length = (Spec.uniformGrid values.length : List K).length := by
    rw [uniformGrid_length]
  have hs := uniformGrid_sorted (K := K) hn
  have hpos : (0 : K) < (m : K) + 1 := by positivity
  have hcast : ((((values.length : Nat) : Int) - 1 : Int) : K) = (m : K) + 1 := by
    rw [hm]; push_cast; ring
  have hcast' : ((values.length : K) - 1) = (m : K) + 1 := by rw [hm]; push_cast; ring
  unfold uniformValue
  simp only [clip_of_mem h0 h1, hcast]
  set u : K := s * ((m : K) + 1) with hu
  have hu0 : 0 ≤ u := mul_nonneg h0 hpos.le
  have hu1 : u ≤ (m : K) + 1 := mul_le_of_le_one_left hpos.le h1
  have hf0 : 0 ≤ ⌊u⌋ := Int.floor_nonneg.2 hu0
  obtain ⟨k, hk⟩ : ∃ k : Nat, ⌊u⌋ = (k : Int) := ⟨⌊u⌋.toNat, (Int.toNat_of_nonneg hf0).symm⟩
  have hkle : (k : K) ≤ u := by have := Int.floor_le u; rw [hk] at this; exact_mod_cast this
  have hklt : u < (k : K) + 1 := by have := Int.lt_floor_add_one u; rw [hk] at this; exact_mod_cast this
  have hk1 : k ≤ m + 1 := by
    have : (k : K) ≤ (m : K) + 1 := hkle.trans hu1
    exact_mod_cast this
  rw [hk]
  simp only [Int.toNat_natCast, Int.cast_natCast]
  rcases Nat.lt_or_ge k (m + 1) with hlt | hge
  · -- interior
    have hmin : min ((k : Int) + 1) (((values.length : Nat) : Int) - 1) = ((k + 1 : Nat) : Int) := by
      rw [hm]; push_cast; omega
    rw [hmin, Int.toNat_natCast]
    rw [linearInterp1d_between hs hlen (i := k) (by omega)]
    · rw [getD_of_lt (by omega : k < values.length),
        getD_of_lt (by omega : k + 1 < values.length)]
      unfold Spec.line
      rw [uniformGrid_get, uniformGrid_get, hcast']
      have : (s - (k : K) / ((m : K) + 1)) / (((k + 1 : Nat) : K) / ((m : K) + 1) - (k : K) / ((m : K) + 1))
          = u - (k : K) := by
        rw [hu]; push_cast; field_simp; ring
      rw [this]
    · rw [uniformGrid_get, hcast', div_le_iff₀ hpos]; exact hkle
    · rw [uniformGrid_get, hcast', le_div_iff₀ hpos]; push_cast; exact hklt.le
  · -- right end
    have hkm : k = m + 1 := by omega
    subst hkm
    have hs1 : u = (m : K) + 1 := le_antisymm hu1 (by push_cast at hkle; exact hkle)
    have hmin : min (((m + 1 : Nat) : Int) + 1) (((values.length : Nat) : Int) - 1) = ((m + 1 : Nat) : Int) := by
      rw [hm]; push_cast; omega
    rw [hmin, Int.toNat_natCast, sub_self, mul_zero, add_zero,
      getD_of_lt (by omega : m + 1 < values.length)]
    have hs' : s = 1 := by
      have : (s - 1) * ((m : K) + 1) = 0 := by rw [sub_mul, one_mul, ← hu, hs1, sub_self]
      rcases mul_eq_zero.1 this with h | h
      · linarith
      · exact absurd h hpos.ne'
    have hnode : s = (Spec.uniformGrid values.length : List K)[m + 1]'(by omega) := by
      rw [uniformGrid_get, hcast', hs']; push_cast; rw [div_self hpos.ne']
    rw [hnode, linearInterp1d_node hs hlen (by omega)]

end Soepy
