import Verif.Proof.Interp

/-!
# Properties C15, C16: interpolation in the solver and in the simulator
-/

set_option linter.unusedSectionVars false

namespace Soepy.Props
open Soepy
variable {K : Type} [Field K] [LinearOrder K] [IsStrictOrderedRing K]

/-- **C15**  `linear_interp_1d` on a strictly increasing grid with at least two nodes: exact at every
node; the affine interpolant between neighbours, within the range of the two neighbouring values;
linear extrapolation of the outermost segment outside the span. -/
theorem C15_linear_interpolation {grid values : List K} (hs : grid.Pairwise (· < ·))
    (hlen : values.length = grid.length) (hn : 2 ≤ grid.length) :
    (∀ (i : Nat) (hi : i < grid.length), linearInterp1d grid values grid[i] = values[i]) ∧
    (∀ (x : K) (i : Nat) (hi : i + 1 < grid.length), grid[i] ≤ x → x ≤ grid[i + 1] →
      linearInterp1d grid values x = Spec.line grid[i] grid[i + 1] values[i] values[i + 1] x ∧
      min values[i] values[i + 1] ≤ linearInterp1d grid values x ∧
      linearInterp1d grid values x ≤ max values[i] values[i + 1]) ∧
    (∀ x : K, x < grid[0] →
      linearInterp1d grid values x = Spec.line grid[0] grid[1] values[0] values[1] x) ∧
    (∀ (x : K) (m : Nat) (hm : m + 2 = grid.length), grid[m + 1] < x →
      linearInterp1d grid values x = Spec.line grid[m] grid[m + 1] values[m] values[m + 1] x) := by
  refine ⟨fun i hi => linearInterp1d_node hs hlen hn hi, ?_, ?_, ?_⟩
  · intro x i hi h0 h1
    have h := linearInterp1d_between hs hlen hi h0 h1
    have hb := line_bounds (va := values[i]) (vb := values[i + 1])
      (pairwise_get_lt hs hi (Nat.lt_succ_self i)) h0 h1
    exact ⟨h, h ▸ hb.1, h ▸ hb.2⟩
  · intro x hx
    exact linearInterp1d_segment hs hlen (i := 0) (by omega) (Or.inl rfl)
      (Or.inr (hx.trans (pairwise_get_lt hs (by omega) Nat.zero_lt_one)))
  · intro x m hm hx
    exact linearInterp1d_segment hs hlen (i := m) (by omega)
      (Or.inr ((pairwise_get_le hs (by omega) (Nat.le_succ m)).trans hx.le)) (Or.inl hm)

/-- Every point of the span lies between two neighbours, so the second clause covers the whole span. -/
theorem C15_span_covered {grid : List K} (hn : 2 ≤ grid.length) {x : K} (h0 : grid[0] ≤ x)
    (h1 : x ≤ grid[grid.length - 1]) :
    ∃ (i : Nat) (hi : i + 1 < grid.length), grid[i] ≤ x ∧ x ≤ grid[i + 1] :=
  exists_segment hn h0 h1

example : ([0, 1/4, 1] : List ℚ).Pairwise (· < ·) ∧ ([5, 7, 1] : List ℚ).length = 3 ∧
    linearInterp1d [0, 1/4, 1] [5, 7, 1] (5/8 : ℚ) = 4 := by
  refine ⟨by norm_num, rfl, ?_⟩
  decide +kernel

variable [FloorRing K]

/-- **C16**, true part: on the uniform grid over [0,1] the simulator's lookup equals the solver's
interpolation for every stock in [0,1].  Missing for the full claim: other grids (see
`C16_uniform_grid_necessary` and `C16_fails`). -/
theorem C16_simulator_interpolation_partial {values : List K} (hn : 2 ≤ values.length) {stock : K}
    (h0 : 0 ≤ stock) (h1 : stock ≤ 1) :
    interpUniformGrid values stock =
      .ok (linearInterp1d (Spec.uniformGrid values.length) values stock) := by
  rw [interpUniformGrid_ok (by omega), uniformValue_eq hn h0 h1]

/-- **C71**  The simulator's lookup never reads outside the grid, whatever the stock: it returns a value for every
stock, also outside [0,1], as soon as there is a grid point. -/
theorem C71_lookup_never_raises (values : List K) (stock : K) :
    (∃ v, interpUniformGrid values stock = .ok v) ↔ values ≠ [] := by
  constructor
  · rintro ⟨v, h⟩ rfl
    unfold interpUniformGrid at h
    obtain ⟨x, hx, -⟩ := bind_ok.1 h
    exact absurd (npGet_mem hx) (by simp)
  · intro h
    exact ⟨_, interpUniformGrid_ok (List.length_pos_iff.2 h) stock⟩

/-- **C71**  What it returns stays between bounds on the values of the grid. -/
theorem C71_lookup_within_values {values : List K} {stock v lo hi : K}
    (h : interpUniformGrid values stock = .ok v) (hb : ∀ x ∈ values, lo ≤ x ∧ x ≤ hi) : lo ≤ v ∧ v ≤ hi := by
  unfold interpUniformGrid at h
  dsimp only at h
  obtain ⟨a, ha, h⟩ := bind_ok.1 h
  obtain ⟨b, hb', h⟩ := bind_ok.1 h
  rw [pure_ok] at h
  subst h
  obtain ⟨a0, a1⟩ := hb a (npGet_mem ha)
  obtain ⟨b0, b1⟩ := hb b (npGet_mem hb')
  set u : K := clip stock 0 1 * (((values.length : Int) - 1 : Int) : K)
  have w0 : 0 ≤ u - (⌊u⌋ : K) := sub_nonneg.2 (Int.floor_le u)
  have w1 : u - (⌊u⌋ : K) ≤ 1 := by linarith [Int.lt_floor_add_one u]
  generalize u - (⌊u⌋ : K) = w at *
  constructor
  · nlinarith
  · nlinarith

/-- At both ends of [0,1] and beyond. -/
example : interpUniformGrid ([5, 7, 1] : List ℚ) 1 = .ok 1 ∧
    interpUniformGrid ([5, 7, 1] : List ℚ) (-3) = .ok 5 ∧ interpUniformGrid ([5, 7, 1] : List ℚ) 2 = .ok 1 := by
  decide +kernel

/-- **C16**, exact characterisation: on a strictly increasing grid with at least two nodes, simulator
and solver agree for all value vectors and all stocks in [0,1] exactly when the grid is the uniform
grid over [0,1]. -/
theorem C16_uniform_grid_necessary {grid : List K} (hs : grid.Pairwise (· < ·))
    (hn : 2 ≤ grid.length) :
    (∀ values : List K, values.length = grid.length → ∀ stock : K, 0 ≤ stock → stock ≤ 1 →
      interpUniformGrid values stock = .ok (linearInterp1d grid values stock)) ↔
    grid = Spec.uniformGrid grid.length := by
  constructor
  · intro h
    apply List.ext_getElem
    · rw [uniformGrid_length]
    · intro i hi hi'
      have hpos : (0 : K) < (grid.length : K) - 1 := by
        have : (2 : K) ≤ grid.length := by exact_mod_cast hn
        linarith
      have hle : (i : K) ≤ (grid.length : K) - 1 := by
        have : ((i + 1 : Nat) : K) ≤ grid.length := by exact_mod_cast hi
        push_cast at this; linarith
      have e := h grid rfl ((i : K) / ((grid.length : K) - 1))
        (div_nonneg (Nat.cast_nonneg i) hpos.le) ((div_le_one hpos).2 hle)
      rw [interpUniformGrid_ok (by omega)] at e
      replace e := Except.ok.inj e
      rw [linearInterp1d_id hs hn, uniformValue_eq hn
        (div_nonneg (Nat.cast_nonneg i) hpos.le) ((div_le_one hpos).2 hle)] at e
      have hnode := linearInterp1d_node (uniformGrid_sorted (K := K) hn)
        (values := grid) (by rw [uniformGrid_length]) (by rw [uniformGrid_length]; exact hn) hi'
      rw [uniformGrid_get] at hnode
      rw [hnode] at e
      rw [uniformGrid_get]
      exact e
  · intro h values hv stock h0 h1
    rw [interpUniformGrid_ok (by omega), uniformValue_eq (by omega) h0 h1, hv, ← h]

/-- **C16** is false of the code for a grid that is not uniform. -/
theorem C16_fails :
    ∃ (grid values : List ℚ) (stock : ℚ), grid.Pairwise (· < ·) ∧ grid.head? = some 0 ∧
      grid.getLast? = some 1 ∧ values.length = grid.length ∧ 0 ≤ stock ∧ stock ≤ 1 ∧
      ∃ v, interpUniformGrid values stock = .ok v ∧ v ≠ linearInterp1d grid values stock := by
  refine ⟨[0, 1/4, 1], [0, 1, 2], 1/2, by norm_num, by simp, by simp, rfl, by norm_num, by norm_num, 1,
    ?_, ?_⟩ <;> decide +kernel

example : (2 : Nat) ≤ ([5, 7, 1] : List ℚ).length ∧
    interpUniformGrid ([5, 7, 1] : List ℚ) (3/4) = .ok 4 := by
  decide +kernel

end Soepy.Props
