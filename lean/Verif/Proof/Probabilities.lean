import Verif.Proof.Params
import Verif.Proof.Exogenous
import Mathlib.Algebra.BigOperators.Ring.List
import Mathlib.Data.List.GetD

/-! Probability vectors sum to one. -/

set_option linter.unusedSectionVars false

namespace Soepy
variable {K : Type} [Field K] [LinearOrder K] [IsStrictOrderedRing K]

theorem expandModelParams_shares {d : Dict (Dict K)} {d' : Dict (Dict K)} {der : DerivedAttr K}
    (h : expandModelParamsDict d = .ok (d', der)) : der.type_shares.sum = 1 := by
  unfold expandModelParamsDict at h
  obtain ⟨sd, -, h⟩ := bind_ok.1 h
  obtain ⟨s, -, h⟩ := bind_ok.1 h
  cases hl : d.lookup "shares" with
  | none =>
    rw [hl] at h
    dsimp only at h
    obtain ⟨het, -, h⟩ := bind_ok.1 h
    simp only [pure_ok, Prod.mk.injEq] at h
    rw [← h.2]
    simp
  | some sh =>
    rw [hl] at h
    dsimp only at h
    obtain ⟨het, -, h⟩ := bind_ok.1 h
    simp only [pure_ok, Prod.mk.injEq] at h
    rw [← h.2]
    simp

theorem sharesOfEduc_ok {rows : List (Nat × K)} {e : Nat} {l : List K}
    (h : sharesOfEduc rows e = .ok l) :
    l.sum = 1 ∧ l.length = (rows.filter fun r => r.1 == e).length ∧
      l.tail = ((rows.filter fun r => r.1 == e).map Prod.snd).tail := by
  unfold sharesOfEduc at h
  split at h
  · cases h
  · rename_i x rest hx
    have hl := congrArg List.length hx
    rw [List.length_map, List.length_cons] at hl
    obtain rfl := Except.ok.inj h
    refine ⟨by simp, by rw [hl]; simp, by rw [hx]; rfl⟩

theorem list_range_sum_succ (f : Nat → K) (n : Nat) :
    ((List.range (n + 1)).map f).sum = ((List.range n).map f).sum + f n := by
  rw [List.range_succ, List.map_append, List.sum_append]; simp

theorem list_range_sum_succ' (f : Nat → K) (n : Nat) :
    ((List.range (n + 1)).map f).sum = f 0 + ((List.range n).map fun i => f (i + 1)).sum := by
  rw [List.range_succ_eq_map, List.map_cons, List.sum_cons, List.map_map]
  rfl

/-- The mass at `n` of the sum of two independent variables. -/
theorem conv_cons (x : K) (a b : List K) (n : Nat) :
    ((List.range (n + 1 + 1)).map fun i => (x :: a).getD i 0 * b.getD (n + 1 - i) 0).sum
      = x * b.getD (n + 1) 0
        + ((List.range (n + 1)).map fun i => a.getD i 0 * b.getD (n - i) 0).sum := by
  rw [list_range_sum_succ']
  congr 2
  refine List.map_congr_left fun i _ => ?_
  rw [List.getD_cons_succ]
  congr 2
  omega

theorem sum_range_getD (b : List K) : ∀ N, b.length ≤ N →
    ((List.range N).map fun i => b.getD i 0).sum = b.sum := by
  induction b with
  | nil => intro N _; simp
  | cons y b ih =>
    intro N h
    obtain ⟨M, rfl⟩ : ∃ M, N = M + 1 := ⟨N - 1, by simp at h; omega⟩
    rw [list_range_sum_succ', List.sum_cons]
    simp only [List.getD_cons_zero, List.getD_cons_succ]
    rw [ih M (by simpa using h)]

theorem conv_sum (a b : List K) : ∀ N, a.length + b.length ≤ N + 1 →
    ((List.range N).map fun n =>
      ((List.range (n + 1)).map fun i => a.getD i 0 * b.getD (n - i) 0).sum).sum = a.sum * b.sum := by
  induction a with
  | nil =>
    intro N _
    simp
  | cons x a ih =>
    intro N h
    rw [List.length_cons] at h
    cases N with
    | zero =>
      have hb : b = [] := List.length_eq_zero_iff.1 (by omega)
      simp [hb]
    | succ M =>
      rw [list_range_sum_succ']
      have h1 : ((List.range M).map fun n => ((List.range (n + 1 + 1)).map fun i =>
          (x :: a).getD i 0 * b.getD (n + 1 - i) 0).sum).sum
          = ((List.range M).map fun n => x * b.getD (n + 1) 0).sum + a.sum * b.sum := by
        rw [← ih M (by omega), ← List.sum_map_add]
        exact congrArg List.sum (List.map_congr_left fun n _ => conv_cons x a b n)
      have h2 : b.sum = b.getD 0 0 + ((List.range M).map fun n => b.getD (n + 1) 0).sum := by
        rw [← sum_range_getD b (M + 1) (by omega), list_range_sum_succ']
      have h3 : ((List.range M).map fun n => x * b.getD (n + 1) 0).sum
          = x * ((List.range M).map fun n => b.getD (n + 1) 0).sum := by rw [List.sum_map_mul_left]
      have h4 : ((List.range (0 + 1)).map fun i => (x :: a).getD i 0 * b.getD (0 - i) 0).sum
          = x * b.getD 0 0 := by simp [List.range_succ]
      rw [h1, h3, h4, List.sum_cons]
      generalize ((List.range M).map fun n => b.getD (n + 1) 0).sum = r at h2
      rw [h2]
      ring

theorem convolve_sum (a b : List K) : (convolve a b).sum = a.sum * b.sum := by
  unfold convolve
  exact conv_sum a b _ (by omega)

theorem convolve_length (a b : List K) : (convolve a b).length = a.length + b.length - 1 := by
  unfold convolve; simp

theorem convolve_get (a b : List K) (n : Nat) :
    (convolve a b).getD n 0 = ((List.range (n + 1)).map fun i => a.getD i 0 * b.getD (n - i) 0).sum := by
  by_cases h : n < a.length + b.length - 1
  · unfold convolve
    rw [List.getD_eq_getElem?_getD, List.getElem?_map, List.getElem?_range h]
    rfl
  · rw [List.getD_eq_default _ _ (by rw [convolve_length]; omega)]
    symm
    refine List.sum_eq_zero fun z hz => ?_
    obtain ⟨i, hi, rfl⟩ := List.mem_map.1 hz
    have hi := List.mem_range.1 hi
    by_cases h1 : i < a.length
    · rw [List.getD_eq_default b _ (by omega), mul_zero]
    · rw [List.getD_eq_default a _ (by omega), zero_mul]

theorem sum_div (l : List K) (c : K) : (l.map (· / c)).sum = l.sum / c := by
  simp only [div_eq_mul_inv]
  rw [List.sum_map_mul_right, List.map_id']

theorem expYearsOf_sum {m : Nat} {a b : List K} (h : ((convolve a b).take (2 * m + 1)).sum ≠ 0) :
    (expYearsOf m a b).sum = 1 := by
  unfold expYearsOf
  dsimp only
  rw [sum_div, div_self h]

theorem expYearsOf_eq {m : Nat} {a b : List K} (ha : a.length ≤ m + 1) (hb : b.length ≤ m + 1)
    (h1 : a.sum = 1) (h2 : b.sum = 1) : expYearsOf m a b = convolve a b := by
  unfold expYearsOf
  dsimp only
  rw [List.take_of_length_le (by rw [convolve_length]; omega), convolve_sum, h1, h2]
  simp

end Soepy
