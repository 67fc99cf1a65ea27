import Verif.Model.Prelude
import Mathlib.Tactic.Linarith
import Mathlib.Tactic.FinCases
import Mathlib.Data.Fintype.Basic
import Mathlib.Tactic.Ring

/-! Lemmas on computations that may raise, and on array access. -/

set_option linter.unusedSectionVars false

namespace Soepy
variable {α β γ : Type}

theorem bind_ok {x : Except PyErr α} {f : α → Except PyErr β} {b : β} :
    (x >>= f) = .ok b ↔ ∃ a, x = .ok a ∧ f a = .ok b := by
  cases x with
  | error e => simp [bind, Except.bind]
  | ok a => simp [bind, Except.bind]

theorem ok_bind (a : α) (f : α → Except PyErr β) : ((.ok a : Except PyErr α) >>= f) = f a := rfl

theorem error_bind (e : PyErr) (f : α → Except PyErr β) :
    ((.error e : Except PyErr α) >>= f) = .error e := rfl

theorem pure_ok {a b : α} : (pure a : Except PyErr α) = .ok b ↔ a = b := by
  simp [pure, Except.pure]

/-! ## `mapE` -/

theorem mapE_cons_ok {f : α → Except PyErr β} {x : α} {xs : List α} {ys : List β} :
    mapE f (x :: xs) = .ok ys ↔ ∃ y zs, f x = .ok y ∧ mapE f xs = .ok zs ∧ ys = y :: zs := by
  simp only [mapE]
  cases hx : f x with
  | error e => simp
  | ok y =>
    cases hxs : mapE f xs with
    | error e => simp
    | ok zs => simp [eq_comm]

theorem mapE_length {f : α → Except PyErr β} {xs : List α} {ys : List β} (h : mapE f xs = .ok ys) :
    ys.length = xs.length := by
  induction xs generalizing ys with
  | nil => simp [mapE] at h; simp [← h]
  | cons x xs ih =>
    obtain ⟨y, zs, _, h2, rfl⟩ := mapE_cons_ok.1 h
    simp [ih h2]

theorem mapE_get {f : α → Except PyErr β} {xs : List α} {ys : List β} (h : mapE f xs = .ok ys)
    (i : Nat) (hi : i < xs.length) (hi' : i < ys.length) : f xs[i] = .ok ys[i] := by
  induction xs generalizing ys i with
  | nil => simp at hi
  | cons x xs ih =>
    obtain ⟨y, zs, h1, h2, rfl⟩ := mapE_cons_ok.1 h
    cases i with
    | zero => simpa using h1
    | succ i => simpa using ih h2 i (by simpa using hi) (by simpa using hi')

theorem mapE_mem {f : α → Except PyErr β} {xs : List α} {ys : List β} (h : mapE f xs = .ok ys) {y : β}
    (hy : y ∈ ys) : ∃ x ∈ xs, f x = .ok y := by
  obtain ⟨i, hi, rfl⟩ := List.getElem_of_mem hy
  have hl := mapE_length h
  exact ⟨xs[i], List.getElem_mem _, mapE_get h i (hl ▸ hi) hi⟩

theorem mapE_ok_iff {f : α → Except PyErr β} {xs : List α} {ys : List β} :
    mapE f xs = .ok ys ↔ List.Forall₂ (fun x y => f x = .ok y) xs ys := by
  induction xs generalizing ys with
  | nil => simp [mapE, eq_comm]
  | cons x xs ih =>
    rw [mapE_cons_ok]
    constructor
    · rintro ⟨y, zs, h1, h2, rfl⟩
      exact List.Forall₂.cons h1 (ih.1 h2)
    · intro h
      cases h with
      | cons h1 h2 => exact ⟨_, _, h1, ih.2 h2, rfl⟩

theorem mapE_of_forall {f : α → Except PyErr β} {g : α → β} {xs : List α}
    (h : ∀ x ∈ xs, f x = .ok (g x)) : mapE f xs = .ok (xs.map g) := by
  induction xs with
  | nil => rfl
  | cons x xs ih =>
    rw [mapE_cons_ok]
    exact ⟨g x, xs.map g, h x (by simp), ih (fun y hy => h y (by simp [hy])), by simp⟩

theorem mapE_exists {f : α → Except PyErr β} {xs : List α}
    (h : ∀ x ∈ xs, ∃ y, f x = .ok y) : ∃ ys, mapE f xs = .ok ys := by
  induction xs with
  | nil => exact ⟨[], rfl⟩
  | cons x xs ih =>
    obtain ⟨y, hy⟩ := h x (by simp)
    obtain ⟨ys, hys⟩ := ih (fun z hz => h z (by simp [hz]))
    exact ⟨y :: ys, mapE_cons_ok.2 ⟨y, ys, hy, hys, rfl⟩⟩

theorem mapE_congr {f g : α → Except PyErr β} {xs : List α} (h : ∀ x ∈ xs, f x = g x) :
    mapE f xs = mapE g xs := by
  induction xs with
  | nil => rfl
  | cons x xs ih => simp only [mapE, h x (by simp), ih (fun y hy => h y (by simp [hy]))]

theorem mapE_map {f : β → Except PyErr γ} {g : α → β} {xs : List α} :
    mapE f (xs.map g) = mapE (fun x => f (g x)) xs := by
  induction xs with
  | nil => rfl
  | cons x xs ih => simp only [mapE, List.map_cons, ih]

/-! ## `foldlE` -/

theorem foldlE_cons_ok {f : α → β → Except PyErr α} {a : α} {x : β} {xs : List β} {r : α} :
    foldlE f a (x :: xs) = .ok r ↔ ∃ b, f a x = .ok b ∧ foldlE f b xs = .ok r := by
  simp only [foldlE]
  cases f a x <;> simp

theorem foldlE_append {f : α → β → Except PyErr α} {a : α} {xs ys : List β} :
    foldlE f a (xs ++ ys) = match foldlE f a xs with
      | .error e => .error e
      | .ok b => foldlE f b ys := by
  induction xs generalizing a with
  | nil => rfl
  | cons x xs ih =>
    simp only [List.cons_append, foldlE]
    cases f a x with
    | error e => rfl
    | ok b => exact ih

/-- Invariant of a loop over `range n`. -/
theorem foldlE_range {f : α → Nat → Except PyErr α} {P : Nat → α → Prop} {a r : α} {n : Nat}
    (h0 : P 0 a) (hstep : ∀ i b c, i < n → P i b → f b i = .ok c → P (i + 1) c)
    (h : foldlE f a (List.range n) = .ok r) : P n r := by
  induction n generalizing r with
  | zero => simp [foldlE] at h; exact h ▸ h0
  | succ n ih =>
    rw [List.range_succ, foldlE_append] at h
    cases hb : foldlE f a (List.range n) with
    | error e => rw [hb] at h; simp at h
    | ok b =>
      rw [hb] at h
      simp only [foldlE] at h
      cases hc : f b n with
      | error e => rw [hc] at h; simp at h
      | ok c =>
        rw [hc] at h
        simp at h
        subst h
        exact hstep n b c (Nat.lt_succ_self n)
          (ih (fun i b c hi => hstep i b c (Nat.lt_succ_of_lt hi)) hb) hc

/-- A loop that never raises under an invariant. -/
theorem foldlE_range_ok {f : α → Nat → Except PyErr α} {P : Nat → α → Prop} {a : α} {n : Nat}
    (h0 : P 0 a) (hstep : ∀ i b, i < n → P i b → ∃ c, f b i = .ok c ∧ P (i + 1) c) :
    ∃ r, foldlE f a (List.range n) = .ok r ∧ P n r := by
  induction n with
  | zero => exact ⟨a, rfl, h0⟩
  | succ n ih =>
    obtain ⟨b, hb, hPb⟩ := ih (fun i b hi => hstep i b (Nat.lt_succ_of_lt hi))
    obtain ⟨c, hc, hPc⟩ := hstep n b (Nat.lt_succ_self n) hPb
    refine ⟨c, ?_, hPc⟩
    rw [List.range_succ, foldlE_append, hb]
    simp [foldlE, hc]

/-! ## Vectors -/

theorem seqFin2_ok {g : Fin 2 → Except PyErr α} {v : Fin 2 → α} :
    seqFin2 g = .ok v ↔ ∀ i, g i = .ok (v i) := by
  unfold seqFin2
  simp only [bind_ok, pure_ok]
  constructor
  · rintro ⟨a, ha, b, hb, rfl⟩ i
    fin_cases i
    · exact ha
    · exact hb
  · intro h
    refine ⟨v 0, h 0, v 1, h 1, ?_⟩
    funext i; fin_cases i <;> rfl

theorem seqFin3_ok {g : Fin 3 → Except PyErr α} {v : Fin 3 → α} :
    seqFin3 g = .ok v ↔ ∀ i, g i = .ok (v i) := by
  unfold seqFin3
  simp only [bind_ok, pure_ok]
  constructor
  · rintro ⟨a, ha, b, hb, c, hc, rfl⟩ i
    fin_cases i
    · exact ha
    · exact hb
    · exact hc
  · intro h
    refine ⟨v 0, h 0, v 1, h 1, v 2, h 2, ?_⟩
    funext i; fin_cases i <;> rfl

/-! ## Array access -/

theorem npIndex_of_lt {n : Nat} {i : Nat} (h : i < n) : npIndex n (i : Int) = .ok i := by
  unfold npIndex
  rw [if_pos ⟨by omega, by omega⟩]
  simp

theorem npIndex_of_neg {n : Nat} {i : Int} (h0 : -(n : Int) ≤ i) (h1 : i < 0) :
    npIndex n i = .ok (i + n).toNat := by
  unfold npIndex
  rw [if_neg (by omega), if_pos ⟨h0, h1⟩]

theorem npIndex_lt {n : Nat} {i : Int} {j : Nat} (h : npIndex n i = .ok j) : j < n := by
  unfold npIndex at h
  split_ifs at h with h1 h2
  · simp at h; omega
  · simp at h; omega

theorem npGet_of_lt {a : List α} {i : Nat} (h : i < a.length) : npGet a (i : Int) = .ok a[i] := by
  unfold npGet
  rw [npIndex_of_lt h]
  simp [List.getElem?_eq_getElem h]

theorem npGet_ok {a : List α} {i : Int} {x : α} (h : npGet a i = .ok x) :
    ∃ j, ∃ hj : j < a.length, npIndex a.length i = .ok j ∧ a[j] = x := by
  unfold npGet at h
  cases hj : npIndex a.length i with
  | error e => rw [hj] at h; simp at h
  | ok j =>
    have hlt := npIndex_lt hj
    rw [hj] at h
    simp [List.getElem?_eq_getElem hlt] at h
    exact ⟨j, hlt, rfl, h⟩

theorem npGet_nat_ok {a : List α} {i : Nat} {x : α} (h : npGet a (i : Int) = .ok x) :
    ∃ hi : i < a.length, a[i] = x := by
  obtain ⟨j, hj, h1, h2⟩ := npGet_ok h
  have hi : i < a.length := by
    by_contra hc
    unfold npIndex at h1
    rw [if_neg (by omega), if_neg (by omega)] at h1
    simp at h1
  rw [npIndex_of_lt hi] at h1
  simp at h1
  subst h1
  exact ⟨hi, h2⟩

theorem npGet_mem {a : List α} {i : Int} {x : α} (h : npGet a i = .ok x) : x ∈ a := by
  obtain ⟨j, hj, _, rfl⟩ := npGet_ok h
  exact List.getElem_mem _

/-! ## `reshape` -/

theorem reshape_length (n m : Nat) (a : List α) : (reshape n m a).length = n := by
  simp [reshape]

theorem reshape_get {n m : Nat} {a : List α} {i : Nat} (h : i < n) :
    (reshape n m a)[i]'(by simpa [reshape] using h) = (a.drop (i * m)).take m := by
  simp [reshape]

theorem reshape_get_length {n m : Nat} {a : List α} (hl : a.length = n * m) {i : Nat} (h : i < n) :
    ((a.drop (i * m)).take m).length = m := by
  have h1 : i * m + m ≤ n * m := by
    calc i * m + m = (i + 1) * m := by ring
      _ ≤ n * m := Nat.mul_le_mul_right m h
  rw [List.length_take, List.length_drop, hl]
  omega

theorem chunk_get {m : Nat} {a : List α} {i j : Nat} (hj : j < m) (h : i * m + j < a.length) :
    ((a.drop (i * m)).take m)[j]'(by simp; omega) = a[i * m + j] := by
  simp

/-- Reshaping loses nothing: the concatenation of the rows is the original array. -/
theorem reshape_flatten (n m : Nat) (a : List α) (hl : a.length = n * m) :
    (reshape n m a).flatten = a := by
  induction n generalizing a with
  | zero =>
    have h0 : a.length = 0 := by simpa using hl
    rw [List.length_eq_zero_iff] at h0
    subst h0
    rfl
  | succ n ih =>
    have hd : (a.drop m).length = n * m := by
      rw [List.length_drop, hl]
      have : (n + 1) * m = n * m + m := by ring
      omega
    have := ih (a.drop m) hd
    have e : reshape (n + 1) m a = a.take m :: reshape n m (a.drop m) := by
      unfold reshape
      rw [List.range_succ_eq_map]
      simp only [List.map_cons, Nat.zero_mul, List.drop_zero, List.map_map]
      congr 1
      apply List.map_congr_left
      intro i _
      simp only [Function.comp, List.drop_drop]
      congr 2
      simp [Nat.succ_eq_add_one]; ring
    rw [e, List.flatten_cons, this, List.take_append_drop]

end Soepy
