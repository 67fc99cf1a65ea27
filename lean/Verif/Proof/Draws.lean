import Verif.Model.Rng
import Verif.Proof.Except
import Mathlib.Tactic.NormNum

/-! Masked assignment, and what the generator laws say about draws. -/

set_option linter.unusedSectionVars false

namespace Soepy

section scatter
variable {α β γ : Type}

theorem scatter_length (mask : List Bool) (vs : List β) (old : List β) :
    (scatter mask vs old).length = old.length := by
  induction mask generalizing vs old with
  | nil => simp [scatter]
  | cons m ms ih =>
    cases old with
    | nil => cases m <;> cases vs <;> simp [scatter]
    | cons o os => cases m <;> cases vs <;> simp [scatter, ih]

/-- Masked assignment: positions selected by the mask get the new values in order, the others keep the
old ones. -/
theorem scatter_forall₂ {f : α → Bool} {R Q : α → β → Prop} {xs : List α} {vs old : List β}
    (hR : List.Forall₂ R (xs.filter f) vs) (hQ : List.Forall₂ Q xs old) :
    List.Forall₂ (fun x y => if f x then R x y else Q x y) xs (scatter (xs.map f) vs old) := by
  induction xs generalizing vs old with
  | nil => cases hQ; simp [scatter]
  | cons x xs ih =>
    cases hQ with
    | cons hq hqs =>
      rename_i o os
      cases hf : f x with
      | true =>
        rw [List.filter_cons, hf] at hR
        simp only [if_true] at hR
        cases hR with
        | cons hr hrs =>
          simp only [List.map_cons, hf, scatter]
          exact List.Forall₂.cons (by simpa [hf] using hr) (ih hrs hqs)
      | false =>
        rw [List.filter_cons, hf] at hR
        simp only [Bool.false_eq_true, if_false] at hR
        have : scatter (List.map f (x :: xs)) vs (o :: os) = o :: scatter (xs.map f) vs os := by
          simp only [List.map_cons, hf]
          cases vs <;> simp [scatter]
        rw [this]
        exact List.Forall₂.cons (by simpa [hf] using hq) (ih hR hqs)

theorem forall₂_comp {R : α → β → Prop} {Q : β → γ → Prop} {xs : List α} {ys : List β} {zs : List γ}
    (h : List.Forall₂ R xs ys) (h' : List.Forall₂ Q ys zs) :
    List.Forall₂ (fun x z => ∃ y, R x y ∧ Q y z) xs zs := by
  induction h generalizing zs with
  | nil => cases h'; exact List.Forall₂.nil
  | cons h1 _ ih =>
    cases h' with
    | cons h2 h3 => exact List.Forall₂.cons ⟨_, h1, h2⟩ (ih h3)

theorem forall₂_of_get {R : α → β → Prop} {xs : List α} {ys : List β} (hl : xs.length = ys.length)
    (h : ∀ (i : Nat) x y, xs[i]? = some x → ys[i]? = some y → R x y) : List.Forall₂ R xs ys := by
  rw [List.forall₂_iff_get]
  refine ⟨hl, fun i h1 h2 => h i _ _ ?_ ?_⟩
  · simp [List.getElem?_eq_getElem h1]
  · simp [List.getElem?_eq_getElem h2]

theorem forall₂_get {R : α → β → Prop} {xs : List α} {ys : List β} (h : List.Forall₂ R xs ys) {i : Nat}
    {x : α} (hx : xs[i]? = some x) : ∃ y, ys[i]? = some y ∧ R x y := by
  induction h generalizing i with
  | nil => simp at hx
  | cons h1 _ ih =>
    cases i with
    | zero => simp at hx; subst hx; exact ⟨_, rfl, h1⟩
    | succ i => exact ih (by simpa using hx)

theorem forall₂_get' {R : α → β → Prop} {xs : List α} {ys : List β} (h : List.Forall₂ R xs ys) {i : Nat}
    {y : β} (hy : ys[i]? = some y) : ∃ x, xs[i]? = some x ∧ R x y := by
  induction h generalizing i with
  | nil => simp at hy
  | cons h1 _ ih =>
    cases i with
    | zero => simp at hy; subst hy; exact ⟨_, rfl, h1⟩
    | succ i => exact ih (by simpa using hy)

theorem forall₂_mem {R : α → β → Prop} {xs : List α} {ys : List β} (h : List.Forall₂ R xs ys) {y : β}
    (hy : y ∈ ys) : ∃ x ∈ xs, R x y := by
  induction h with
  | nil => simp at hy
  | cons h1 _ ih =>
    rcases List.mem_cons.1 hy with rfl | hy
    · exact ⟨_, by simp, h1⟩
    · obtain ⟨x, hx, hr⟩ := ih hy; exact ⟨x, by simp [hx], hr⟩

theorem forall₂_zipWith {R : α → β → Prop} {δ : Type} {Q : α → γ → Prop} {f : β → γ → δ}
    {T : α → δ → Prop} {xs : List α} {ys : List β} {zs : List γ} (h : List.Forall₂ R xs ys)
    (h' : List.Forall₂ Q xs zs) (ht : ∀ x y z, x ∈ xs → R x y → Q x z → T x (f y z)) :
    List.Forall₂ T xs (List.zipWith f ys zs) := by
  induction h generalizing zs with
  | nil => cases h'; exact List.Forall₂.nil
  | cons h1 _ ih =>
    cases h' with
    | cons h2 h3 =>
      exact List.Forall₂.cons (ht _ _ _ (by simp) h1 h2)
        (ih h3 fun x y z hx => ht x y z (by simp [hx]))

theorem forall₂_imp_mem {R T : α → β → Prop} {xs : List α} {ys : List β} (h : List.Forall₂ R xs ys)
    (ht : ∀ x y, x ∈ xs → y ∈ ys → R x y → T x y) : List.Forall₂ T xs ys := by
  induction h with
  | nil => exact List.Forall₂.nil
  | cons h1 _ ih =>
    exact List.Forall₂.cons (ht _ _ (by simp) (by simp) h1)
      (ih fun x y hx hy => ht x y (by simp [hx]) (by simp [hy]))

theorem forall₂_map_self {R : α → β → Prop} {f : α → β} {xs : List α} (h : ∀ x ∈ xs, R x (f x)) :
    List.Forall₂ R xs (xs.map f) := by
  induction xs with
  | nil => exact List.Forall₂.nil
  | cons x xs ih => exact List.Forall₂.cons (h x (by simp)) (ih fun y hy => h y (by simp [hy]))

end scatter

variable {S K : Type} [Field K] [LinearOrder K] {rng : Rng S K}

/-- What a draw with probability `p` can be. -/
def Drawn (p : K) (d : Nat) : Prop := (d = 0 ∧ p ≠ 1) ∨ (d = 1 ∧ p ≠ 0)

theorem npBinomial_ok_iff {g : S} {p : List K} {r : List Nat × S} :
    npBinomial rng g p = .ok r ↔ (∀ x ∈ p, 0 ≤ x ∧ x ≤ 1) ∧ r = rng.binomial g p := by
  unfold npBinomial
  split_ifs with h
  · simp only [List.any_eq_true, Bool.or_eq_true, decide_eq_true_eq] at h
    obtain ⟨x, hx, h⟩ := h
    simp only [reduceCtorEq, false_iff, not_and]
    intro h'
    rcases h with h | h
    · exact absurd (h' x hx).1 (not_le.2 h)
    · exact absurd (h' x hx).2 (not_le.2 h)
  · simp only [List.any_eq_true, Bool.or_eq_true, decide_eq_true_eq, not_exists, not_and, not_or,
      not_lt] at h
    simp only [Except.ok.injEq, eq_comm (a := r)]
    exact ⟨fun e => ⟨h, e⟩, fun e => e.2⟩

theorem binomial_drawn (L : RngLaws rng) {g : S} {p : List K} (hp : ∀ x ∈ p, 0 ≤ x ∧ x ≤ 1) :
    List.Forall₂ Drawn p (rng.binomial g p).1 := by
  refine forall₂_of_get (L.binomial_length g p hp).symm ?_
  intro i x d hx hd
  rcases L.binomial_le g p hp d (List.mem_of_getElem? hd) with rfl | rfl
  · refine Or.inl ⟨rfl, ?_⟩
    rintro rfl
    have := L.binomial_one g p hp i hx
    rw [hd] at this
    simp at this
  · refine Or.inr ⟨rfl, ?_⟩
    rintro rfl
    have := L.binomial_zero g p hp i hx
    rw [hd] at this
    simp at this

theorem npBinomialScalar_ok_iff {g : S} {n : Nat} {p : K} {r : List Nat × S} :
    npBinomialScalar rng g n p = .ok r ↔
      (0 ≤ p ∧ p ≤ 1) ∧ r = rng.binomial g (List.replicate n p) := by
  unfold npBinomialScalar
  split_ifs with h
  · simp only [reduceCtorEq, false_iff, not_and]
    intro h'
    rcases h with h | h
    · exact absurd h'.1 (not_le.2 h)
    · exact absurd h'.2 (not_le.2 h)
  · simp only [not_or, not_lt] at h
    simp only [Except.ok.injEq, eq_comm (a := r)]
    exact ⟨fun e => ⟨h, e⟩, fun e => e.2⟩

theorem npChoice_ok_iff {g : S} {m n : Nat} {p : List K} {r : List Nat × S} :
    npChoice rng g m n p = .ok r ↔
      ¬ (m = 0 ∧ n ≠ 0) ∧ p.length = m ∧ ValidProbs p ∧ r = rng.choice g n p := by
  unfold npChoice ValidProbs
  split_ifs with h1 h2 h3 h4
  · simp [h1]
  · simp only [reduceCtorEq, false_iff, not_and]
    intro _ h; exact absurd h h2
  · simp only [List.any_eq_true, decide_eq_true_eq] at h3
    obtain ⟨x, hx, h⟩ := h3
    simp only [reduceCtorEq, false_iff, not_and]
    intro _ _ h'
    exact absurd (h'.1 x hx) (not_le.2 h)
  · simp only [reduceCtorEq, false_iff, not_and]
    intro _ _ h'
    exact absurd h'.2 (not_le.2 h4)
  · simp only [List.any_eq_true, decide_eq_true_eq, not_exists, not_and, not_lt] at h3
    simp only [not_lt] at h4
    simp only [Except.ok.injEq, eq_comm (a := r)]
    exact ⟨fun e => ⟨h1, not_not.1 h2, ⟨h3, h4⟩, e⟩, fun e => e.2.2.2⟩

theorem choice_lt (L : RngLaws rng) {g : S} {n : Nat} {p : List K} (hp : ValidProbs p) {x : Nat}
    (hx : x ∈ (rng.choice g n p).1) : x < p.length := by
  obtain ⟨y, hy, -⟩ := L.choice_pos g n p hp x hx
  exact (List.getElem?_eq_some_iff.1 hy).1

/-- A generator that obeys the laws: it always picks the first option with positive probability, and a
binomial draw is 1 unless its probability is 0.  (For non-vacuity; the state counts the draws.) -/
def lawfulRng (K : Type) [Field K] [LinearOrder K] : Rng Int K where
  seed s := s
  choice g n p := (List.replicate n (p.findIdx fun x => decide (0 < x)), g + 1)
  binomial g p := (p.map fun x => if x = 0 then 0 else 1, g + 1)
  normal g r c := (List.replicate r (List.replicate c 0), g + 1)

theorem lawfulRng_laws [IsStrictOrderedRing K] : RngLaws (lawfulRng K) := by
  refine ⟨by simp [lawfulRng], ?_, by simp [lawfulRng], ?_, ?_, ?_, by simp [lawfulRng], ?_⟩
  · intro g n p hp x hx
    obtain rfl : x = p.findIdx fun x => decide (0 < x) := List.eq_of_mem_replicate hx
    have hex : ∃ y ∈ p, decide (0 < y) = true := by
      by_contra hc
      have h0 : ∀ y ∈ p, y = 0 := by
        intro y hy
        by_contra hne
        exact hc ⟨y, hy, decide_eq_true (lt_of_le_of_ne (hp.1 y hy) (Ne.symm hne))⟩
      have hsum : p.sum = 0 := List.sum_eq_zero h0
      have := hp.2
      rw [hsum] at this
      norm_num at this
    have hlt := List.findIdx_lt_length_of_exists hex
    refine ⟨p[p.findIdx fun x => decide (0 < x)], by simp [hlt], ?_⟩
    have := List.findIdx_getElem (w := hlt)
    simpa using this
  · intro g p _ x hx
    simp only [lawfulRng, List.mem_map] at hx
    obtain ⟨y, -, rfl⟩ := hx
    split_ifs <;> simp
  · intro g p _ i hi
    simp [lawfulRng, hi]
  · intro g p _ i hi
    simp [lawfulRng, hi]
  · intro g r c row hrow
    simp only [lawfulRng, List.mem_replicate] at hrow
    simp [hrow.2]

end Soepy
