import Verif.Proof.RoundedSum

/-! # C98: the share of the remaining group in rounded arithmetic -/

set_option linter.unusedSectionVars false

namespace Soepy.Props
variable {K : Type} [Field K] [LinearOrder K] [IsStrictOrderedRing K] [FloorRing K]
variable {S : Type} {p : ℕ}

/-- The compensated sum without rounding is the sum. -/
private theorem pySum_id (xs : List K) : pySumR id xs = xs.sum := by
  have h : ∀ (xs : List K) (t : K), xs.foldl (pySumStepR id) (t, 0) = (t + xs.sum, 0) := by
    intro xs
    induction xs with
    | nil => intro t; simp
    | cons x xs ih =>
      intro t
      have : pySumStepR id (t, 0) x = (t + x, 0) := by
        unfold pySumStepR; simp
      rw [List.foldl_cons, this, ih, List.sum_cons, add_assoc]
  unfold pySumR
  dsimp only
  rw [h, if_pos rfl, zero_add]

/-- C98 (link to the rest of the model): without rounding the first share is one minus the sum of the others. -/
theorem C98_without_rounding (shares : List K) : withBaselineR id shares = (1 - shares.sum) :: shares := by
  unfold withBaselineR
  rw [pySum_id]; rfl

private theorem rounded_sum (hp : 1 ≤ p) (ds : List K) (h : ∀ d ∈ ds, 0 ≤ d) :
    |(ds.map (binary p)).sum - ds.sum| ≤ ds.sum / 2 ^ p := by
  induction ds with
  | nil => simp
  | cons d ds ih =>
    have hd := h d (by simp)
    have h1 := binary_error p d
    rw [abs_of_nonneg hd] at h1
    have h2 := ih (fun y hy => h y (by simp [hy]))
    simp only [List.map_cons, List.sum_cons]
    rw [show binary p d + (ds.map (binary p)).sum - (d + ds.sum)
      = (binary p d - d) + ((ds.map (binary p)).sum - ds.sum) by ring, add_div]
    exact (abs_add_le _ _).trans (add_le_add h1 h2)

/-- The shares as they are read, and their compensated sum. -/
private theorem read_shares (hp : 2 ≤ p) {k : ℕ} (hk : 2 ≤ k) (ds : List K) (hn : ds.length * 2 ^ k ≤ 2 ^ p)
    (hd : ∀ d ∈ ds, d = 0 ∨ (2 : K) ^ (-(k : ℤ)) ≤ d) (hs : ds.sum ≤ 1) :
    0 ≤ ds.sum ∧ 0 ≤ (ds.map (binary p)).sum ∧ (ds.map (binary p)).sum ≤ 1 + 1 / 2 ^ p ∧
      (∀ x ∈ ds.map (binary p), 0 ≤ x) ∧
      pySumR (binary p) (ds.map (binary p)) = binary p (ds.map (binary p)).sum := by
  have hp1 : 1 ≤ p := by omega
  have hP : (0 : K) < 2 ^ p := by positivity
  have h4 : (4 : K) ≤ 2 ^ p := by
    calc (4 : K) = 2 ^ 2 := by norm_num
      _ ≤ 2 ^ p := pow_le_pow_right₀ (by norm_num) hp
  have hinv : (1 : K) / 2 ^ p ≤ 1 / 4 := by rw [div_le_div_iff₀ hP (by norm_num)]; linarith
  have hd0 : ∀ d ∈ ds, 0 ≤ d := fun d h => by
    rcases hd d h with rfl | h
    · exact le_rfl
    · exact (two_zpow_pos _).le.trans h
  have hx0 : ∀ x ∈ ds.map (binary p), 0 ≤ x := by
    intro x hx
    obtain ⟨d, hd, rfl⟩ := List.mem_map.1 hx
    exact binary_nonneg p (hd0 d hd)
  have hs0 : 0 ≤ ds.sum := List.sum_nonneg hd0
  have herr := rounded_sum (K := K) hp1 ds hd0
  have hle : ds.sum / 2 ^ p ≤ 1 / 2 ^ p := div_le_div_of_nonneg_right hs hP.le
  have hup : (ds.map (binary p)).sum ≤ 1 + 1 / 2 ^ p := by linarith [le_abs_self ((ds.map (binary p)).sum - ds.sum)]
  refine ⟨hs0, List.sum_nonneg hx0, hup, hx0, pySumR_eq hp1 hk (by simpa using hn) ?_ (by linarith)⟩
  intro x hx
  obtain ⟨d, hdm, rfl⟩ := List.mem_map.1 hx
  refine ⟨isNumber_binary _, ?_⟩
  rcases hd d hdm with rfl | h
  · left; simp
  · right
    exact le_binary_of_le hp1 ⟨1, -(k : ℤ), by simp [one_le_pow₀], by simp⟩ h

/-- C98: Python's `sum` (from version 3.12 on) of shares is the exact sum of the stored numbers, rounded once,
however long the list. -/
theorem C98_sum (hp : 2 ≤ p) {k : ℕ} (hk : 2 ≤ k) (ds : List K) (hn : ds.length * 2 ^ k ≤ 2 ^ p)
    (hd : ∀ d ∈ ds, d = 0 ∨ (2 : K) ^ (-(k : ℤ)) ≤ d) (hs : ds.sum ≤ 1) :
    pySumR (binary p) (ds.map (binary p)) = binary p (ds.map (binary p)).sum :=
  (read_shares hp hk ds hn hd hs).2.2.2.2

/-- C98: shares that add up to at most one on paper leave a first share between zero and one, and the list
adds up to one within `3 / 2^p`, although each share is rounded when it is read. -/
theorem C98_first_share (hp : 2 ≤ p) {k : ℕ} (hk : 2 ≤ k) (ds : List K) (hn : ds.length * 2 ^ k ≤ 2 ^ p)
    (hd : ∀ d ∈ ds, d = 0 ∨ (2 : K) ^ (-(k : ℤ)) ≤ d) (hs : ds.sum ≤ 1) :
    ∃ b, withBaselineR (binary p) (ds.map (binary p)) = b :: ds.map (binary p) ∧ 0 ≤ b ∧ b ≤ 1 ∧
      |(b :: ds.map (binary p)).sum - 1| ≤ 3 / 2 ^ p ∧ |b - (1 - ds.sum)| ≤ 4 / 2 ^ p ∧
      (ds.sum = 1 → b ≤ 1 / 2 ^ p) := by
  have hp1 : 1 ≤ p := by omega
  have hP : (0 : K) < 2 ^ p := by positivity
  have h4 : (4 : K) ≤ 2 ^ p := by
    calc (4 : K) = 2 ^ 2 := by norm_num
      _ ≤ 2 ^ p := pow_le_pow_right₀ (by norm_num) hp
  have hinv : (1 : K) / 2 ^ p ≤ 1 / 4 := by rw [div_le_div_iff₀ hP (by norm_num)]; linarith
  obtain ⟨hs0, hX0, hX1, -, hsum⟩ := read_shares hp hk ds hn hd hs
  set X := (ds.map (binary p)).sum with hX
  have hr0 : 0 ≤ binary p X := binary_nonneg p hX0
  have hr1 : binary p X ≤ 1 := (binary_mono p hp1 hX1).trans (binary_one_half hp).le
  have hb0 : 0 ≤ binary p (1 - binary p X) := binary_nonneg p (by linarith)
  have hb1 : binary p (1 - binary p X) ≤ 1 := binary_le_of_le hp1 isNumber_one (by linarith)
  have e1 := binary_error p (1 - binary p X)
  have e2 := binary_error p X
  rw [abs_of_nonneg (show 0 ≤ 1 - binary p X by linarith)] at e1
  rw [abs_of_nonneg hX0] at e2
  have e1' : (1 - binary p X) / 2 ^ p ≤ 1 / 2 ^ p := div_le_div_of_nonneg_right (by linarith) hP.le
  have e2' : X / 2 ^ p ≤ 2 / 2 ^ p := div_le_div_of_nonneg_right (by linarith) hP.le
  have h12 : (1 : K) / 2 ^ p + 2 / 2 ^ p = 3 / 2 ^ p := by ring
  have h13 : (3 : K) / 2 ^ p + 1 / 2 ^ p = 4 / 2 ^ p := by ring
  have hd0 : ∀ d ∈ ds, 0 ≤ d := fun d h => by
    rcases hd d h with rfl | h
    · exact le_rfl
    · exact (two_zpow_pos _).le.trans h
  have herr := rounded_sum (K := K) hp1 ds hd0
  have hle : ds.sum / 2 ^ p ≤ 1 / 2 ^ p := div_le_div_of_nonneg_right hs hP.le
  have a1 := abs_le.1 (e1.trans e1')
  have a2 := abs_le.1 (e2.trans e2')
  have a3 := abs_le.1 (herr.trans hle)
  refine ⟨binary p (1 - binary p X), by unfold withBaselineR; rw [hsum], hb0, hb1, ?_, ?_, ?_⟩
  · rw [List.sum_cons, ← hX, abs_le]
    constructor <;> linarith [a1.1, a1.2, a2.1, a2.2]
  · rw [abs_le]
    constructor <;> linarith [a1.1, a1.2, a2.1, a2.2, a3.1, a3.2]
  · intro h1
    have hnum : Spec.IsNumber p (1 - 1 / 2 ^ p : K) := by
      refine ⟨2 ^ p - 1, -(p : ℤ), ?_, ?_⟩
      · rw [abs_of_nonneg (by have : (1 : ℤ) ≤ 2 ^ p := one_le_pow₀ (by norm_num); omega)]; omega
      · push_cast; rw [zpow_neg, zpow_natCast]; field_simp
    have hnum' : Spec.IsNumber p (1 / 2 ^ p : K) :=
      ⟨1, -(p : ℤ), by simp [one_le_pow₀], by rw [zpow_neg, zpow_natCast]; simp⟩
    have := le_binary_of_le hp1 hnum (show 1 - 1 / 2 ^ p ≤ X by linarith [a3.1])
    exact binary_le_of_le hp1 hnum' (by linarith)

/-- C98: NumPy therefore accepts the shares in double precision: no call fails because of rounding, for up to
`2^13` shares that are zero or at least `2^-40`. -/
theorem C98_accepted (rng : Rng S K) (g : S) (size : ℕ) (ds : List K) (hn : ds.length ≤ 2 ^ 13)
    (hd : ∀ d ∈ ds, d = 0 ∨ (2 : K) ^ (-40 : ℤ) ≤ d) (hs : ds.sum ≤ 1) :
    npChoice rng g (ds.length + 1) size (withBaselineR (binary 53) (ds.map (binary 53))) =
      .ok (rng.choice g size (withBaselineR (binary 53) (ds.map (binary 53)))) := by
  obtain ⟨b, hb, h0, -, hsum, -⟩ := C98_first_share (K := K) (p := 53) (k := 40) (by norm_num) (by norm_num) ds
    (by calc ds.length * 2 ^ 40 ≤ 2 ^ 13 * 2 ^ 40 := Nat.mul_le_mul_right _ hn
          _ = 2 ^ 53 := by norm_num) (by simpa using hd) hs
  rw [hb]
  unfold npChoice
  rw [if_neg (by simp), if_neg (by simp), if_neg, if_neg]
  · rw [not_lt]
    refine hsum.trans ?_
    norm_num
  · simp only [List.any_eq_true, decide_eq_true_eq, not_exists, not_and, not_lt]
    intro x hx
    rcases List.mem_cons.1 hx with rfl | hx
    · exact h0
    · obtain ⟨d, hdm, rfl⟩ := List.mem_map.1 hx
      refine binary_nonneg 53 ?_
      rcases hd d hdm with rfl | h
      · exact le_rfl
      · exact (two_zpow_pos _).le.trans h

/-- C98 (what fails): with the summation of Python before 3.12 the shares 0.34, 0.56 and 0.1, which leave nothing
for the first group, leave a negative share, and NumPy refuses to draw. -/
theorem C98_older_python_fails :
    ∃ ds : List ℚ, ds.sum = 1 ∧ (∀ d ∈ ds, 0 < d) ∧
      ∀ (S : Type) (rng : Rng S ℚ) (g : S) (size : ℕ),
        npChoice rng g (ds.length + 1) size (withBaselinePlainR (binary 53) (ds.map (binary 53))) =
          .error (.valueError "probabilities are not non-negative") := by
  refine ⟨[0.34, 0.56, 0.1], by norm_num, ?_, ?_⟩
  · intro d hd
    simp only [List.mem_cons, List.not_mem_nil, or_false] at hd
    rcases hd with rfl | rfl | rfl <;> norm_num
  · intro S rng g size
    have h : withBaselinePlainR (binary 53) ([0.34, 0.56, 0.1].map (binary 53)) =
        (-(2 : ℚ) ^ (-52 : ℤ)) :: [0.34, 0.56, 0.1].map (binary 53) := by
      unfold withBaselinePlainR
      congr 1
      decide +kernel
    rw [h]
    unfold npChoice
    rw [if_neg (by simp), if_neg (by simp), if_pos]
    simp only [List.any_cons, Bool.or_eq_true, decide_eq_true_eq]
    left
    norm_num

/-- C98: the same shares are drawn from with the pinned version. -/
example (S : Type) (rng : Rng S ℚ) (g : S) (size : ℕ) :
    npChoice rng g 4 size (withBaselineR (binary 53) ([0.34, 0.56, 0.1].map (binary 53))) =
      .ok (rng.choice g size (0 :: [0.34, 0.56, 0.1].map (binary 53))) := by
  have h : withBaselineR (binary 53) (([0.34, 0.56, 0.1] : List ℚ).map (binary 53)) =
      0 :: ([0.34, 0.56, 0.1] : List ℚ).map (binary 53) := by
    unfold withBaselineR
    congr 1
    decide +kernel
  rw [← h]
  refine C98_accepted rng g size [0.34, 0.56, 0.1] (by norm_num) ?_ (by norm_num)
  intro d hd
  simp only [List.mem_cons, List.not_mem_nil, or_false] at hd
  right
  rcases hd with rfl | rfl | rfl <;> norm_num

end Soepy.Props
