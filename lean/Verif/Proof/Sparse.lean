import Verif.Spec.Sparse
import Verif.Proof.Shocks
import Verif.Proof.Usable

/-! # Sparse and full output -/

set_option linter.unusedSectionVars false

namespace Soepy
variable {S K : Type} [Field K] [LinearOrder K] [IsStrictOrderedRing K] [FloorRing K] [Transc K]

theorem int8_eq (x : Int) : int8 x = Spec.asByte x := by
  unfold int8 Spec.asByte
  have := Int.emod_emod_of_dvd x (show (256 : Int) ∣ 256 by decide)
  rw [Int.bmod_def]
  split_ifs <;> omega

theorem asByte_of_mem {x : Int} (h1 : -128 ≤ x) (h2 : x ≤ 127) : Spec.asByte x = x := by
  rw [← int8_eq]
  unfold int8
  omega

theorem recorded_sparse (q : Row K) : recorded true q = Spec.sparseRow (recorded false q) := by
  have hch : q.out.choice = 0 ∨ q.out.choice = 1 ∨ q.out.choice = 2 := by
    rcases q.out.choice with ⟨v, hv⟩
    have : v = 0 ∨ v = 1 ∨ v = 2 := by omega
    rcases this with rfl | rfl | rfl
    · exact Or.inl rfl
    · exact Or.inr (Or.inl rfl)
    · exact Or.inr (Or.inr rfl)
  rw [recorded_full]
  unfold recorded maskWage
  simp only [if_true, castSparse, outRow, Spec.sparseRow, int8_eq, if_true]
  rcases hch with h | h | h <;> simp [h, Spec.asByte] <;> decide

/-- Both modes run the same simulation. -/
theorem pythSimulate_modes {rng : Rng S K} {par : ModelParams K} {spec : ModelSpec K} {inp : SimInput K}
    {probs : InitProbs K} {biased : Bool} {g : S} {rows rows' : List (OutRow K)} {g' g'' : S}
    (h : pythSimulate rng par spec inp probs biased false g = .ok (rows, g'))
    (h' : pythSimulate rng par spec inp probs biased true g = .ok (rows', g'')) :
    rows' = rows.map Spec.sparseRow ∧ g' = g'' := by
  unfold pythSimulate at h h'
  dsimp only at h h'
  obtain ⟨⟨⟨initial, draws⟩, g1⟩, h1, h⟩ := bind_ok.1 h
  rw [h1, ok_bind] at h'
  dsimp only at h h'
  obtain ⟨⟨data, g2⟩, h2, h⟩ := bind_ok.1 h
  rw [h2, ok_bind] at h'
  dsimp only at h h'
  by_cases he : data.isEmpty
  · rw [if_pos he] at h; cases h
  · rw [if_neg he] at h h'
    simp only [pure_ok, Prod.mk.injEq] at h h'
    obtain ⟨rfl, rfl⟩ := h
    obtain ⟨rfl, rfl⟩ := h'
    refine ⟨?_, rfl⟩
    rw [finishData_eq, finishData_eq, List.map_map]
    exact List.map_congr_left fun q _ => recorded_sparse q

theorem output_modes {env : Env S K} {frame : Frame K} {a : Nat} {biased : Bool} {w : World S K}
    {par par' : ModelParams K} {spec spec' : ModelSpec K} {rows rows' : List (OutRow K)}
    (h : Spec.Output env frame a biased false w par spec rows)
    (h' : Spec.Output env frame a biased true w par' spec' rows') :
    par = par' ∧ spec = spec' ∧ rows' = rows.map Spec.sparseRow := by
  obtain rfl : par = par' := Except.ok.inj (h.params.symm.trans h'.params)
  obtain ⟨st1, hs1⟩ := h.spec_ok
  obtain ⟨st2, hs2⟩ := h'.spec_ok
  rw [hs1] at hs2
  obtain ⟨-, rfl⟩ := Prod.mk.inj (Except.ok.inj hs2)
  obtain ⟨c, g1, sol, hc, hs, ⟨g2, hp⟩, -⟩ := output_run h
  obtain ⟨c', g1', sol', hc', hs', ⟨g2', hp'⟩, -⟩ := output_run h'
  have := (buildCached_ok.2 hc).symm.trans (buildCached_ok.2 hc')
  obtain ⟨rfl, rfl⟩ := Prod.mk.inj (Except.ok.inj this)
  obtain rfl : sol = sol' := Except.ok.inj (hs.symm.trans hs')
  exact ⟨rfl, rfl, (pythSimulate_modes hp hp').1⟩

/-- Counters grow by at most one a year. -/
theorem Run.counters {rng : Rng S K} (L : RngLaws rng) {par : ModelParams K} {spec : ModelSpec K}
    {inp : SimInput K} {biased : Bool} {draws : List (List K)} {initial : List (Agent K)} {m : Nat} {g : S}
    (R : Run rng par spec inp biased draws initial m g)
    (h0 : ∀ x ∈ initial, x.expPT ≤ spec.init_exp_max ∧ x.expFT ≤ spec.init_exp_max) :
    ∀ t, t < spec.num_periods → ∀ r ∈ R.rows t,
      r.agent.expPT ≤ spec.init_exp_max + t ∧ r.agent.expFT ≤ spec.init_exp_max + t := by
  refine R.induct L (fun t x => x.expPT ≤ spec.init_exp_max + t ∧ x.expFT ≤ spec.init_exp_max + t) ?_ ?_
  · intro x hx
    have := h0 x hx
    omega
  · intro t _ r _ hr x q _ _
    simp only [stepAgent]
    split_ifs <;> omega

theorem DrawnFrom.lt {table : List (List K)} {n e x : Nat} (h : DrawnFrom table n e x) : x < n := by
  obtain ⟨p, y, -, rfl, h2, -⟩ := h
  exact (List.getElem?_eq_some_iff.1 h2).1

end Soepy
