import Verif.Proof.Sparse
import Verif.Props.Exogenous

/-!
# The sparse data frame (C44)
-/

set_option linter.unusedSectionVars false

namespace Soepy.Props
open Soepy
variable {S K : Type} [Field K] [LinearOrder K] [IsStrictOrderedRing K] [FloorRing K] [Transc K]
  {env : Env S K} {frame : Frame K} {a : Nat} {biased : Bool} {w : World S K}
  {par par' : ModelParams K} {spec spec' : ModelSpec K} {rows rows' : List (OutRow K)}

/-- **C44**  The sparse frame has the rows of the full frame; the identifier, experience stock, type, partner
indicator and wage are identical, the other columns are what fits in one byte. -/
theorem C44_sparse_rows (h : Spec.Output env frame a biased false w par spec rows)
    (h' : Spec.Output env frame a biased true w par' spec' rows') :
    rows' = rows.map Spec.sparseRow := (output_modes h h').2.2

/-- **C44** (partial)  If periods, education levels, ages and the largest possible experience fit in one byte,
the sparse frame is the full frame restricted to its columns.  The bounds are missing in the claim and needed:
see `C44_fails`. -/
theorem C44_sparse_restricts_full_partial (h : Spec.Output env frame a biased false w par spec rows)
    (h' : Spec.Output env frame a biased true w par' spec' rows')
    (hA : 0 ≤ spec.child_age_max) (hI : spec.child_age_init_max ≤ spec.child_age_max)
    (hage : spec.child_age_max ≤ 127) (heduc : spec.num_educ_levels ≤ 128)
    (hexp : spec.init_exp_max + spec.num_periods ≤ 128) :
    rows' = rows.map Spec.dropDetail := by
  rw [C44_sparse_rows h h']
  refine List.map_congr_left fun r hr => ?_
  obtain ⟨c, g1, sol, hc, hs, -, initial, draws, m, R, F, rfl⟩ := output_run h
  obtain ⟨t, ht, q, hq, rfl⟩ := mem_recorded.1 hr
  obtain ⟨hin, -⟩ := R.inRange h.laws (hc.spaceOf sol) ⟨hA, hI⟩ (F.inRange ⟨hA, hI⟩) t ht q hq
  have hcnt := R.counters h.laws (fun x hx => by
    have hE := (F.mem hx).2
    have h1 := hE.pt.lt
    have h2 := hE.ft.lt
    omega) t ht q hq
  have hr1 := recorded_rowIs q
  have b1 : q.agent.state.period < spec.num_periods := hin.period
  have b2 : q.agent.state.educ < spec.num_educ_levels := hin.educ
  have b3 : q.agent.state.lagged < 3 := hin.lagged
  have b4 : -1 ≤ q.agent.state.age := hin.ageLo
  have b5 : q.agent.state.age ≤ spec.child_age_max := hin.ageHi
  have e1 : (recorded false q).expPT = q.agent.expPT := by rw [recorded_full]; rfl
  have e2 : (recorded false q).expFT = q.agent.expFT := by rw [recorded_full]; rfl
  have e3 := recorded_choice q
  have b6 := q.out.choice.isLt
  unfold Spec.sparseRow Spec.dropDetail
  rw [asByte_of_mem (x := (recorded false q).period) (by rw [hr1.period]; omega) (by rw [hr1.period]; omega),
    asByte_of_mem (x := (recorded false q).educ) (by rw [hr1.educ]; omega) (by rw [hr1.educ]; omega),
    asByte_of_mem (x := (recorded false q).lagged) (by rw [hr1.lagged]; omega) (by rw [hr1.lagged]; omega),
    asByte_of_mem (x := (recorded false q).age) (by rw [hr1.age]; omega) (by rw [hr1.age]; omega),
    asByte_of_mem (x := (recorded false q).expPT) (by rw [e1]; omega) (by rw [e1]; omega),
    asByte_of_mem (x := (recorded false q).expFT) (by rw [e2]; omega) (by rw [e2]; omega),
    asByte_of_mem (x := (recorded false q).choice) (by rw [e3]; omega) (by rw [e3]; omega)]

example [Transc ℚ] (hermite : Nat → List ℚ × List ℚ) (g : Nat) :
    (∃ rows, Spec.Output (simEnv exFiles hermite) exFrame 0 false false (simWorld 4 g) exParams simSpec rows) ∧
    (∃ rows, Spec.Output (simEnv exFiles hermite) exFrame 0 false true (simWorld 4 g) exParams simSpec rows) ∧
    0 ≤ simSpec.child_age_max ∧ simSpec.child_age_init_max ≤ simSpec.child_age_max ∧
    simSpec.child_age_max ≤ 127 ∧ simSpec.num_educ_levels ≤ 128 ∧
    simSpec.init_exp_max + simSpec.num_periods ≤ 128 := by
  refine ⟨exOutput exFiles_ok hermite false false g, exOutput exFiles_ok hermite false true g, ?_⟩
  rw [specOf_facts.amax, specOf_facts.ainit, specOf_facts.educ, specOf_facts.init, specOf_facts.periods]
  decide

/-- Everybody enters with 128 years of part-time experience. -/
def longCareers : FileData :=
  { exFiles with pt := List.replicate 128 0 ++ [1], ft := 1 :: List.replicate 128 0 }

theorem longCareers_ok : longCareers.Ok 128 := by
  constructor <;> (unfold longCareers exFiles; decide +kernel)

theorem asByte_id {x : Int} : Spec.asByte x = x ↔ -128 ≤ x ∧ x ≤ 127 := by
  unfold Spec.asByte
  rw [Int.bmod_def]
  omega

/-- **C44**, exactly when it holds: the sparse frame is the full frame restricted to its columns if and only if
every value in seven integer columns of the full frame fits in one byte.  `C44_fails` is a pair of runs in which
one does not. -/
theorem C44_exact (h : Spec.Output env frame a biased false w par spec rows)
    (h' : Spec.Output env frame a biased true w par' spec' rows') :
    rows' = rows.map Spec.dropDetail ↔ ∀ r ∈ rows, ∀ x ∈ [r.period, r.educ, r.lagged, r.expPT, r.expFT, r.age, r.choice],
      -128 ≤ x ∧ x ≤ 127 := by
  rw [C44_sparse_rows h h', List.map_inj_left]
  refine forall₂_congr fun r hr => ?_
  simp only [List.forall_mem_cons, ← asByte_id]
  unfold Spec.sparseRow Spec.dropDetail
  constructor
  · intro e
    have := congrArg OutRow.period e
    have := congrArg OutRow.educ e
    have := congrArg OutRow.lagged e
    have := congrArg OutRow.expPT e
    have := congrArg OutRow.expFT e
    have := congrArg OutRow.age e
    have := congrArg OutRow.choice e
    simp_all
  · rintro ⟨h1, h2, h3, h4, h5, h6, h7, -⟩
    rw [h1, h2, h3, h4, h5, h6, h7]

/-- **C44** is false in general: a specification with up to 128 initial years of experience, and files that
give everybody 128 years of part-time work.  The full frame shows the 128 years, the sparse frame -128. -/
theorem C44_fails [Transc ℚ] (hermite : Nat → List ℚ × List ℚ) (g : Nat) :
    ∃ rows rows',
      Spec.Output (simEnv longCareers hermite) exFrame 0 false false (simWorld 128 g) exParams
        (specOf (simStore 128)) rows ∧
      Spec.Output (simEnv longCareers hermite) exFrame 0 false true (simWorld 128 g) exParams
        (specOf (simStore 128)) rows' ∧
      ∃ (i : Nat) (r r' : OutRow ℚ), rows[i]? = some r ∧ rows'[i]? = some r' ∧ r.expPT = 128 ∧
        r'.expPT = -128 := by
  obtain ⟨rows, h⟩ : ∃ rows, Spec.Output (simEnv longCareers hermite) exFrame 0 false false (simWorld 128 g) exParams
      (specOf (simStore 128)) rows :=
    sim_runs longCareers_ok hermite specOf_facts128 (by decide +kernel) exFacts false false g
  obtain ⟨rows', h'⟩ : ∃ rows, Spec.Output (simEnv longCareers hermite) exFrame 0 false true (simWorld 128 g) exParams
      (specOf (simStore 128)) rows :=
    sim_runs longCareers_ok hermite specOf_facts128 (by decide +kernel) exFacts false true g
  refine ⟨rows, rows', h, h', ?_⟩
  have hd : Spec.drawnEducation (simEnv longCareers hermite) (specOf (simStore 128)) = [1, 0, 1, 0, 1] := by
    unfold Spec.drawnEducation
    rw [specOf_facts128.seed, specOf_facts128.agents, specOf_facts128.files]
    show ((altRng ℚ).choice ((altRng ℚ).seed 1) 5 [1/2, 1/2]).1 = _
    decide +kernel
  have h1 := C34_one_row_per_agent_and_period h 1 0
  rw [if_pos ⟨by rw [specOf_facts128.periods]; decide, 0, 0, by rw [hd]; rfl,
    by rw [specOf_facts128.years]; rfl, Nat.zero_le _⟩] at h1
  have h2 : 0 < rows.countP (fun r => decide (r.id = ((1 : Nat) : Int)) && decide (r.period = ((0 : Nat) : Int))) := by
    rw [h1]; exact Nat.one_pos
  obtain ⟨r, hr, hr2⟩ := List.countP_pos_iff.1 h2
  simp only [Bool.and_eq_true, decide_eq_true_eq] at hr2
  obtain ⟨-, hrow⟩ := C34_rows_belong_to_agents h
  obtain ⟨i, t, e, f1, f2, f3, f4, -⟩ := hrow r hr
  have hi : i = 1 := by omega
  subst hi
  rw [hd] at f4
  obtain rfl : 0 = e := Option.some.inj f4
  have hent : Spec.Entry (specOf (simStore 128)) r := by
    unfold Spec.Entry
    rw [f3, hr2.2, specOf_facts128.years]
    rfl
  obtain ⟨⟨p, hp, -⟩, -, -, -, c, g1, hc, j, -, -, -, hpt, -⟩ :=
    entry_row h (by rw [specOf_facts128.educ]; decide) hr hent
  have hc := buildCached_ok.1 hc
  have e1 := hc.expPt
  rw [specOf_facts128.files] at e1
  obtain ⟨x, hx, hx0⟩ := drawn_share specOf_facts128.educ e1 hpt
  rw [hp, Int.toNat_natCast] at hx
  have hp128 : p = 128 := by
    have hall : ∀ k < 128, ((1 - longCareers.pt.tail.sum) :: longCareers.pt.tail)[k]? = some (0 : ℚ) := by
      decide +kernel
    have hl : ((1 - longCareers.pt.tail.sum) :: longCareers.pt.tail).length = 129 := by decide +kernel
    have hlt := (List.getElem?_eq_some_iff.1 hx).1
    rw [hl] at hlt
    by_contra hne
    rw [hall p (by omega)] at hx
    exact absurd hx0 (by rw [← Option.some.inj hx]; exact lt_irrefl _)
  obtain ⟨k, hk⟩ := List.mem_iff_getElem?.1 hr
  refine ⟨k, r, Spec.sparseRow r, hk, ?_, by rw [hp, hp128]; rfl, ?_⟩
  · rw [C44_sparse_rows h h', List.getElem?_map, hk]
    rfl
  · show Spec.asByte r.expPT = -128
    rw [hp, hp128]
    decide

end Soepy.Props
