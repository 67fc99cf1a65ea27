import Verif.Proof.Probabilities
import Verif.Proof.Solve
import Verif.Model.RealInst
import Verif.Props.SimExample

/-!
# Probability vectors are normalised (C50)
-/

set_option linter.unusedSectionVars false

namespace Soepy.Props
open Soepy
variable {S K : Type} [Field K] [LinearOrder K] [IsStrictOrderedRing K]

/-- **C50**  Type shares sum to one, whatever the parameter frame. -/
theorem C50_type_shares {frame : Frame K} {par : ModelParams K} (h : readModelParams frame = .ok par) :
    par.type_shares.sum = 1 := by
  unfold readModelParams at h
  obtain ⟨⟨d, der⟩, h1, h2⟩ := bind_ok.1 h
  obtain ⟨het, -, -, -, hs, -⟩ := groupParameters_theta h2
  rw [hs]
  exact expandModelParams_shares h1

example : ∃ par, readModelParams exFrame = .ok par := ⟨_, exFacts.reads⟩

/-- The shares listed in a file for education level `e`. -/
def listed (rows : List (Nat × K)) (e : Nat) : List K := (rows.filter fun r => r.1 == e).map Prod.snd

/-- `shares` holds for each education level as many shares as the file lists; they are the listed ones except
for the first, and sum to one. -/
def Normalised (rows : List (Nat × K)) (numEduc : Nat) (shares : List (List K)) : Prop :=
  shares.length = numEduc ∧ ∀ e < numEduc, ∃ l, shares[e]? = some l ∧ l.length = (listed rows e).length ∧
    l.tail = (listed rows e).tail ∧ l.sum = 1

theorem normalised_of_mapE {rows : List (Nat × K)} {n : Nat} {shares : List (List K)}
    (h : mapE (sharesOfEduc rows) (List.range n) = .ok shares) : Normalised rows n shares := by
  have hl := mapE_length h
  rw [List.length_range] at hl
  refine ⟨hl, ?_⟩
  intro e he
  have := mapE_get h e (by simpa using he) (by omega)
  rw [List.getElem_range] at this
  obtain ⟨h1, h2, h3⟩ := sharesOfEduc_ok this
  exact ⟨_, List.getElem?_eq_getElem (by omega), by rw [h2]; simp [listed], h3, h1⟩

/-- **C50**  Initial child-age shares and initial experience shares sum to one for each education level; they
are the shares of the file, except for the first, which is what is missing to one. -/
theorem C50_initial_shares (files : InputFiles K) (spec : ModelSpec K) :
    (∀ shares, genProbChildInitAgeVector files spec = .ok shares →
      Normalised files.child_age_shares spec.num_educ_levels shares) ∧
    (∀ rows shares, genProbInitExpComponentVector rows spec = .ok shares →
      Normalised rows spec.num_educ_levels shares) :=
  ⟨fun _ h => normalised_of_mapE h, fun _ _ h => normalised_of_mapE h⟩

/-- **C50**  Shares of total years of experience sum to one.  If the files list at most `init_exp_max + 1`
years of each kind, the share of `n` years is the probability that independent draws of part-time and
full-time years sum to `n`. -/
theorem C50_experience_years {files : InputFiles K} {spec : ModelSpec K} {shares : List (List K)}
    (h : genProbInitExpYearsVector files spec = .ok shares)
    (hft : ∀ e < spec.num_educ_levels, (listed files.ft_exp_shares e).length ≤ spec.init_exp_max + 1)
    (hpt : ∀ e < spec.num_educ_levels, (listed files.pt_exp_shares e).length ≤ spec.init_exp_max + 1) :
    shares.length = spec.num_educ_levels ∧ ∃ ft pt,
      genProbInitExpComponentVector files.ft_exp_shares spec = .ok ft ∧
      genProbInitExpComponentVector files.pt_exp_shares spec = .ok pt ∧
      ∀ e < spec.num_educ_levels, ∃ l, shares[e]? = some l ∧ l.sum = 1 ∧ ∀ n, l.getD n 0 =
        ((List.range (n + 1)).map fun i => (ft.getD e []).getD i 0 * (pt.getD e []).getD (n - i) 0).sum := by
  unfold genProbInitExpYearsVector at h
  split at h
  · cases h
  · rename_i ft hf
    split at h
    · cases h
    · rename_i pt hp
      obtain rfl := Except.ok.inj h
      obtain ⟨l1, n1⟩ := normalised_of_mapE hf
      obtain ⟨l2, n2⟩ := normalised_of_mapE hp
      refine ⟨by rw [List.length_zipWith, l1, l2, min_self], ft, pt, hf, hp, ?_⟩
      intro e he
      obtain ⟨a, ha, ha1, -, ha3⟩ := n1 e he
      obtain ⟨b, hb, hb1, -, hb3⟩ := n2 e he
      have e1 : ft.getD e [] = a := by rw [List.getD_eq_getElem?_getD, ha]; rfl
      have e2 : pt.getD e [] = b := by rw [List.getD_eq_getElem?_getD, hb]; rfl
      have hc := expYearsOf_eq (m := spec.init_exp_max) (by rw [ha1]; exact hft e he)
        (by rw [hb1]; exact hpt e he) ha3 hb3
      refine ⟨convolve a b, ?_, ?_, ?_⟩
      · rw [List.getElem?_zipWith, ha, hb, ← hc]
      · rw [convolve_sum, ha3, hb3, mul_one]
      · intro n
        rw [e1, e2, convolve_get]

/-- **C50**  Also if the files list more years, the shares are normalised, unless no mass is left. -/
theorem C50_experience_years_truncated {files : InputFiles K} {spec : ModelSpec K} {shares ft pt : List (List K)}
    (h : genProbInitExpYearsVector files spec = .ok shares)
    (hf : genProbInitExpComponentVector files.ft_exp_shares spec = .ok ft)
    (hp : genProbInitExpComponentVector files.pt_exp_shares spec = .ok pt) (e : Nat) (l : List K)
    (hl : shares[e]? = some l)
    (hm : ((List.range (2 * spec.init_exp_max + 1)).map fun n => ((List.range (n + 1)).map fun i =>
      (ft.getD e []).getD i 0 * (pt.getD e []).getD (n - i) 0).sum).sum ≠ 0) : l.sum = 1 := by
  unfold genProbInitExpYearsVector at h
  rw [hf, hp] at h
  obtain rfl := Except.ok.inj h
  rw [List.getElem?_zipWith] at hl
  cases ha : ft[e]? with
  | none => rw [ha] at hl; simp at hl
  | some a =>
    cases hb : pt[e]? with
    | none => rw [ha, hb] at hl; simp at hl
    | some b =>
      rw [ha, hb] at hl
      obtain rfl := Option.some.inj hl
      refine expYearsOf_sum ?_
      have e1 : ft.getD e [] = a := by rw [List.getD_eq_getElem?_getD, ha]; rfl
      have e2 : pt.getD e [] = b := by rw [List.getD_eq_getElem?_getD, hb]; rfl
      rw [e1, e2] at hm
      rw [← sum_range_getD _ (2 * spec.init_exp_max + 1) (by rw [List.length_take]; exact min_le_left _ _)]
      convert hm using 2
      refine List.map_congr_left fun n hn => ?_
      have hn := List.mem_range.1 hn
      rw [← convolve_get, List.getD_eq_getElem?_getD, List.getD_eq_getElem?_getD,
        List.getElem?_take_of_lt hn]

/-- Files with two education levels and up to two years. -/
def shareFiles : InputFiles ℚ :=
  { educ_shares := [1/2, 1/2], child_age_shares := [(0, 0), (0, 1/4), (1, 0), (1, 1/2)], partner_shares := [],
    pt_exp_shares := [(0, 0), (0, 1/4), (0, 1/4), (1, 0), (1, 1/3), (1, 1/3)],
    ft_exp_shares := [(0, 0), (0, 1/2), (0, 1/4), (1, 0), (1, 1/5), (1, 1/5)],
    child_info := [], partner_separation := [], partner_arrival := [] }

/-- The files can be read for a specification with two levels and at most two initial years. -/
example : ∀ spec : ModelSpec ℚ, spec.num_educ_levels = 2 → spec.init_exp_max = 2 →
    (∃ shares, genProbChildInitAgeVector shareFiles spec = .ok shares) ∧
    (∃ shares, genProbInitExpYearsVector shareFiles spec = .ok shares) ∧
    (∀ e < spec.num_educ_levels, (listed shareFiles.ft_exp_shares e).length ≤ spec.init_exp_max + 1) ∧
    ∀ e < spec.num_educ_levels, (listed shareFiles.pt_exp_shares e).length ≤ spec.init_exp_max + 1 := by
  intro spec h1 h2
  refine ⟨?_, ?_, ?_, ?_⟩
  · unfold genProbChildInitAgeVector
    rw [h1]
    exact ⟨_, rfl⟩
  · unfold genProbInitExpYearsVector genProbInitExpComponentVector
    rw [h1, h2]
    exact ⟨_, rfl⟩
  · rw [h1, h2]; decide
  · rw [h1, h2]; decide

/-- **C50**  Rows of the partner transition table sum to one, and hold the arrival and separation probabilities
of the files. -/
theorem C50_partner_transitions [FloorRing K] [Transc K] {disk : String → List (Nat × K)} {spec : ModelSpec K}
    {l : List (List (Fin 2 → Fin 2 → K))} (h : genProbPartner (readFiles disk spec.files) spec = .ok l)
    {t e : Nat} (ht : t < spec.num_periods) (he : e < spec.num_educ_levels) :
    ∃ row p, l[t]? = some row ∧ row[e]? = some p ∧ (∀ q, p q 0 + p q 1 = 1) ∧
      p 0 1 = Spec.arrivalTable disk spec t e ∧ p 1 0 = Spec.separationTable disk spec t e := by
  have hg := probPartner_entry h ht he
  obtain ⟨s1, s2⟩ := genProbPartner_shape h
  have h1 : t < l.length := by omega
  have h2 : e < l[t].length := lt_of_lt_of_le he (le_of_eq (s2 _ (List.getElem_mem h1)).symm)
  rw [List.getD_eq_getElem _ _ h1, List.getD_eq_getElem _ _ h2] at hg
  refine ⟨l[t], l[t][e], List.getElem?_eq_getElem h1, List.getElem?_eq_getElem h2, ?_, ?_, ?_⟩
  · intro q
    rw [hg]
    fin_cases q <;> simp
  · rw [hg]; simp
  · rw [hg]; simp

/-- **C50**  Monte Carlo weights sum to one; so do quadrature weights, provided the weights of
`scipy.special.roots_hermite` sum to the square root of pi (which holds exactly for Gauss-Hermite quadrature).
There are as many draws as weights and as many as the specification asks for. -/
theorem C50_integration_weights [Transc K] {rng : Rng S K} (L : RngLaws rng)
    {hermite : Nat → List K × List K} {spec : ModelSpec K} {g g' : S} {draws weights : List K}
    (hn : 0 < spec.num_draws_emax)
    (hh : (hermite spec.num_draws_emax).1.length = spec.num_draws_emax ∧
      (hermite spec.num_draws_emax).2.length = spec.num_draws_emax ∧
      (hermite spec.num_draws_emax).2.sum = Transc.sqrt Transc.pi) (hpi : (Transc.sqrt Transc.pi : K) ≠ 0)
    (h : getIntegrationDrawsAndWeights rng hermite spec g = .ok ((draws, weights), g')) :
    weights.sum = 1 ∧ draws.length = spec.num_draws_emax ∧ weights.length = spec.num_draws_emax := by
  unfold getIntegrationDrawsAndWeights at h
  split at h
  · dsimp only at h
    simp only [Except.ok.injEq, Prod.mk.injEq] at h
    obtain ⟨⟨rfl, rfl⟩, -⟩ := h
    refine ⟨?_, by rw [List.length_map, hh.1], by rw [List.length_map, hh.2.1]⟩
    rw [List.sum_map_mul_right, List.map_id', hh.2.2, mul_one_div, div_self hpi]
  · split at h
    · dsimp only at h
      simp only [Except.ok.injEq, Prod.mk.injEq] at h
      obtain ⟨⟨rfl, rfl⟩, -⟩ := h
      have hl : (drawZeroOneShocks rng spec.seed_emax 1 spec.num_draws_emax).1.length = 1 :=
        L.normal_length _ _ _
      refine ⟨?_, ?_, List.length_replicate⟩
      · rw [List.sum_replicate, nsmul_eq_mul, mul_one_div, div_self]
        exact_mod_cast hn.ne'
      · refine L.normal_cols _ _ _ _ (jget_mem [] ?_ 0)
        intro h0
        unfold drawZeroOneShocks at hl
        rw [h0] at hl
        cases hl
    · cases h

/-- Over the reals the square root of pi is not zero; a one-point rule (the exact Gauss-Hermite rule for one
point) satisfies the hypothesis on the weights. -/
example : (Transc.sqrt Transc.pi : ℝ) ≠ 0 ∧ ∃ rule : List ℝ × List ℝ,
    rule.1.length = 1 ∧ rule.2.length = 1 ∧ rule.2.sum = Transc.sqrt Transc.pi :=
  ⟨by rw [transc_sqrt, transc_pi]; exact (Real.sqrt_pos.2 Real.pi_pos).ne',
    ([0], [Transc.sqrt Transc.pi]), rfl, rfl, by simp⟩

end Soepy.Props
