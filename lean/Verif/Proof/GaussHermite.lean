import Verif.Spec.Quadrature
import Verif.Proof.Quadrature
import Mathlib.Analysis.InnerProductSpace.Spectrum
import Mathlib.Analysis.InnerProductSpace.Dual
import Mathlib.RingTheory.Polynomial.DegreeLT

/-! The Gauss-Hermite rules exist: the nodes are the eigenvalues of multiplication by `x`, compressed to polynomials of
degree less than `n`. -/

set_option linter.unusedSectionVars false

namespace Soepy
open MeasureTheory ProbabilityTheory Polynomial Filter Topology

/-- The normal distribution with density `exp (-x²) / √π`. -/
noncomputable def hermiteNormal : Measure ℝ := gaussianReal 0 (1 / 2)

instance : IsProbabilityMeasure hermiteNormal := by unfold hermiteNormal; infer_instance

theorem hermite_integral (f : ℝ → ℝ) : ∫ x, f x * Real.exp (-x ^ 2) = √Real.pi * ∫ x, f x ∂hermiteNormal := by
  unfold hermiteNormal
  rw [integral_gaussianReal_eq_integral_smul (by norm_num), ← integral_const_mul]
  refine integral_congr_ae (Eventually.of_forall fun x => ?_)
  have hpi : (√Real.pi) ≠ 0 := (Real.sqrt_pos.2 Real.pi_pos).ne'
  simp only [gaussianPDFReal, smul_eq_mul]
  norm_num
  field_simp

theorem hermite_poly_integrable (p : ℝ[X]) : Integrable (fun x => p.eval x) hermiteNormal := by
  unfold hermiteNormal
  induction p using Polynomial.induction_on' with
  | add p q hp hq =>
    simp only [eval_add]
    exact hp.add hq
  | monomial k a =>
    simp only [eval_monomial]
    refine Integrable.const_mul ?_ _
    have := (memLp_id_gaussianReal (μ := 0) (v := 1 / 2) (k : NNReal)).integrable_norm_pow'
    refine (integrable_norm_iff (by fun_prop)).1 ?_
    simpa using this

theorem hermite_triple (p q : ℝ[X]) : Integrable (fun x => x * p.eval x * q.eval x) hermiteNormal := by
  have h := hermite_poly_integrable (X * p * q)
  simp only [eval_mul, eval_X] at h
  exact h

theorem hermite_definite {p : ℝ[X]} (h : ∫ x, p.eval x * p.eval x ∂hermiteNormal = 0) : p = 0 := by
  have hi : Integrable (fun x => p.eval x * p.eval x) hermiteNormal := by
    simpa using hermite_poly_integrable (p * p)
  have h0 := (integral_eq_zero_iff_of_nonneg (fun x => mul_self_nonneg _) hi).1 h
  by_contra hp
  have hfin : hermiteNormal {x | p.eval x = 0} = 0 := by
    have : NullSingletonClass hermiteNormal := nullSingletonClass_gaussianReal (by norm_num)
    refine Set.Finite.measure_zero ?_ _
    refine (p.roots.toFinset.finite_toSet).subset fun x hx => ?_
    simpa [hp] using hx
  have h1 : ∀ᵐ x ∂hermiteNormal, ¬ p.eval x = 0 := measure_eq_zero_iff_ae_notMem.1 hfin
  have h2 : ∀ᵐ x ∂hermiteNormal, False := by
    filter_upwards [h0, h1] with x hx hx'
    exact hx' (mul_self_eq_zero.1 hx)
  have := h2.exists
  simp at this

/-- The inner product. -/
@[instance_reducible]
noncomputable def hermiteCore (n : ℕ) : InnerProductSpace.Core ℝ (degreeLT ℝ n) where
  inner p q := ∫ x, (p : ℝ[X]).eval x * (q : ℝ[X]).eval x ∂hermiteNormal
  conj_inner_symm p q := by simp [mul_comm]
  re_inner_nonneg p := integral_nonneg fun x => mul_self_nonneg _
  add_left p q r := by
    simp only [Submodule.coe_add, eval_add, add_mul]
    rw [integral_add (by simpa using hermite_poly_integrable (p * r : ℝ[X]))
      (by simpa using hermite_poly_integrable (q * r : ℝ[X]))]
  smul_left p q c := by
    simp only [Submodule.coe_smul, eval_smul, smul_eq_mul, mul_assoc]
    rw [integral_const_mul]
    simp
  definite p h := Subtype.ext (hermite_definite h)

/-- The Gauss-Hermite rule with any number of nodes exists. -/
theorem gaussHermite_exists (n : ℕ) : ∃ rule, Spec.GaussHermite n rule := by
  rcases Nat.eq_zero_or_pos n with rfl | hn
  · refine ⟨([], []), rfl, rfl, by simp, fun p hp => ?_⟩
    have : p = 0 := by
      by_contra h
      rw [degree_eq_natDegree h] at hp
      exact absurd hp (by simp)
    simp [this]
  let _ : NormedAddCommGroup (degreeLT ℝ n) := (hermiteCore n).toNormedAddCommGroup
  let _ : InnerProductSpace ℝ (degreeLT ℝ n) := InnerProductSpace.ofCore (hermiteCore n).toCore
  have hfd : FiniteDimensional ℝ (degreeLT ℝ n) := Module.Finite.equiv (degreeLTEquiv ℝ n).symm
  have hrank : Module.finrank ℝ (degreeLT ℝ n) = n := by
    rw [(degreeLTEquiv ℝ n).finrank_eq]; simp
  have hinner : ∀ p q : degreeLT ℝ n,
      inner ℝ p q = ∫ x, (p : ℝ[X]).eval x * (q : ℝ[X]).eval x ∂hermiteNormal := fun _ _ => rfl
  -- compressed multiplication
  have hmul : ∀ p : degreeLT ℝ n, ∃ q : degreeLT ℝ n, ∀ r : degreeLT ℝ n,
      inner ℝ q r = ∫ x, x * (p : ℝ[X]).eval x * (r : ℝ[X]).eval x ∂hermiteNormal := by
    intro p
    let φ : degreeLT ℝ n →ₗ[ℝ] ℝ :=
      { toFun := fun r => ∫ x, x * (p : ℝ[X]).eval x * (r : ℝ[X]).eval x ∂hermiteNormal
        map_add' := fun r r' => by
          simp only [Submodule.coe_add, eval_add, mul_add]
          rw [integral_add (hermite_triple p r)
            (hermite_triple p r')]
        map_smul' := fun c r => by
          simp only [Submodule.coe_smul, eval_smul, smul_eq_mul, RingHom.id_apply]
          rw [← integral_const_mul]
          congr 1; ext x; ring }
    have : CompleteSpace (degreeLT ℝ n) := FiniteDimensional.complete ℝ _
    refine ⟨(InnerProductSpace.toDual ℝ (degreeLT ℝ n)).symm (LinearMap.toContinuousLinearMap φ), fun r => ?_⟩
    rw [InnerProductSpace.toDual_symm_apply]
    rfl
  choose J hJ using hmul
  let T : degreeLT ℝ n →ₗ[ℝ] degreeLT ℝ n :=
    { toFun := J
      map_add' := fun p q => by
        refine ext_inner_right ℝ fun r => ?_
        rw [inner_add_left, hJ, hJ, hJ]
        simp only [Submodule.coe_add, eval_add, mul_add, add_mul]
        rw [integral_add (hermite_triple p r)
            (hermite_triple q r)]
      map_smul' := fun c p => by
        refine ext_inner_right ℝ fun r => ?_
        rw [RingHom.id_apply, inner_smul_left, hJ, hJ]
        simp only [Submodule.coe_smul, eval_smul, smul_eq_mul]
        rw [conj_trivial, ← integral_const_mul]
        congr 1; ext x; ring }
  have hT : T.IsSymmetric := fun p q => by
    show inner ℝ (J p) q = inner ℝ p (J q)
    rw [hJ, real_inner_comm, hJ]
    congr 1; ext x; ring
  have hu : ∀ k, k < n → (X ^ k : ℝ[X]) ∈ degreeLT ℝ n := fun k hk => by
    rw [mem_degreeLT, degree_X_pow]; exact_mod_cast hk
  let one : degreeLT ℝ n := ⟨X ^ 0, hu 0 hn⟩
  have hpow : ∀ k (hk : k < n), (T ^ k) one = ⟨X ^ k, hu k hk⟩ := by
    intro k
    induction k with
    | zero => intro _; rfl
    | succ k ih =>
      intro hk
      rw [pow_succ', Module.End.mul_apply, ih (by omega)]
      refine ext_inner_right ℝ fun r => ?_
      refine (hJ _ r).trans ?_
      rw [hinner]
      congr 1; ext x; simp [pow_succ']
  let b := hT.eigenvectorBasis hrank
  let ev := hT.eigenvalues hrank
  have hrepr : ∀ k i, b.repr ((T ^ k) one) i = ev i ^ k * b.repr one i := by
    intro k i
    induction k with
    | zero => simp
    | succ k ih =>
      rw [pow_succ', Module.End.mul_apply, hT.eigenvectorBasis_apply_self_apply hrank]
      rw [show (hT.eigenvectorBasis hrank).repr ((T ^ k) one) i = _ from ih]
      simp only [ev, RCLike.ofReal_real_eq_id, id]
      ring
  have hmom : ∀ m, m < 2 * n → ∫ x, x ^ m ∂hermiteNormal = ∑ i, b.repr one i ^ 2 * ev i ^ m := by
    have hin : ∀ k l, inner ℝ ((T ^ k) one) ((T ^ l) one) = ∑ i, b.repr one i ^ 2 * ev i ^ (k + l) := by
      intro k l
      rw [← b.repr.inner_map_map, PiLp.inner_apply]
      refine Finset.sum_congr rfl fun i _ => ?_
      rw [hrepr, hrepr]
      simp only [RCLike.inner_apply, conj_trivial]
      ring
    intro m hm
    rcases Nat.lt_or_ge m n with h | h
    · have := hin m 0
      rw [hpow m h, hpow 0 hn, hinner] at this
      simpa using this
    · obtain ⟨l, rfl⟩ := Nat.exists_eq_add_of_le h
      have := hin (n - 1 + 1) l
      rw [pow_succ', Module.End.mul_apply, hpow (n - 1) (by omega), hpow l (by omega),
        show T ⟨X ^ (n - 1), hu (n - 1) (by omega)⟩ = J ⟨X ^ (n - 1), hu (n - 1) (by omega)⟩ from rfl, hJ,
        Nat.sub_add_cancel hn] at this
      rw [← this]
      congr 1; ext x
      simp only [eval_pow, eval_X]
      rw [← pow_succ', Nat.sub_add_cancel hn, ← pow_add]
  refine ⟨(List.ofFn ev, List.ofFn fun i => √Real.pi * b.repr one i ^ 2), by simp, by simp, ?_, fun p hp => ?_⟩
  · intro w hw
    obtain ⟨i, rfl⟩ := (List.mem_ofFn' _ _).1 hw
    positivity
  · have hdeg : p.natDegree < 2 * n := by
      rcases eq_or_ne p 0 with rfl | hp0
      · simp; omega
      · exact (natDegree_lt_iff_degree_lt hp0).2 hp
    have hzip : (List.zipWith (fun x w => w * p.eval x) (List.ofFn ev) (List.ofFn fun i => √Real.pi * b.repr one i ^ 2))
        = List.ofFn fun i => √Real.pi * b.repr one i ^ 2 * p.eval (ev i) := by
      refine List.ext_getElem (by simp) fun i h1 h2 => ?_
      simp
    rw [hermite_integral]
    dsimp only
    rw [hzip, List.sum_ofFn]
    simp only [eval_eq_sum_range' hdeg]
    rw [integral_finsetSum _ fun m _ => by
      simpa using (hermite_poly_integrable (X ^ m)).const_mul (p.coeff m)]
    simp only [integral_const_mul]
    have hm : ∑ m ∈ Finset.range (2 * n), p.coeff m * ∫ x, x ^ m ∂hermiteNormal
        = ∑ m ∈ Finset.range (2 * n), p.coeff m * ∑ i, b.repr one i ^ 2 * ev i ^ m :=
      Finset.sum_congr rfl fun m hm => by rw [hmom m (Finset.mem_range.1 hm)]
    rw [hm]
    simp only [Finset.mul_sum]
    rw [Finset.sum_comm]
    refine Finset.sum_congr rfl fun m _ => Finset.sum_congr rfl fun i _ => ?_
    ring

end Soepy
