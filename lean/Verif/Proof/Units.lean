import Verif.Spec.Units
import Verif.Proof.Reference
import Verif.Proof.Statics

/-! Homogeneity of incomes and values in the unit of account. -/

set_option linter.unusedSectionVars false

namespace Soepy
variable {K : Type} [Field K] [LinearOrder K] [IsStrictOrderedRing K] [Transc K]

/-- What is needed of the transcendental functions at the factor `l`. -/
structure UnitLaws (l mu : K) : Prop where
  pos : 0 < l
  exp : ∀ a, Transc.exp (a + Transc.log l) = l * Transc.exp a
  powPos : 0 < Transc.pow l mu
  pow : ∀ c, 0 ≤ c → Transc.pow (l * c) mu = Transc.pow l mu * Transc.pow c mu

section
variable {l mu : K} (L : UnitLaws l mu)
include L

theorem schedule_units (tp : TaxParams K) (x : K) :
    Spec.schedule (Spec.taxInUnits l tp) (l * x) = l * Spec.schedule tp x := by
  have hl := L.pos
  have hlt : ∀ a b : K, l * a < l * b ↔ a < b := fun a b => mul_lt_mul_iff_of_pos_left hl
  unfold Spec.schedule Spec.taxInUnits
  dsimp only
  simp only [hlt]
  have hp : ∀ i : Fin 4, l * tp.base i + tp.linear i * (l * x - l * tp.thresholds i)
      + tp.quad i / l * (l * x - l * tp.thresholds i) ^ 2
      = l * (tp.base i + tp.linear i * (x - tp.thresholds i) + tp.quad i * (x - tp.thresholds i) ^ 2) := by
    intro i
    field_simp
  simp only [hp]
  split_ifs <;> simp

theorem taxable_units (d : SscSpec K) (w : K) :
    Spec.taxable { rate := d.rate, cap := l * d.cap } (l * w) = l * Spec.taxable d w := by
  unfold Spec.taxable
  dsimp only
  rw [← mul_min_of_nonneg _ _ L.pos.le]
  ring

theorem householdNet_units (spec : ModelSpec K) (f m : K) :
    Spec.householdNet (Spec.inUnits l spec) (l * f) (l * m) = l * Spec.householdNet spec f m := by
  unfold Spec.householdNet
  dsimp only
  have h1 : ∀ w, Spec.taxable (Spec.inUnits l spec).ssc_deductions (l * w) = l * Spec.taxable spec.ssc_deductions w :=
    taxable_units L _
  have h2 : ∀ x, Spec.schedule (Spec.inUnits l spec).tax_params (l * x) = l * Spec.schedule spec.tax_params x :=
    schedule_units L _
  have h3 : (Spec.inUnits l spec).tax_splitting = spec.tax_splitting := rfl
  have h4 : 0 < l * m ↔ 0 < m := by rw [mul_pos_iff_of_pos_left L.pos]
  have h5 : ∀ a b : K, (l * a + l * b) / 2 = l * ((a + b) / 2) := by intro a b; ring
  simp only [h1, h2, h3, h4, h5]
  split_ifs <;> ring

theorem partnerWage_units (spec : ModelSpec K) (s : State) :
    Spec.partnerWage (Spec.inUnits l spec) s = l * Spec.partnerWage spec s := by
  unfold Spec.partnerWage Spec.inUnits
  dsimp only
  split_ifs
  · rw [← mul_assoc, ← L.exp]
    congr 2
    ring
  · simp

theorem kindergeld_units (spec : ModelSpec K) (s : State) :
    Spec.kindergeld (Spec.inUnits l spec) s = l * Spec.kindergeld spec s := by
  unfold Spec.kindergeld Spec.inUnits
  split_ifs <;> simp

theorem alg1_units (spec : ModelSpec K) (s : State) (w cb : K) :
    Spec.alg1 (Spec.inUnits l spec) s (l * w) (l * cb) = l * Spec.alg1 spec s w cb := by
  unfold Spec.alg1 Spec.inUnits
  dsimp only
  split_ifs <;> ring

theorem elterngeld_units (spec : ModelSpec K) (s : State) (w cb : K) :
    Spec.elterngeld (Spec.inUnits l spec) s (l * w) (l * cb) = l * Spec.elterngeld spec s w cb := by
  unfold Spec.elterngeld Spec.inUnits
  dsimp only
  split_ifs
  · rw [mul_add, mul_min_of_nonneg _ _ L.pos.le, mul_max_of_nonneg _ _ L.pos.le]
    congr 3
    ring
  · simp

theorem floor_units (spec : ModelSpec K) (s : State) :
    Spec.floor (Spec.inUnits l spec) s = l * Spec.floor spec s := by
  unfold Spec.floor Spec.assistance Spec.inUnits
  dsimp only
  split_ifs <;> ring

theorem erzThreshold_units (spec : ModelSpec K) (P : Prop) [Decidable P] :
    Spec.erzThreshold (Spec.inUnits l spec) P = l * Spec.erzThreshold spec P := by
  unfold Spec.erzThreshold Spec.inUnits
  split_ifs <;> rfl

theorem benefits_units {e e' : Spec.Economy K} (hs : e'.spec = Spec.inUnits l e.spec)
    (hr : e'.elterngeldRegime = e.elterngeldRegime) (s : State) (w : K) :
    Spec.benefits e' s (l * w) = l * Spec.benefits e s w := by
  have hl := L.pos
  unfold Spec.benefits
  dsimp only
  rw [hs, hr]
  simp only [kindergeld_units L, alg1_units L, elterngeld_units L, floor_units L, erzThreshold_units L,
    partnerWage_units L, ← mul_max_of_nonneg _ _ hl.le, ← mul_add, mul_le_mul_iff_of_pos_left hl]
  have he : (Spec.inUnits l e.spec).erziehungsgeld = l * e.spec.erziehungsgeld := rfl
  rw [he]
  split_ifs <;> simp [mul_add, mul_max_of_nonneg _ _ hl.le]

theorem partTimeBenefit_units {e e' : Spec.Economy K} (hs : e'.spec = Spec.inUnits l e.spec)
    (hr : e'.elterngeldRegime = e.elterngeldRegime) (s : State) (y : K) :
    Spec.partTimeBenefit e' s (l * y) = l * Spec.partTimeBenefit e s y := by
  have hl := L.pos
  unfold Spec.partTimeBenefit
  rw [hs, hr]
  simp only [kindergeld_units L, erzThreshold_units L, partnerWage_units L, ← mul_add,
    mul_le_mul_iff_of_pos_left hl, mul_pos_iff_of_pos_left hl]
  have he : (Spec.inUnits l e.spec).erziehungsgeld = l * e.spec.erziehungsgeld := rfl
  rw [he]
  split_ifs <;> simp

theorem logWage_units {e e' : Spec.Economy K} (hs : e'.spec = Spec.inUnits l e.spec)
    (hp : e'.par = Spec.parInUnits l e.par) (hb : e'.biased = e.biased) {s : State}
    (hg : s.educ < e.par.gamma_0.length) (x : K) :
    Spec.logWage e' s x = Spec.logWage e s x + Transc.log l := by
  unfold Spec.logWage
  rw [hs, hp, hb]
  have h1 : (Spec.parInUnits l e.par).gamma_0.getD s.educ 0 = e.par.gamma_0.getD s.educ 0 + Transc.log l := by
    show (e.par.gamma_0.map (· + Transc.log l)).getD s.educ 0 = _
    rw [getD_of_lt (by simpa using hg), getD_of_lt hg, List.getElem_map]
  rw [h1]
  show _ + _ + _ * Transc.log (x * Spec.mostYears (e.spec.init_exp_max : K) (Spec.ptIncrement e.par e.biased s)
    s.period + 1) + Transc.log e.spec.elasticity_scale = _
  show _ + _ + e.par.gamma_1.getD s.educ 0 * _ + _ = _
  ring

/-- Resources are proportional to the unit. -/
theorem resources_units {e e' : Spec.Economy K} (hs : e'.spec = Spec.inUnits l e.spec)
    (hp : e'.par = Spec.parInUnits l e.par) (hb : e'.biased = e.biased)
    (hr : e'.elterngeldRegime = e.elterngeldRegime) {s : State} (hg : s.educ < e.par.gamma_0.length) (x : K)
    (c : Fin 3) (shock : K) : Spec.resources e' s x c shock = l * Spec.resources e s x c shock := by
  have h1 := logWage_units L hs hp hb hg x
  have hw : Transc.exp (Spec.logWage e' s x) = l * Transc.exp (Spec.logWage e s x) := by rw [h1, L.exp]
  have hw' : Transc.exp (Spec.logWage e' s x + shock) = l * Transc.exp (Spec.logWage e s x + shock) := by
    rw [h1, ← L.exp]; congr 1; ring
  have hc : ∀ b j, e'.spec.child_care_costs b j = l * e.spec.child_care_costs b j := by intro b j; rw [hs]; rfl
  have hn : ∀ f, Spec.householdNet e'.spec (l * f) (Spec.partnerWage e'.spec s)
      = l * Spec.householdNet e.spec f (Spec.partnerWage e.spec s) := by
    intro f; rw [hs, partnerWage_units L, householdNet_units L]
  have hn0 : Spec.householdNet e'.spec 0 (Spec.partnerWage e'.spec s)
      = l * Spec.householdNet e.spec 0 (Spec.partnerWage e.spec s) := by
    rw [← hn, mul_zero]
  have hk : Spec.kindergeld e'.spec s = l * Spec.kindergeld e.spec s := by rw [hs, kindergeld_units L]
  unfold Spec.resources
  dsimp only
  rw [hw, hw']
  fin_cases c
  · show _ + Spec.benefits e' s (l * _) = l * (_ + _)
    rw [hn0, benefits_units L hs hr]; ring
  · show Spec.householdNet e'.spec (18 * (l * _)) _ + Spec.partTimeBenefit e' s (18 * (l * _)) + _ - _ = l * (_ + _ + _ - _)
    rw [mul_left_comm, hn, partTimeBenefit_units L hs hr, hk, hc]; ring
  · show Spec.householdNet e'.spec (38 * (l * _)) _ + _ - _ = l * (_ + _ - _)
    rw [mul_left_comm, hn, hk, hc]; ring

end

/-- The lower bound of consumption does not bind, before and after the change of units. -/
def Unbounded (l : K) (e : Spec.Economy K) (s : State) (x shock : K) : Prop :=
  ∀ c, 0 ≤ Spec.resources e s x c shock ∧
    (c ≠ 0 → 1e-14 ≤ Spec.resources e s x c shock ∧ 1e-14 ≤ l * Spec.resources e s x c shock)

theorem consumption_resources (e : Spec.Economy K) (s : State) (x : K) (c : Fin 3) (shock : K) :
    Spec.consumption e s x c shock = (if c = 0 then Spec.resources e s x c shock
      else max (Spec.resources e s x c shock) 1e-14) / Spec.scale s := by
  match c with
  | 0 => rfl
  | 1 => rfl
  | 2 =>
    rw [if_neg (by decide)]
    show max (Spec.householdNet e.spec _ _ + 0 + _ - _) _ / _ = _
    rw [add_zero]
    rfl

theorem flow_units {l : K} {e e' : Spec.Economy K} (L : UnitLaws l e.par.mu)
    (hs : e'.spec = Spec.inUnits l e.spec) (hp : e'.par = Spec.parInUnits l e.par) (hb : e'.biased = e.biased)
    (hr : e'.elterngeldRegime = e.elterngeldRegime) {s : State} (hg : s.educ < e.par.gamma_0.length) {x shock : K}
    (hu : Unbounded l e s x shock) (c : Fin 3) :
    Spec.flow e' s x c shock = Transc.pow l e.par.mu * Spec.flow e s x c shock := by
  have hc : Spec.consumption e' s x c shock = l * Spec.consumption e s x c shock := by
    rw [consumption_resources, consumption_resources, resources_units L hs hp hb hr hg]
    obtain ⟨h0, h1⟩ := hu c
    split_ifs with h
    · ring
    · rw [max_eq_left (h1 h).1, max_eq_left (h1 h).2]; ring
  have h0 : 0 ≤ Spec.consumption e s x c shock := by
    rw [consumption_resources]
    refine div_nonneg ?_ (by unfold Spec.scale; split_ifs <;> norm_num)
    split_ifs
    · exact (hu c).1
    · exact le_max_of_le_left (hu c).1
  have hm : Spec.multiplier e'.par s c = Spec.multiplier e.par s c := by
    rw [hp]; fin_cases c <;> rfl
  have hmu : e'.par.mu = e.par.mu := by rw [hp]; rfl
  unfold Spec.flow
  rw [hc, hm, hmu, L.pow _ h0]
  ring

theorem interp_smul (v : K) : ∀ (grid : List K) (f : K → K) (y : K),
    Spec.interp grid (fun a => v * f a) y = v * Spec.interp grid f y
  | [], _, _ => by simp [Spec.interp]
  | [_], _, _ => by simp [Spec.interp]
  | [a, b], f, y => by simp only [Spec.interp, Spec.line]; ring
  | a :: b :: c :: rest, f, y => by
    rw [Spec.interp, Spec.interp, interp_smul v (b :: c :: rest)]
    split_ifs
    · simp only [Spec.line]; ring
    · rfl

theorem interp_congr_mem : ∀ {grid : List K} {f f' : K → K}, (∀ a ∈ grid, f a = f' a) → ∀ y,
    Spec.interp grid f y = Spec.interp grid f' y
  | [], _, _, _, _ => rfl
  | [_], _, _, _, _ => rfl
  | [a, b], f, f', h, y => by simp [Spec.interp, h a (by simp), h b (by simp)]
  | a :: b :: c :: rest, f, f', h, y => by
    rw [Spec.interp, Spec.interp, interp_congr_mem (grid := b :: c :: rest) fun z hz => h z (List.mem_cons_of_mem _ hz),
      h a (by simp), h b (by simp)]

theorem continuation_units {l v : K} {e e' : Spec.Economy K}
    (hs : e'.spec = Spec.inUnits l e.spec) (hp : e'.par = Spec.parInUnits l e.par) (hb : e'.biased = e.biased)
    (hbirth : e'.birth = e.birth) (hpartner : e'.partner = e.partner) {V V' : State → K → K} {s : State} {x : K}
    {c : Fin 3} (h : ∀ b q, q < 2 → ∀ a ∈ e.spec.exp_grid,
      V' (Spec.successor e.spec.child_age_max s c b q) a = v * V (Spec.successor e.spec.child_age_max s c b q) a) :
    Spec.continuation e' V' s x c = v * Spec.continuation e V s x c := by
  have hst : Spec.stockNext e' s x c = Spec.stockNext e s x c := by
    unfold Spec.stockNext; rw [hs, hp, hb]; rfl
  have hi : ∀ b q, q < 2 → Spec.interp e'.spec.exp_grid (V' (Spec.successor e'.spec.child_age_max s c b q))
      (Spec.stockNext e' s x c) = v * Spec.interp e.spec.exp_grid (V (Spec.successor e.spec.child_age_max s c b q))
      (Spec.stockNext e s x c) := by
    intro b q hq
    rw [hst, ← interp_smul, hs]
    exact interp_congr_mem (h b q hq) _
  unfold Spec.continuation
  dsimp only
  rw [hbirth, hpartner, hi false 0 (by omega), hi false 1 (by omega), hi true 0 (by omega), hi true 1 (by omega)]
  ring

theorem zipWith_congr_mem {A B C : Type} {f g : A → B → C} : ∀ (xs : List A) (ys : List B),
    (∀ a ∈ xs, ∀ b, f a b = g a b) → List.zipWith f xs ys = List.zipWith g xs ys
  | [], _, _ => by simp
  | _ :: _, [], _ => by simp
  | a :: xs, b :: ys, h => by
    rw [List.zipWith_cons_cons, List.zipWith_cons_cons, h a (by simp),
      zipWith_congr_mem xs ys fun a ha => h a (List.mem_cons_of_mem _ ha)]

theorem zipWith_sum_smul {A B : Type} (v : K) (f : A → B → K) : ∀ (xs : List A) (ys : List B),
    (List.zipWith (fun a b => v * f a b) xs ys).sum = v * (List.zipWith f xs ys).sum
  | [], _ => by simp
  | _ :: _, [] => by simp
  | a :: xs, b :: ys => by
    rw [List.zipWith_cons_cons, List.zipWith_cons_cons, List.sum_cons, List.sum_cons, zipWith_sum_smul v f xs ys]
    ring

theorem max_smul {v : K} (hv : 0 ≤ v) (a b c : K) : max (max (v * a) (v * b)) (v * c) = v * max (max a b) c := by
  rw [mul_max_of_nonneg _ _ hv, mul_max_of_nonneg _ _ hv]

/-- Values are multiplied by `l ^ mu`. -/
theorem W_units {l : K} {e e' : Spec.Economy K} (L : UnitLaws l e.par.mu)
    (hs : e'.spec = Spec.inUnits l e.spec) (hp : e'.par = Spec.parInUnits l e.par) (hb : e'.biased = e.biased)
    (hr : e'.elterngeldRegime = e.elterngeldRegime) (hdraws : e'.draws = e.draws) (hw : e'.weights = e.weights)
    (hbirth : e'.birth = e.birth) (hpartner : e'.partner = e.partner) (hages : 0 ≤ e.spec.child_age_max)
    (hg : e.spec.num_educ_levels ≤ e.par.gamma_0.length)
    (hu : ∀ s, Spec.InRange e.spec s → ∀ x ∈ e.spec.exp_grid, ∀ d ∈ e.draws, Unbounded l e s x (d * e.par.shock_sd)) :
    ∀ (r : Nat) (s : State), (0 < r → Spec.InRange e.spec s) → s.period + r ≤ e.spec.num_periods →
      ∀ x ∈ e.spec.exp_grid, Spec.W e' r s x = Transc.pow l e.par.mu * Spec.W e r s x
  | 0, _, _, _, _, _ => by simp [Spec.W]
  | r + 1, s, hin, ht, x, hx => by
    have hsr := hin (Nat.succ_pos r)
    have ih := W_units L hs hp hb hr hdraws hw hbirth hpartner hages hg hu r
    have hc : ∀ c : Fin 3, Spec.continuation e' (Spec.W e' r) s x c
        = Transc.pow l e.par.mu * Spec.continuation e (Spec.W e r) s x c := fun c =>
      continuation_units hs hp hb hbirth hpartner fun b q hq a ha =>
        ih (Spec.successor e.spec.child_age_max s c b q)
          (fun hr => successor_inRange hsr (by omega) c.isLt hq fun _ => hages)
          (by show s.period + 1 + r ≤ _; omega) a ha
    have hsd : e'.par.shock_sd = e.par.shock_sd := by rw [hp]; rfl
    have hde : e'.par.delta = e.par.delta := by rw [hp]; rfl
    unfold Spec.W
    rw [hdraws, hw, ← zipWith_sum_smul]
    have hbest : ∀ d ∈ e.draws, Spec.best e' (Spec.W e' r) s x (d * e'.par.shock_sd)
        = Transc.pow l e.par.mu * Spec.best e (Spec.W e r) s x (d * e.par.shock_sd) := by
      intro d hd
      unfold Spec.best
      dsimp only
      rw [← max_smul L.powPos.le, hsd, hde]
      simp only [hc, flow_units L hs hp hb hr (lt_of_lt_of_le hsr.educ hg) (hu s hsr x hx d hd)]
      congr 1
      · congr 1 <;> ring
      · ring
    congr 1
    exact zipWith_congr_mem _ _ fun d hd w => by rw [hbest d hd]; ring

end Soepy
