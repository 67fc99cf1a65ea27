import Verif.Proof.GridError
import Verif.Props.Statics

/-! In the Elterngeld regime flow utility has bounded slopes in experience (for transcendental functions with bounded
slopes, such as those of the real numbers). -/

set_option linter.unusedSectionVars false

namespace Soepy
variable {K : Type} [Field K] [LinearOrder K] [IsStrictOrderedRing K]

/-- The slopes of `f` on `[0, 1]` are bounded. -/
def Slopes (f : K → K) : Prop :=
  ∃ L, 0 ≤ L ∧ ∀ x y, 0 ≤ x → x ≤ 1 → 0 ≤ y → y ≤ 1 → |f x - f y| ≤ L * |x - y|

theorem Slopes.const (v : K) : Slopes fun _ => v := ⟨0, le_rfl, fun x y _ _ _ _ => by simp⟩

theorem Slopes.id : Slopes fun x : K => x := ⟨1, zero_le_one, fun x y _ _ _ _ => by simp⟩

theorem Slopes.add {f g : K → K} (hf : Slopes f) (hg : Slopes g) : Slopes fun x => f x + g x := by
  obtain ⟨L, h0, h⟩ := hf
  obtain ⟨M, k0, k⟩ := hg
  refine ⟨L + M, add_nonneg h0 k0, fun x y a b c d => ?_⟩
  rw [add_sub_add_comm, add_mul]
  exact (abs_add_le _ _).trans (add_le_add (h x y a b c d) (k x y a b c d))

theorem Slopes.mul_left {f : K → K} (hf : Slopes f) (v : K) : Slopes fun x => v * f x := by
  obtain ⟨L, h0, h⟩ := hf
  refine ⟨|v| * L, mul_nonneg (abs_nonneg _) h0, fun x y a b c d => ?_⟩
  rw [← mul_sub, abs_mul, mul_assoc]
  exact mul_le_mul_of_nonneg_left (h x y a b c d) (abs_nonneg _)

theorem Slopes.mul_right {f : K → K} (hf : Slopes f) (v : K) : Slopes fun x => f x * v := by
  simpa only [mul_comm] using hf.mul_left v

theorem Slopes.div_right {f : K → K} (hf : Slopes f) (v : K) : Slopes fun x => f x / v := by
  simpa only [div_eq_mul_inv] using hf.mul_right v⁻¹

theorem Slopes.sub {f g : K → K} (hf : Slopes f) (hg : Slopes g) : Slopes fun x => f x - g x := by
  have := hf.add (hg.mul_left (-1))
  simpa only [neg_mul, one_mul, ← sub_eq_add_neg] using this

theorem Slopes.max {f g : K → K} (hf : Slopes f) (hg : Slopes g) : Slopes fun x => max (f x) (g x) := by
  obtain ⟨L, h0, h⟩ := hf
  obtain ⟨M, k0, k⟩ := hg
  refine ⟨Max.max L M, h0.trans (le_max_left _ _), fun x y a b c d => ?_⟩
  refine (abs_max_sub_max_le_max _ _ _ _).trans (max_le ((h x y a b c d).trans ?_) ((k x y a b c d).trans ?_))
  · exact mul_le_mul_of_nonneg_right (le_max_left _ _) (abs_nonneg _)
  · exact mul_le_mul_of_nonneg_right (le_max_right _ _) (abs_nonneg _)

theorem Slopes.min {f g : K → K} (hf : Slopes f) (hg : Slopes g) : Slopes fun x => min (f x) (g x) := by
  obtain ⟨L, h0, h⟩ := hf
  obtain ⟨M, k0, k⟩ := hg
  refine ⟨Max.max L M, h0.trans (le_max_left _ _), fun x y a b c d => ?_⟩
  refine (abs_min_sub_min_le_max _ _ _ _).trans (max_le ((h x y a b c d).trans ?_) ((k x y a b c d).trans ?_))
  · exact mul_le_mul_of_nonneg_right (le_max_left _ _) (abs_nonneg _)
  · exact mul_le_mul_of_nonneg_right (le_max_right _ _) (abs_nonneg _)

/-- Composition with a function whose slopes are bounded everywhere. -/
theorem Slopes.comp {f g : K → K} {M : K} (hf : Slopes f) (hM : 0 ≤ M)
    (hg : ∀ a b, (∃ x, 0 ≤ x ∧ x ≤ 1 ∧ a = f x) → (∃ x, 0 ≤ x ∧ x ≤ 1 ∧ b = f x) → |g a - g b| ≤ M * |a - b|) :
    Slopes fun x => g (f x) := by
  obtain ⟨L, h0, h⟩ := hf
  refine ⟨M * L, mul_nonneg hM h0, fun x y a b c d => ?_⟩
  refine (hg _ _ ⟨x, a, b, rfl⟩ ⟨y, c, d, rfl⟩).trans ?_
  rw [mul_assoc]
  exact mul_le_mul_of_nonneg_left (h x y a b c d) hM

theorem Slopes.bounded {f : K → K} (hf : Slopes f) : ∃ B, ∀ x, 0 ≤ x → x ≤ 1 → f x ≤ B := by
  obtain ⟨L, h0, h⟩ := hf
  refine ⟨f 0 + L, fun x hx hx1 => ?_⟩
  have := (abs_le.1 (h x 0 hx hx1 le_rfl zero_le_one)).2
  rw [sub_zero, abs_of_nonneg hx] at this
  have := mul_le_mul_of_nonneg_left hx1 h0
  linarith

variable [FloorRing K] [Transc K]

theorem Slopes.exp {mu : K} (T : Tame mu) {f : K → K} (hf : Slopes f) : Slopes fun x => Transc.exp (f x) := by
  obtain ⟨B, hB⟩ := hf.bounded
  obtain ⟨M, hM, h⟩ := T.exp B
  refine hf.comp hM ?_
  rintro _ _ ⟨x, hx, hx1, rfl⟩ ⟨y, hy, hy1, rfl⟩
  exact h _ _ (hB x hx hx1) (hB y hy hy1)

theorem Slopes.log {mu : K} (T : Tame mu) {f : K → K} (hf : Slopes f) (h : ∀ x, 0 ≤ x → x ≤ 1 → 1 ≤ f x) :
    Slopes fun x => Transc.log (f x) := by
  obtain ⟨M, hM, h'⟩ := T.log
  refine hf.comp hM ?_
  rintro _ _ ⟨x, hx, hx1, rfl⟩ ⟨y, hy, hy1, rfl⟩
  exact h' _ _ (h x hx hx1) (h y hy hy1)

theorem Slopes.pow {mu : K} (T : Tame mu) {f : K → K} (hf : Slopes f) {m : K} (hm : 0 < m)
    (h : ∀ x, 0 ≤ x → x ≤ 1 → m ≤ f x) : Slopes fun x => Transc.pow (f x) mu := by
  obtain ⟨B, hB⟩ := hf.bounded
  obtain ⟨M, hM, h'⟩ := T.pow m B hm
  refine hf.comp (g := fun z => Transc.pow z mu) hM ?_
  rintro _ _ ⟨x, hx, hx1, rfl⟩ ⟨y, hy, hy1, rfl⟩
  exact h' _ _ (h x hx hx1) (hB x hx hx1) (h y hy hy1) (hB y hy hy1)

theorem schedule_abs {spec : ModelSpec K} (h : Rules2007 spec) (a b : K) :
    |Spec.schedule spec.tax_params a - Spec.schedule spec.tax_params b| ≤ 0.45 * |a - b| := by
  have key : ∀ {a b : K}, b ≤ a → |Spec.schedule spec.tax_params a - Spec.schedule spec.tax_params b|
      ≤ 0.45 * |a - b| := by
    intro a b hba
    rw [h.tax, ← incTax_eq_schedule (proper2007 (K := K)).sorted, ← incTax_eq_schedule (proper2007 (K := K)).sorted]
    obtain ⟨h1, h2⟩ := incTax2007_slope (K := K) hba
    rw [abs_of_nonneg (sub_nonneg.2 hba), abs_of_nonneg (by linarith)]
    linarith
  rcases le_total b a with h | h
  · exact key h
  · rw [abs_sub_comm, abs_sub_comm a b]; exact key h

theorem Slopes.schedule {spec : ModelSpec K} (h : Rules2007 spec) {f : K → K} (hf : Slopes f) :
    Slopes fun x => Spec.schedule spec.tax_params (f x) :=
  hf.comp (M := 0.45) (by norm_num) fun a b _ _ => schedule_abs h a b

theorem Slopes.householdNet {spec : ModelSpec K} (h : Rules2007 spec) {f : K → K} (hf : Slopes f) (male : K) :
    Slopes fun x => Spec.householdNet spec (f x) male := by
  have ht : Slopes fun x => Spec.taxable spec.ssc_deductions (f x) :=
    hf.sub ((hf.min (.const _)).mul_left _)
  unfold Spec.householdNet
  dsimp only
  by_cases hm : 0 < male
  · simp only [if_pos hm]
    cases spec.tax_splitting
    · exact (ht.add (.const _)).sub (((ht.schedule h).add (.const _)).mul_left _)
    · exact (ht.add (.const _)).sub (((((ht.add (.const _)).div_right 2).schedule h).mul_left 2).mul_left _)
  · simp only [if_neg hm]
    exact ht.sub ((ht.schedule h).mul_left _)

theorem Slopes.benefits {e : Spec.Economy K} (hr : e.elterngeldRegime = true) (s : State) {f : K → K}
    (hf : Slopes f) : Slopes fun x => Spec.benefits e s (f x) := by
  unfold Spec.benefits
  simp only [hr, if_true]
  refine Slopes.max ?_ (.const _)
  split_ifs
  · unfold Spec.elterngeld
    split_ifs
    · exact (((((hf.mul_left _).mul_left _).mul_right _).max (.const _)).min (.const _)).add (.const _)
    · exact .const _
  · unfold Spec.alg1
    by_cases hw : Spec.worked s
    · simp only [if_pos hw]
      exact (((hf.mul_left _).mul_left _).mul_right _).add (.const _)
    · simp only [if_neg hw]
      exact .const _

theorem Slopes.logWage {mu : K} (T : Tame mu) (e : Spec.Economy K) (s : State) : Slopes (Spec.logWage e s) := by
  unfold Spec.logWage
  refine ((Slopes.const _).add (Slopes.mul_left ?_ _)).add (.const _)
  refine Slopes.log T ((Slopes.id.mul_right _).add (.const 1)) fun x hx _ => ?_
  have := mul_nonneg hx (mostYears_nonneg (pt := Spec.ptIncrement e.par e.biased s)
    (Nat.cast_nonneg (α := K) e.spec.init_exp_max) s.period)
  linarith

theorem Slopes.consumption {mu : K} (T : Tame mu) {e : Spec.Economy K} (hr : e.elterngeldRegime = true) (hrules : Rules2007 e.spec)
    (s : State) (c : Fin 3) (shock : K) : Slopes fun x => Spec.consumption e s x c shock := by
  have hw : Slopes fun x => Transc.exp (Spec.logWage e s x + shock) := ((Slopes.logWage T e s).add (.const _)).exp T
  fin_cases c
  · exact ((Slopes.const _).add (Slopes.benefits hr s ((Slopes.logWage T e s).exp T))).div_right _
  · have hz : ∀ z : K, Spec.partTimeBenefit e s z = 0 := fun z => by simp [Spec.partTimeBenefit, hr]
    have : Slopes fun x => Max.max (Spec.householdNet e.spec (18 * Transc.exp (Spec.logWage e s x + shock))
        (Spec.partnerWage e.spec s) + 0 + Spec.kindergeld e.spec s - e.spec.child_care_costs (Spec.careRow s) 0) 1e-14
        / Spec.scale s :=
      ((((((hw.mul_left 18).householdNet hrules _).add (.const _)).add (.const _)).sub (.const _)).max
        (.const _)).div_right _
    simpa only [Spec.consumption, hz] using this
  · exact ((((((hw.mul_left 38).householdNet hrules _).add (.const _)).add (.const _)).sub (.const _)).max
        (.const _)).div_right _

theorem Slopes.flow {e : Spec.Economy K} (T : Tame e.par.mu) (hr : e.elterngeldRegime = true)
    (hsolv : Props.Solvent e.spec) (s : State) (c : Fin 3) (shock : K) : Slopes fun x => Spec.flow e s x c shock := by
  have hc := Slopes.consumption T hr hsolv.rules s c shock
  have sp := Props.scale_pos (K := K) s
  have home := Props.home_income_pos T.pos e hsolv.rules.tax hsolv.rules.rate0 hsolv.rules.rate1 hsolv.rules.cap
    hsolv.floor s
  have work : ∀ z : K, 1e-14 / Spec.scale s ≤ Max.max z 1e-14 / Spec.scale s := fun z =>
    div_le_div_of_nonneg_right (le_max_right _ _) sp.le
  have away : ∃ m, 0 < m ∧ ∀ x, 0 ≤ x → x ≤ 1 → m ≤ Spec.consumption e s x c shock := by
    fin_cases c
    · refine ⟨_, div_pos home sp, fun x _ _ => div_le_div_of_nonneg_right ?_ sp.le⟩
      refine add_le_add le_rfl ?_
      unfold Spec.benefits
      simp only [hr, if_true]
      exact le_max_right _ _
    · exact ⟨1e-14 / Spec.scale s, div_pos (by norm_num) sp, fun x _ _ => work _⟩
    · exact ⟨1e-14 / Spec.scale s, div_pos (by norm_num) sp, fun x _ _ => work _⟩
  obtain ⟨m, hm, h⟩ := away
  exact ((hc.pow T hm h).div_right _).mul_right _

/-- One bound serves finitely many states and shocks. -/
theorem flow_slope_exists {e : Spec.Economy K} (T : Tame e.par.mu) (hr : e.elterngeldRegime = true) (hsolv : Props.Solvent e.spec)
    (states : List State) (shocks : List K) : ∃ L, 0 ≤ L ∧ ∀ s ∈ states, ∀ c, ∀ d ∈ shocks, ∀ x y, 0 ≤ x → x ≤ 1 →
      0 ≤ y → y ≤ 1 → |Spec.flow e s x c d - Spec.flow e s y c d| ≤ L * |x - y| := by
  have key : ∀ l : List (State × Fin 3 × K), ∃ L, 0 ≤ L ∧ ∀ p ∈ l, ∀ x y, 0 ≤ x → x ≤ 1 → 0 ≤ y → y ≤ 1 →
      |Spec.flow e p.1 x p.2.1 p.2.2 - Spec.flow e p.1 y p.2.1 p.2.2| ≤ L * |x - y| := by
    intro l
    induction l with
    | nil => exact ⟨0, le_rfl, by simp⟩
    | cons p l ih =>
      obtain ⟨L, h0, hL⟩ := ih
      obtain ⟨M, k0, hM⟩ := Slopes.flow T hr hsolv p.1 p.2.1 p.2.2
      refine ⟨max L M, h0.trans (le_max_left _ _), fun q hq x y a b c d => ?_⟩
      rcases List.mem_cons.1 hq with rfl | hq
      · exact (hM x y a b c d).trans (mul_le_mul_of_nonneg_right (le_max_right _ _) (abs_nonneg _))
      · exact (hL q hq x y a b c d).trans (mul_le_mul_of_nonneg_right (le_max_left _ _) (abs_nonneg _))
  obtain ⟨L, h0, hL⟩ := key (states.flatMap fun s => [0, 1, 2].flatMap fun c => shocks.map fun d => (s, c, d))
  refine ⟨L, h0, fun s hs c d hd => hL (s, c, d) (List.mem_flatMap.2 ⟨s, hs, List.mem_flatMap.2 ⟨c, ?_,
    List.mem_map.2 ⟨d, hd, rfl⟩⟩⟩)⟩
  fin_cases c <;> simp

theorem exp_slope {a b B : ℝ} (ha : a ≤ B) (hb : b ≤ B) : |Real.exp a - Real.exp b| ≤ Real.exp B * |a - b| := by
  have key : ∀ {a b : ℝ}, a ≤ B → b ≤ a → |Real.exp a - Real.exp b| ≤ Real.exp B * |a - b| := by
    intro a b ha hba
    rw [abs_of_nonneg (sub_nonneg.2 (Real.exp_le_exp.2 hba)), abs_of_nonneg (sub_nonneg.2 hba)]
    have h1 := Real.add_one_le_exp (b - a)
    have h2 : Real.exp b = Real.exp a * Real.exp (b - a) := by rw [← Real.exp_add]; ring_nf
    have h3 := Real.exp_pos a
    have h4 : Real.exp a - Real.exp b ≤ Real.exp a * (a - b) := by rw [h2]; nlinarith
    exact h4.trans (mul_le_mul_of_nonneg_right (Real.exp_le_exp.2 ha) (sub_nonneg.2 hba))
  rcases le_total b a with h | h
  · exact key ha h
  · rw [abs_sub_comm, abs_sub_comm a b]; exact key hb h

theorem log_slope {a b m : ℝ} (hm : 0 < m) (ha : m ≤ a) (hb : m ≤ b) :
    |Real.log a - Real.log b| ≤ m⁻¹ * |a - b| := by
  have key : ∀ {a b : ℝ}, m ≤ b → b ≤ a → |Real.log a - Real.log b| ≤ m⁻¹ * |a - b| := by
    intro a b hb hba
    have b0 : 0 < b := hm.trans_le hb
    rw [abs_of_nonneg (sub_nonneg.2 (Real.log_le_log b0 hba)), abs_of_nonneg (sub_nonneg.2 hba),
      ← Real.log_div (b0.trans_le hba).ne' b0.ne']
    refine (Real.log_le_sub_one_of_pos (div_pos (b0.trans_le hba) b0)).trans ?_
    have h1 : a / b - 1 = b⁻¹ * (a - b) := by field_simp
    rw [h1]
    exact mul_le_mul_of_nonneg_right (inv_anti₀ hm hb) (sub_nonneg.2 hba)
  rcases le_total b a with h | h
  · exact key hb h
  · rw [abs_sub_comm, abs_sub_comm a b]; exact key ha h

/-- The real functions are tame, whatever the exponent. -/
theorem realTame (mu : ℝ) : Tame mu where
  pos := Props.real_exp_pos
  exp B := ⟨Real.exp B, (Real.exp_pos _).le, fun a b ha hb => exp_slope ha hb⟩
  log := ⟨1, zero_le_one, fun a b ha hb => by simpa using log_slope one_pos ha hb⟩
  pow m B hm := by
    have hl : ∀ a, m ≤ a → a ≤ B → Real.log a * mu ≤ max (|Real.log m|) (|Real.log B|) * |mu| := by
      intro a h1 h2
      refine (le_abs_self _).trans ?_
      rw [abs_mul]
      refine mul_le_mul_of_nonneg_right ?_ (abs_nonneg _)
      have a0 := hm.trans_le h1
      refine abs_le.2 ⟨?_, ?_⟩
      · exact (neg_le_neg (le_max_left _ _)).trans ((neg_abs_le _).trans (Real.log_le_log hm h1))
      · exact (Real.log_le_log a0 h2).trans ((le_abs_self _).trans (le_max_right _ _))
    refine ⟨Real.exp (max (|Real.log m|) (|Real.log B|) * |mu|) * (m⁻¹ * |mu|), by positivity,
      fun a b h1 h2 h3 h4 => ?_⟩
    show |a ^ mu - b ^ mu| ≤ _
    rw [Real.rpow_def_of_pos (hm.trans_le h1), Real.rpow_def_of_pos (hm.trans_le h3)]
    refine (exp_slope (hl a h1 h2) (hl b h3 h4)).trans ?_
    rw [mul_assoc]
    refine mul_le_mul_of_nonneg_left ?_ (Real.exp_pos _).le
    rw [← sub_mul, abs_mul, mul_right_comm]
    exact mul_le_mul_of_nonneg_right (log_slope hm h1 h3) (abs_nonneg _)

end Soepy
