import Verif.Spec.Vocabulary
import Verif.Model.Tax
import Verif.Spec.Tax
import Mathlib.Tactic.Linarith
import Mathlib.Tactic.Ring
import Mathlib.Tactic.NormNum
import Mathlib.Tactic.FieldSimp
import Mathlib.Tactic.Positivity
import Mathlib.Order.Interval.Set.Basic
import Mathlib.Tactic.FinCases

set_option linter.unusedSectionVars false

namespace Soepy
variable {K : Type} [Field K] [LinearOrder K] [IsStrictOrderedRing K]

/-- The mask based tax as nested conditions. -/
theorem incTax_cases {tp : TaxParams K} (h : SortedThresholds tp) (x : K) :
    incTax tp x =
      if x < tp.thresholds 0 then 0
      else if x < tp.thresholds 1 then calcIntervalTax tp x 0
      else if x < tp.thresholds 2 then calcIntervalTax tp x 1
      else if x < tp.thresholds 3 then calcIntervalTax tp x 2
      else calcIntervalTax tp x 3 := by
  obtain ⟨h01, h12, h23⟩ := h
  unfold incTax ind
  simp only [Bool.and_eq_true, decide_eq_true_eq, ge_iff_le]
  by_cases c0 : x < tp.thresholds 0
  · simp [c0, not_le.2 c0]
  · have d0 := not_lt.1 c0
    by_cases c1 : x < tp.thresholds 1
    · have c2 := lt_of_lt_of_le c1 h12
      have c3 := lt_of_lt_of_le c2 h23
      simp [c0, d0, c1, not_le.2 c1, not_le.2 c2, not_le.2 c3]
    · have d1 := not_lt.1 c1
      by_cases c2 : x < tp.thresholds 2
      · have c3 := lt_of_lt_of_le c2 h23
        simp [c0, d0, c1, d1, c2, not_le.2 c2, not_le.2 c3]
      · have d2 := not_lt.1 c2
        by_cases c3 : x < tp.thresholds 3
        · simp [c0, d0, c1, d1, c2, d2, c3, not_le.2 c3]
        · have d3 := not_lt.1 c3
          simp [c0, d0, c1, d1, c2, d2, c3, d3]

theorem incTax_eq_pyIncTax {tp : TaxParams K} (h : SortedThresholds tp) (x : K) :
    incTax tp x = pyIncTax tp x := by
  rw [incTax_cases h]
  unfold pyIncTax calcIntervalTax
  obtain ⟨h01, h12, h23⟩ := h
  by_cases c0 : x < tp.thresholds 0
  · simp [c0]
  · have d0 := not_lt.1 c0
    by_cases c1 : x < tp.thresholds 1
    · simp [c0, d0, c1]; ring
    · have d1 := not_lt.1 c1
      by_cases c2 : x < tp.thresholds 2
      · simp [c0, d0, c1, d1, c2]; ring
      · have d2 := not_lt.1 c2
        by_cases c3 : x < tp.thresholds 3
        · simp [c0, d0, c1, d1, c2, d2, c3]; ring
        · simp [c0, d0, c1, d1, c2, d2, c3]; ring

/-- Net income, the two household types. -/
theorem netIncome_couple {tp : TaxParams K} {d : SscSpec K} {f m : K} {sp : Bool} (hm : 0 < m) :
    netIncome tp d f m sp =
      (m + f - sscDeductions d m - sscDeductions d f) -
        (if sp then incTax tp ((m + f - sscDeductions d m - sscDeductions d f) / 2) * 2
          else incTax tp (f - sscDeductions d f) + incTax tp (m - sscDeductions d m)) * 1.05 := by
  unfold netIncome ind
  simp [hm]

theorem netIncome_single {tp : TaxParams K} {d : SscSpec K} {f m : K} {sp : Bool} (hm : m ≤ 0) :
    netIncome tp d f m sp =
      (f - sscDeductions d f) - incTax tp (f - sscDeductions d f) * 1.05 := by
  unfold netIncome ind
  simp [not_lt.2 hm]

/-! ## Functions with a marginal rate -/

/-- `HasMarginal` restricted to a set. -/
def MarginalOn (T m : K → K) (s : Set K) : Prop :=
  ∀ u ∈ s, ∀ v ∈ s, u ≤ v → m u * (v - u) ≤ T v - T u ∧ T v - T u ≤ m v * (v - u)

theorem MarginalOn.mono_m {T m : K → K} {s : Set K} (h : MarginalOn T m s) {u v : K} (hu : u ∈ s)
    (hv : v ∈ s) (huv : u ≤ v) : m u ≤ m v := by
  rcases eq_or_lt_of_le huv with rfl | hlt
  · exact le_rfl
  · obtain ⟨h1, h2⟩ := h u hu v hv huv
    exact le_of_mul_le_mul_right (h1.trans h2) (sub_pos.2 hlt)

theorem MarginalOn.glue {T m : K → K} {s t : Set K} {c : K} (hs : MarginalOn T m s)
    (ht : MarginalOn T m t) (hcs : c ∈ s) (hct : c ∈ t) (hsc : ∀ u ∈ s, u ≤ c)
    (htc : ∀ v ∈ t, c ≤ v) : MarginalOn T m (s ∪ t) := by
  intro u hu v hv huv
  rcases hu with hu | hu <;> rcases hv with hv | hv
  · exact hs u hu v hv huv
  · have a := hs u hu c hcs (hsc u hu)
    have b := ht c hct v hv (htc v hv)
    have e1 := hs.mono_m hu hcs (hsc u hu)
    have e2 := ht.mono_m hct hv (htc v hv)
    have x1 : 0 ≤ c - u := sub_nonneg.2 (hsc u hu)
    have x2 : 0 ≤ v - c := sub_nonneg.2 (htc v hv)
    have f1 := mul_le_mul_of_nonneg_right e1 x2
    have f2 := mul_le_mul_of_nonneg_right e2 x1
    constructor <;> nlinarith
  · have h1 := htc u hu
    have h2 := hsc v hv
    have : u = v := le_antisymm huv (h2.trans h1)
    subst this
    simp
  · exact ht u hu v hv huv

theorem MarginalOn.congr {T T' m m' : K → K} {s : Set K} (h : MarginalOn T m s)
    (hT : ∀ x ∈ s, T' x = T x) (hm : ∀ x ∈ s, m' x = m x) : MarginalOn T' m' s := by
  intro u hu v hv huv
  rw [hT u hu, hT v hv, hm u hu, hm v hv]
  exact h u hu v hv huv

/-- Raising the marginal rate at the right end of an interval. -/
theorem MarginalOn.raise {T m m' : K → K} {s : Set K} {c : K} (h : MarginalOn T m s)
    (hle : ∀ u ∈ s, u ≤ c) (hm : ∀ x ∈ s, x < c → m' x = m x) (hc : m c ≤ m' c) :
    MarginalOn T m' s := by
  intro u hu v hv huv
  obtain ⟨h1, h2⟩ := h u hu v hv huv
  constructor
  · rcases lt_or_eq_of_le (hle u hu) with hlt | heq
    · rw [hm u hu hlt]; exact h1
    · have : v = u := le_antisymm (heq ▸ hle v hv) huv
      subst this; simp
  · rcases lt_or_eq_of_le (hle v hv) with hlt | heq
    · rw [hm v hv hlt]; exact h2
    · subst heq
      exact h2.trans (mul_le_mul_of_nonneg_right hc (sub_nonneg.2 huv))

/-- A quadratic piece. -/
theorem quadratic_marginal (b l q t : K) (hq : 0 ≤ q) (s : Set K) :
    MarginalOn (fun x => b + (l * (x - t) + q * (x - t) ^ 2)) (fun x => l + 2 * q * (x - t)) s := by
  intro u _ v _ huv
  have h : 0 ≤ q * (v - u) ^ 2 := mul_nonneg hq (sq_nonneg _)
  constructor <;> nlinarith

/-- A tax schedule without jumps and with rising marginal rates. -/
structure ProperSchedule (tp : TaxParams K) : Prop where
  t01 : tp.thresholds 0 < tp.thresholds 1
  t12 : tp.thresholds 1 < tp.thresholds 2
  t23 : tp.thresholds 2 < tp.thresholds 3
  b0 : tp.base 0 = 0
  b1 : tp.base 1 = calcIntervalTax tp (tp.thresholds 1) 0
  b2 : tp.base 2 = calcIntervalTax tp (tp.thresholds 2) 1
  b3 : tp.base 3 = calcIntervalTax tp (tp.thresholds 3) 2
  q : ∀ i, 0 ≤ tp.quad i
  l0 : 0 ≤ tp.linear 0
  l1 : tp.linear 0 + 2 * tp.quad 0 * (tp.thresholds 1 - tp.thresholds 0) ≤ tp.linear 1
  l2 : tp.linear 1 + 2 * tp.quad 1 * (tp.thresholds 2 - tp.thresholds 1) ≤ tp.linear 2
  l3 : tp.linear 2 + 2 * tp.quad 2 * (tp.thresholds 3 - tp.thresholds 2) ≤ tp.linear 3

/-- The marginal rate of a schedule. -/
def scheduleMarginal (tp : TaxParams K) (x : K) : K :=
  if x < tp.thresholds 0 then 0
  else if x < tp.thresholds 1 then tp.linear 0 + 2 * tp.quad 0 * (x - tp.thresholds 0)
  else if x < tp.thresholds 2 then tp.linear 1 + 2 * tp.quad 1 * (x - tp.thresholds 1)
  else if x < tp.thresholds 3 then tp.linear 2 + 2 * tp.quad 2 * (x - tp.thresholds 2)
  else tp.linear 3 + 2 * tp.quad 3 * (x - tp.thresholds 3)

theorem ProperSchedule.sorted {tp : TaxParams K} (h : ProperSchedule tp) : SortedThresholds tp :=
  ⟨h.t01.le, h.t12.le, h.t23.le⟩

theorem ProperSchedule.marginal {tp : TaxParams K} (h : ProperSchedule tp) :
    Spec.HasMarginal (incTax tp) (scheduleMarginal tp) := by
  have t01 := h.t01; have t12 := h.t12; have t23 := h.t23
  have hc := incTax_cases h.sorted
  set t0 := tp.thresholds 0 with ht0
  set t1 := tp.thresholds 1 with ht1
  set t2 := tp.thresholds 2 with ht2
  set t3 := tp.thresholds 3 with ht3
  have piece : ∀ (i : Fin 4) (s : Set K), MarginalOn (fun x => calcIntervalTax tp x i)
      (fun x => tp.linear i + 2 * tp.quad i * (x - tp.thresholds i)) s := by
    intro i s
    have := quadratic_marginal (tp.base i) (tp.linear i) (tp.quad i) (tp.thresholds i) (h.q i) s
    exact this
  have at0 : calcIntervalTax tp t0 0 = 0 := by simp [calcIntervalTax, h.b0, ← ht0]
  have at1 : calcIntervalTax tp t1 1 = calcIntervalTax tp t1 0 := by
    rw [← h.b1]; simp [calcIntervalTax, ← ht1]
  have at2 : calcIntervalTax tp t2 2 = calcIntervalTax tp t2 1 := by
    rw [← h.b2]; simp [calcIntervalTax, ← ht2]
  have at3 : calcIntervalTax tp t3 3 = calcIntervalTax tp t3 2 := by
    rw [← h.b3]; simp [calcIntervalTax, ← ht3]
  -- pieces
  have p0 : MarginalOn (incTax tp) (scheduleMarginal tp) (Set.Iic t0) := by
    have base : MarginalOn (fun _ => (0 : K)) (fun _ => (0 : K)) (Set.Iic t0) := by
      intro u _ v _ _; simp
    refine MarginalOn.raise (m := fun _ => 0) (c := t0) (base.congr ?_ (fun _ _ => rfl))
      (fun u hu => hu) ?_ ?_
    · intro x hx
      rw [hc]
      rcases lt_or_eq_of_le (Set.mem_Iic.1 hx) with hlt | heq
      · simp [hlt]
      · rw [heq]; simp [t01, at0]
    · intro x _ hlt; simp [scheduleMarginal, ← ht0, hlt]
    · simp [scheduleMarginal, ← ht0, ← ht1, t01, h.l0]
  have p1 : MarginalOn (incTax tp) (scheduleMarginal tp) (Set.Icc t0 t1) := by
    refine MarginalOn.raise (c := t1) ((piece 0 _).congr ?_ (fun _ _ => rfl)) (fun u hu => hu.2) ?_ ?_
    · intro x hx
      rw [hc, if_neg (not_lt.2 hx.1)]
      rcases lt_or_eq_of_le hx.2 with hlt | heq
      · rw [if_pos hlt]
      · rw [heq, if_neg (lt_irrefl _), if_pos t12, at1]
    · intro x hx hlt
      simp only [scheduleMarginal, ← ht0, ← ht1]
      rw [if_neg (not_lt.2 hx.1), if_pos hlt]
    · simp only [scheduleMarginal, ← ht0, ← ht1, ← ht2]
      rw [if_neg (not_lt.2 t01.le), if_neg (lt_irrefl _), if_pos t12]
      have := h.l1
      rw [← ht0, ← ht1] at this
      simpa using this
  have p2 : MarginalOn (incTax tp) (scheduleMarginal tp) (Set.Icc t1 t2) := by
    refine MarginalOn.raise (c := t2) ((piece 1 _).congr ?_ (fun _ _ => rfl)) (fun u hu => hu.2) ?_ ?_
    · intro x hx
      rw [hc, if_neg (not_lt.2 (t01.le.trans hx.1)), if_neg (not_lt.2 hx.1)]
      rcases lt_or_eq_of_le hx.2 with hlt | heq
      · rw [if_pos hlt]
      · rw [heq, if_neg (lt_irrefl _), if_pos t23, at2]
    · intro x hx hlt
      simp only [scheduleMarginal, ← ht0, ← ht1, ← ht2]
      rw [if_neg (not_lt.2 (t01.le.trans hx.1)), if_neg (not_lt.2 hx.1), if_pos hlt]
    · simp only [scheduleMarginal, ← ht0, ← ht1, ← ht2, ← ht3]
      rw [if_neg (not_lt.2 (t01.le.trans t12.le)), if_neg (not_lt.2 t12.le), if_neg (lt_irrefl _),
        if_pos t23]
      have := h.l2
      rw [← ht2, ← ht1] at this
      simpa using this
  have p3 : MarginalOn (incTax tp) (scheduleMarginal tp) (Set.Icc t2 t3) := by
    refine MarginalOn.raise (c := t3) ((piece 2 _).congr ?_ (fun _ _ => rfl)) (fun u hu => hu.2) ?_ ?_
    · intro x hx
      rw [hc, if_neg (not_lt.2 ((t01.le.trans t12.le).trans hx.1)),
        if_neg (not_lt.2 (t12.le.trans hx.1)), if_neg (not_lt.2 hx.1)]
      rcases lt_or_eq_of_le hx.2 with hlt | heq
      · rw [if_pos hlt]
      · rw [heq, if_neg (lt_irrefl _), at3]
    · intro x hx hlt
      simp only [scheduleMarginal, ← ht0, ← ht1, ← ht2, ← ht3]
      rw [if_neg (not_lt.2 ((t01.le.trans t12.le).trans hx.1)),
        if_neg (not_lt.2 (t12.le.trans hx.1)), if_neg (not_lt.2 hx.1), if_pos hlt]
    · simp only [scheduleMarginal, ← ht0, ← ht1, ← ht2, ← ht3]
      rw [if_neg (not_lt.2 ((t01.le.trans t12.le).trans t23.le)),
        if_neg (not_lt.2 (t12.le.trans t23.le)), if_neg (not_lt.2 t23.le), if_neg (lt_irrefl _)]
      have := h.l3
      rw [← ht2, ← ht3] at this
      simpa using this
  have p4 : MarginalOn (incTax tp) (scheduleMarginal tp) (Set.Ici t3) := by
    refine (piece 3 _).congr ?_ ?_
    · intro x hx
      rw [hc, if_neg (not_lt.2 (((t01.le.trans t12.le).trans t23.le).trans hx)),
        if_neg (not_lt.2 ((t12.le.trans t23.le).trans hx)), if_neg (not_lt.2 (t23.le.trans hx)),
        if_neg (not_lt.2 hx)]
    · intro x hx
      simp only [scheduleMarginal, ← ht0, ← ht1, ← ht2, ← ht3]
      rw [if_neg (not_lt.2 (((t01.le.trans t12.le).trans t23.le).trans hx)),
        if_neg (not_lt.2 ((t12.le.trans t23.le).trans hx)), if_neg (not_lt.2 (t23.le.trans hx)),
        if_neg (not_lt.2 hx)]
  have q1 := p0.glue p1 (c := t0) (Set.mem_Iic.2 le_rfl) ⟨le_rfl, t01.le⟩ (fun u hu => hu)
    (fun v hv => hv.1)
  have q2 := q1.glue p2 (c := t1) (Or.inr ⟨t01.le, le_rfl⟩) ⟨le_rfl, t12.le⟩
    (fun u hu => hu.elim (fun h => le_trans h t01.le) (fun h => h.2)) (fun v hv => hv.1)
  have q3 := q2.glue p3 (c := t2) (Or.inr ⟨t12.le, le_rfl⟩) ⟨le_rfl, t23.le⟩
    (fun u hu => hu.elim (fun h => h.elim (fun h => le_trans h (t01.le.trans t12.le))
      (fun h => h.2.trans t12.le)) (fun h => h.2)) (fun v hv => hv.1)
  have q4 := q3.glue p4 (c := t3) (Or.inr ⟨t23.le, le_rfl⟩) (Set.mem_Ici.2 le_rfl)
    (fun u hu => hu.elim (fun h => h.elim (fun h => h.elim
      (fun h => le_trans h ((t01.le.trans t12.le).trans t23.le))
      (fun h => h.2.trans (t12.le.trans t23.le))) (fun h => h.2.trans t23.le)) (fun h => h.2))
    (fun v hv => hv)
  have hall : ∀ x : K, x ∈ (((Set.Iic t0 ∪ Set.Icc t0 t1) ∪ Set.Icc t1 t2) ∪ Set.Icc t2 t3) ∪ Set.Ici t3 := by
    intro x
    rcases le_total x t0 with a | a
    · exact Or.inl (Or.inl (Or.inl (Or.inl a)))
    rcases le_total x t1 with b | b
    · exact Or.inl (Or.inl (Or.inl (Or.inr ⟨a, b⟩)))
    rcases le_total x t2 with c | c
    · exact Or.inl (Or.inl (Or.inr ⟨b, c⟩))
    rcases le_total x t3 with d | d
    · exact Or.inl (Or.inr ⟨c, d⟩)
    · exact Or.inr d
  intro u v huv
  exact q4 u (hall u) v (hall v) huv

/-! ## Consequences of having a marginal rate -/

theorem HasMarginal.convex {T m : K → K} (h : Spec.HasMarginal T m) {a b w : K} (hw0 : 0 ≤ w)
    (hw1 : w ≤ 1) : T ((1 - w) * a + w * b) ≤ (1 - w) * T a + w * T b := by
  have main : ∀ (a b w : K), 0 ≤ w → w ≤ 1 → a ≤ b →
      T ((1 - w) * a + w * b) ≤ (1 - w) * T a + w * T b := by
    intro a b w hw0 hw1 hab
    set z := (1 - w) * a + w * b with hz
    have h1 : a ≤ z := by nlinarith [mul_nonneg hw0 (sub_nonneg.2 hab)]
    have h2 : z ≤ b := by nlinarith [mul_nonneg (sub_nonneg.2 hw1) (sub_nonneg.2 hab)]
    have A := (h a z h1).2
    have B := (h z b h2).1
    have e1 : z - a = w * (b - a) := by rw [hz]; ring
    have e2 : b - z = (1 - w) * (b - a) := by rw [hz]; ring
    rw [e1] at A
    rw [e2] at B
    have A' := mul_le_mul_of_nonneg_left A (sub_nonneg.2 hw1)
    have B' := mul_le_mul_of_nonneg_left B hw0
    nlinarith
  rcases le_total a b with hab | hab
  · exact main a b w hw0 hw1 hab
  · have := main b a (1 - w) (sub_nonneg.2 hw1) (by linarith) hab
    have e : (1 - (1 - w)) * b + (1 - w) * a = (1 - w) * a + w * b := by ring
    rw [e] at this
    linarith [this, (by ring : (1 - (1 - w)) * T b + (1 - w) * T a = (1 - w) * T a + w * T b)]

/-! ## The schedule of 2007 -/

theorem proper2007 : ProperSchedule (createTaxParameters : TaxParams K) := by
  constructor <;>
    simp only [createTaxParameters, createIntercepts, createProgressionsfactor, calcIntervalTax,
      Y_FACTOR, M_FACTOR, Matrix.cons_val_zero, Matrix.cons_val_one, Matrix.cons_val]
  case q =>
    intro i
    fin_cases i <;> norm_num [Matrix.cons_val]
  all_goals norm_num

theorem marginal2007_eq (x : K) :
    scheduleMarginal (createTaxParameters : TaxParams K) x = Spec.marginal2007 x := by
  unfold scheduleMarginal Spec.marginal2007 Spec.weekly
  simp only [createTaxParameters, createProgressionsfactor, Y_FACTOR, M_FACTOR,
    Matrix.cons_val_zero, Matrix.cons_val_one, Matrix.cons_val]
  have e : ∀ y : K, y / (12 * 4.3) = y / 51.6 := by intro y; norm_num
  simp only [e]
  split_ifs
  · rfl
  · ring
  · ring
  · ring
  · ring

theorem marginal2007_bounds (x : K) : 0 ≤ Spec.marginal2007 x ∧ Spec.marginal2007 x ≤ 0.45 := by
  have hm := (proper2007 (K := K)).marginal
  have hmono : ∀ u v : K, u ≤ v → Spec.marginal2007 u ≤ Spec.marginal2007 v := by
    intro u v huv
    rw [← marginal2007_eq, ← marginal2007_eq]
    have : MarginalOn (incTax createTaxParameters) (scheduleMarginal createTaxParameters) (Set.univ : Set K) :=
      fun u _ v _ h => hm u v h
    exact this.mono_m (Set.mem_univ u) (Set.mem_univ v) huv
  constructor
  · have h := hmono (min x (-1)) x (min_le_left _ _)
    have : Spec.marginal2007 (min x (-1) : K) = 0 := by
      unfold Spec.marginal2007 Spec.weekly
      rw [if_pos]
      exact lt_of_le_of_lt (min_le_right _ _) (by norm_num)
    linarith
  · have h := hmono x (max x (Spec.weekly 250000)) (le_max_left _ _)
    have : Spec.marginal2007 (max x (Spec.weekly 250000) : K) = 0.45 := by
      have hb : Spec.weekly 250000 ≤ max x (Spec.weekly 250000) := le_max_right _ _
      have : ∀ y : K, y ≤ 250000 → Spec.weekly y ≤ max x (Spec.weekly 250000) := by
        intro y hy
        refine le_trans ?_ hb
        unfold Spec.weekly
        exact div_le_div_of_nonneg_right hy (by norm_num)
      unfold Spec.marginal2007
      rw [if_neg (not_lt.2 (this _ (by norm_num))), if_neg (not_lt.2 (this _ (by norm_num))),
        if_neg (not_lt.2 (this _ (by norm_num))), if_neg (not_lt.2 (this _ le_rfl))]
    linarith

theorem incTax2007_marginal :
    Spec.HasMarginal (incTax (createTaxParameters : TaxParams K)) Spec.marginal2007 := by
  have h := (proper2007 (K := K)).marginal
  intro u v huv
  have := h u v huv
  rwa [marginal2007_eq, marginal2007_eq] at this

theorem incTax2007_slope {a b : K} (h : a ≤ b) :
    0 ≤ incTax createTaxParameters b - incTax createTaxParameters a ∧
      incTax createTaxParameters b - incTax createTaxParameters a ≤ 0.45 * (b - a) := by
  have hm := incTax2007_marginal a b h
  have ha := marginal2007_bounds a
  have hb := marginal2007_bounds b
  have hab : 0 ≤ b - a := sub_nonneg.2 h
  exact ⟨(mul_nonneg ha.1 hab).trans hm.1, hm.2.trans (mul_le_mul_of_nonneg_right hb.2 hab)⟩

theorem incTax2007_zero {x : K} (h : x ≤ Spec.weekly 7664) :
    incTax (createTaxParameters : TaxParams K) x = 0 := by
  have ht : (createTaxParameters : TaxParams K).thresholds 0 = Spec.weekly 7664 := by
    simp only [createTaxParameters, Y_FACTOR, M_FACTOR, Spec.weekly, Matrix.cons_val_zero]; norm_num
  have hp := proper2007 (K := K)
  rw [incTax_cases hp.sorted]
  rcases lt_or_eq_of_le h with hlt | heq
  · rw [if_pos (ht ▸ hlt)]
  · rw [heq, ← ht, if_neg (lt_irrefl _), if_pos hp.t01]
    simp [calcIntervalTax, hp.b0]

theorem sscDeductions_mono {d : SscSpec K} (hr : 0 ≤ d.rate) {a b : K} (h : a ≤ b) :
    sscDeductions d a ≤ sscDeductions d b ∧
      sscDeductions d b - sscDeductions d a ≤ d.rate * (b - a) := by
  unfold sscDeductions
  have h1 : min a d.cap ≤ min b d.cap := min_le_min_right _ h
  have h2 : min b d.cap - min a d.cap ≤ b - a := by
    rcases le_total a d.cap with c | c
    · rw [min_eq_left c]; linarith [min_le_left b d.cap]
    · rw [min_eq_right c]; linarith [min_le_right b d.cap]
  constructor
  · exact mul_le_mul_of_nonneg_left h1 hr
  · rw [← mul_sub]; exact mul_le_mul_of_nonneg_left h2 hr

end Soepy
