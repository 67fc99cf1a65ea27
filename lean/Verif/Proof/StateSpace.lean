import Verif.Model.StateSpace
import Verif.Spec.StateSpace
import Verif.Proof.Except
import Mathlib.Data.List.Nodup
import Mathlib.Data.List.Range

set_option linter.unusedSectionVars false

namespace Soepy

/-! ## Loops over ranges -/

theorem range_add_mul (a b : Nat) :
    List.range ((a + 1) * b) = List.range (a * b) ++ (List.range b).map (a * b + ·) := by
  rw [Nat.add_mul, Nat.one_mul, List.range_add]

/-- Two nested loops as one loop. -/
theorem foldl_range_nested {α : Type} (a b : Nat) (f : α → Nat → Nat → α) (init : α) :
    (List.range a).foldl (fun acc i => (List.range b).foldl (fun acc j => f acc i j) acc) init
      = (List.range (a * b)).foldl (fun acc n => f acc (n / b) (n % b)) init := by
  induction a with
  | zero => simp
  | succ a ih =>
    rw [List.range_succ, List.foldl_append, ih, range_add_mul, List.foldl_append, List.foldl_map]
    simp only [List.foldl_cons, List.foldl_nil]
    apply List.foldl_ext
    intro acc j hj
    rw [List.mem_range] at hj
    have hb : 0 < b := by omega
    have h1 : (a * b + j) / b = a := by
      rw [Nat.mul_comm, Nat.mul_add_div hb, Nat.div_eq_of_lt hj, Nat.add_zero]
    have h2 : (a * b + j) % b = j := by
      rw [Nat.mul_comm, Nat.mul_add_mod, Nat.mod_eq_of_lt hj]
    rw [h1, h2]

theorem foldl_range_inv {α : Type} {f : α → Nat → α} {P : Nat → α → Prop} {init : α} (n : Nat)
    (h0 : P 0 init) (hstep : ∀ i acc, i < n → P i acc → P (i + 1) (f acc i)) :
    P n ((List.range n).foldl f init) := by
  induction n with
  | zero => simpa using h0
  | succ n ih =>
    rw [List.range_succ, List.foldl_append]
    simp only [List.foldl_cons, List.foldl_nil]
    exact hstep n _ (Nat.lt_succ_self n) (ih fun i acc hi => hstep i acc (Nat.lt_succ_of_lt hi))

/-! ## The state space in closed form -/

section closed
variable (E Ty nK : Nat)

/-- Row number of a state: mixed radix number with digits period, education, type, partner, age + 1,
lagged choice. -/
def rowNat (p e ty pa k l : Nat) : Nat := ((((p * E + e) * Ty + ty) * 2 + pa) * nK + k) * 3 + l

/-- The state listed in a row. -/
def stateAt (m : Nat) : State :=
  { period := m / 3 / nK / 2 / Ty / E
    educ := m / 3 / nK / 2 / Ty % E
    lagged := m % 3
    type := m / 3 / nK / 2 % Ty
    age := (m / 3 % nK : Nat) - 1
    partner := m / 3 / nK % 2 }

theorem digit_div {a b c : Nat} (h : c < b) : (a * b + c) / b = a := by
  rw [Nat.mul_comm, Nat.mul_add_div (by omega), Nat.div_eq_of_lt h, Nat.add_zero]

theorem digit_mod {a b c : Nat} (h : c < b) : (a * b + c) % b = c := by
  rw [Nat.mul_comm, Nat.mul_add_mod, Nat.mod_eq_of_lt h]

theorem stateAt_rowNat {p e ty pa k l : Nat} (he : e < E) (hty : ty < Ty) (hpa : pa < 2)
    (hk : k < nK) (hl : l < 3) :
    stateAt E Ty nK (rowNat E Ty nK p e ty pa k l)
      = { period := p, educ := e, lagged := l, type := ty, age := (k : Int) - 1, partner := pa } := by
  unfold stateAt rowNat
  simp only [digit_div hl, digit_mod hl, digit_div hk, digit_mod hk, digit_div hpa, digit_mod hpa,
    digit_div hty, digit_mod hty, digit_div he, digit_mod he]

theorem rowNat_stateAt (m : Nat) :
    rowNat E Ty nK (m / 3 / nK / 2 / Ty / E) (m / 3 / nK / 2 / Ty % E) (m / 3 / nK / 2 % Ty)
      (m / 3 / nK % 2) (m / 3 % nK) (m % 3) = m := by
  unfold rowNat
  simp only [Nat.div_add_mod']

theorem digit_lt {a b c n : Nat} (h : c < b) (ha : a < n) : a * b + c < n * b := by
  calc a * b + c < a * b + b := by omega
    _ = (a + 1) * b := by ring
    _ ≤ n * b := Nat.mul_le_mul_right b ha

theorem rowNat_lt {T p e ty pa k l : Nat} (hp : p < T) (he : e < E) (hty : ty < Ty) (hpa : pa < 2)
    (hk : k < nK) (hl : l < 3) : rowNat E Ty nK p e ty pa k l < T * E * Ty * 2 * nK * 3 := by
  unfold rowNat
  exact digit_lt hl (digit_lt hk (digit_lt hpa (digit_lt hty (digit_lt he hp))))

theorem rowNat_inj {p e ty pa k l p' e' ty' pa' k' l' : Nat} (he : e < E) (hty : ty < Ty)
    (hpa : pa < 2) (hk : k < nK) (hl : l < 3) (he' : e' < E) (hty' : ty' < Ty) (hpa' : pa' < 2)
    (hk' : k' < nK) (hl' : l' < 3)
    (h : rowNat E Ty nK p e ty pa k l = rowNat E Ty nK p' e' ty' pa' k' l') :
    p = p' ∧ e = e' ∧ ty = ty' ∧ pa = pa' ∧ k = k' ∧ l = l' := by
  have h1 := stateAt_rowNat E Ty nK (p := p) he hty hpa hk hl
  have h2 := stateAt_rowNat E Ty nK (p := p') he' hty' hpa' hk' hl'
  rw [h, h2] at h1
  simp only [State.mk.injEq] at h1
  obtain ⟨a, b, c, d, e, f⟩ := h1
  exact ⟨a.symm, b.symm, d.symm, f.symm, by omega, c.symm⟩

end closed

variable {K : Type}

/-- Number of age slots. -/
def nKidsOf (spec : ModelSpec K) : Nat := (spec.child_age_max + 2).toNat

/-- Number of rows. -/
def nRows (spec : ModelSpec K) : Nat :=
  spec.num_periods * spec.num_educ_levels * spec.num_types * 2 * nKidsOf spec * 3

/-- The age slot of the indexer as position. -/
def slotOf (nK k : Nat) : Nat := if k = 0 then nK - 1 else k - 1

theorem slotOf_lt {nK k : Nat} (h : k < nK) : slotOf nK k < nK := by unfold slotOf; split <;> omega

theorem slotOf_inj {nK k k' : Nat} (h : k < nK) (h' : k' < nK) (e : slotOf nK k = slotOf nK k') :
    k = k' := by
  unfold slotOf at e; split at e <;> split at e <;> omega

theorem slotOf_surj {nK a : Nat} (h : a < nK) : ∃ k < nK, slotOf nK k = a := by
  by_cases ha : a = nK - 1
  · exact ⟨0, by omega, by simp [slotOf, ha]⟩
  · exact ⟨a + 1, by omega, by simp [slotOf]⟩

theorem kidAge_slot {nK k : Nat} (h : k < nK) :
    (kidAgeToIndex ((k : Int) - 1) nK).toNat = slotOf nK k := by
  unfold kidAgeToIndex slotOf
  by_cases hk : k = 0
  · subst hk; simp
  · rw [if_neg (by omega), if_neg hk]; omega

theorem set_apply (ix : Indexer) (p e l ty a pa p' e' l' ty' a' pa' : Nat) (v : Int) :
    (ix.set p e l ty a pa v).val p' e' l' ty' a' pa' =
      if p' = p ∧ e' = e ∧ l' = l ∧ ty' = ty ∧ a' = a ∧ pa' = pa then v
      else ix.val p' e' l' ty' a' pa' := rfl

/-- Effect of one block on the indexer. -/
theorem block_val (ix : Indexer) (p e ty a pa i p' e' l' ty' a' pa' : Nat) (hl : l' < 3) :
    ((List.range NUM_CHOICES).foldl (fun ix l => ix.set p e l ty a pa ((i : Int) + (l : Nat))) ix).val
      p' e' l' ty' a' pa' =
      if p' = p ∧ e' = e ∧ ty' = ty ∧ a' = a ∧ pa' = pa then (i : Int) + (l' : Nat)
      else ix.val p' e' l' ty' a' pa' := by
  have hr : List.range NUM_CHOICES = [0, 1, 2] := rfl
  rw [hr]
  simp only [List.foldl_cons, List.foldl_nil, set_apply]
  by_cases h : p' = p ∧ e' = e ∧ ty' = ty ∧ a' = a ∧ pa' = pa
  · rw [if_pos h]
    obtain ⟨h1, h2, h3, h4, h5⟩ := h
    have : l' = 0 ∨ l' = 1 ∨ l' = 2 := by omega
    rcases this with rfl | rfl | rfl <;> simp [h1, h2, h3, h4, h5]
  · rw [if_neg h, if_neg (by tauto), if_neg (by tauto), if_neg (by tauto)]

theorem block_dims (ix : Indexer) (p e ty a pa i : Nat) :
    let ix' := (List.range NUM_CHOICES).foldl
      (fun ix l => ix.set p e l ty a pa ((i : Int) + (l : Nat))) ix
    ix'.nPeriods = ix.nPeriods ∧ ix'.nEduc = ix.nEduc ∧ ix'.nTypes = ix.nTypes ∧
      ix'.nKids = ix.nKids := by
  have hr : List.range NUM_CHOICES = [0, 1, 2] := rfl
  rw [hr]
  exact ⟨rfl, rfl, rfl, rfl⟩

/-- What holds after `n` blocks. -/
structure BlockInv (spec : ModelSpec K) (n : Nat) (acc : SSAcc) : Prop where
  states : acc.states = (List.range (n * 3)).map
    (stateAt spec.num_educ_levels spec.num_types (nKidsOf spec))
  i : acc.i = n * 3
  dp : acc.indexer.nPeriods = spec.num_periods
  de : acc.indexer.nEduc = spec.num_educ_levels
  dt : acc.indexer.nTypes = spec.num_types
  dk : acc.indexer.nKids = nKidsOf spec
  val : ∀ p e l ty k pa, e < spec.num_educ_levels → l < 3 → ty < spec.num_types →
    k < nKidsOf spec → pa < 2 →
    acc.indexer.val p e l ty (slotOf (nKidsOf spec) k) pa =
      let r := rowNat spec.num_educ_levels spec.num_types (nKidsOf spec) p e ty pa k l
      if r < n * 3 then (r : Int) else MISSING_INT

theorem createDiscreteStateSpace_inv (spec : ModelSpec K) :
    ∃ acc, createDiscreteStateSpace spec = (acc.states, acc.indexer) ∧
      BlockInv spec (spec.num_periods * spec.num_educ_levels * spec.num_types * 2 * nKidsOf spec) acc := by
  have hk : (kidsAges spec.child_age_max).length = nKidsOf spec := by simp [kidsAges, nKidsOf]
  unfold createDiscreteStateSpace
  simp only [hk]
  refine ⟨_, rfl, ?_⟩
  have hkr : (spec.child_age_max + 2).toNat = nKidsOf spec := rfl
  simp only [kidsAges, List.foldl_map, hkr]
  rw [foldl_range_nested spec.num_periods spec.num_educ_levels,
    foldl_range_nested (spec.num_periods * spec.num_educ_levels) spec.num_types,
    foldl_range_nested (spec.num_periods * spec.num_educ_levels * spec.num_types) 2,
    foldl_range_nested (spec.num_periods * spec.num_educ_levels * spec.num_types * 2)
      (nKidsOf spec)]
  set E := spec.num_educ_levels with hE
  set Ty := spec.num_types with hTy
  set nK := nKidsOf spec with hnK
  set N := spec.num_periods * E * Ty * 2 * nK with hN
  refine foldl_range_inv (P := BlockInv spec) N ?_ ?_
  · constructor
    · simp
    · simp
    · rfl
    · rfl
    · rfl
    · rfl
    · intro p e l ty k pa _ _ _ _ _
      simp
  · intro n acc hn inv
    have hnK0 : 0 < nK := by
      rcases Nat.eq_zero_or_pos nK with h | h
      · rw [hN, h, Nat.mul_zero] at hn; omega
      · exact h
    have hkn : n % nK < nK := Nat.mod_lt _ hnK0
    have hl3 : ∀ l < 3, (n * 3 + l) / 3 = n := fun l hl => digit_div hl
    have hm3 : ∀ l < 3, (n * 3 + l) % 3 = l := fun l hl => digit_mod hl
    constructor
    · simp only [ssBody, inv.states, ← hE, ← hTy, ← hnK]
      rw [Nat.add_mul, Nat.one_mul, List.range_add, List.map_append]
      congr 1
      rw [List.map_map]
      apply List.map_congr_left
      intro l hl
      have hl : l < 3 := List.mem_range.1 hl
      simp only [Function.comp, stateAt, hl3 l hl, hm3 l hl]
    · simp only [ssBody, inv.i, NUM_CHOICES]; ring
    · exact (block_dims _ _ _ _ _ _ _).1.trans inv.dp
    · exact (block_dims _ _ _ _ _ _ _).2.1.trans inv.de
    · exact (block_dims _ _ _ _ _ _ _).2.2.1.trans inv.dt
    · exact (block_dims _ _ _ _ _ _ _).2.2.2.trans inv.dk
    · intro p e l ty k pa he hl hty hk hpa
      simp only [ssBody]
      rw [block_val _ _ _ _ _ _ _ _ _ _ _ _ _ hl, inv.val p e l ty k pa he hl hty hk hpa]
      simp only [← hE, ← hTy, ← hnK] at he hty hk ⊢
      rw [kidAge_slot hkn, inv.i]
      set r := rowNat E Ty nK p e ty pa k l with hr
      have hrl : r % 3 = l := by rw [hr, rowNat, digit_mod hl]
      by_cases hrn : r / 3 = n
      · have hr' : r = n * 3 + l := by rw [← hrn, ← hrl]; exact (Nat.div_add_mod' r 3).symm
        have hst := stateAt_rowNat E Ty nK (p := p) he hty hpa hk hl
        rw [← hr, hr'] at hst
        simp only [stateAt, hl3 l hl, hm3 l hl, State.mk.injEq] at hst
        obtain ⟨a, b, _, d, f, g⟩ := hst
        have hkk : n % nK = k := by omega
        rw [if_pos ⟨a.symm, b.symm, d.symm, by rw [hkk], g.symm⟩, if_pos (by omega), hr']
        push_cast; rfl
      · rw [if_neg]
        · by_cases h : r < n * 3
          · rw [if_pos h, if_pos (by omega)]
          · rw [if_neg h, if_neg (by omega)]
        · rintro ⟨a, b, c, d, f⟩
          apply hrn
          have hkk := slotOf_inj hk hkn d
          have := rowNat_stateAt E Ty nK (n * 3 + l)
          rw [hl3 l hl, hm3 l hl, ← a, ← b, ← c, ← hkk, ← f, ← hr] at this
          rw [this, hl3 l hl]

/-! ## Consequences -/

/-- Row number of an in-range state. -/
def rowOf (spec : ModelSpec K) (s : State) : Nat :=
  rowNat spec.num_educ_levels spec.num_types (nKidsOf spec) s.period s.educ s.type s.partner
    (s.age + 1).toNat s.lagged

theorem states_eq (spec : ModelSpec K) : (createDiscreteStateSpace spec).1 =
    (List.range (nRows spec)).map (stateAt spec.num_educ_levels spec.num_types (nKidsOf spec)) := by
  obtain ⟨acc, h, inv⟩ := createDiscreteStateSpace_inv spec
  rw [h, inv.states]; rfl

theorem states_length (spec : ModelSpec K) :
    (createDiscreteStateSpace spec).1.length = nRows spec := by
  rw [states_eq]; simp

theorem states_get (spec : ModelSpec K) {m : Nat} (h : m < (createDiscreteStateSpace spec).1.length) :
    (createDiscreteStateSpace spec).1[m] =
      stateAt spec.num_educ_levels spec.num_types (nKidsOf spec) m := by
  simp [states_eq]

theorem indexer_dims (spec : ModelSpec K) :
    let ix := (createDiscreteStateSpace spec).2
    ix.nPeriods = spec.num_periods ∧ ix.nEduc = spec.num_educ_levels ∧ ix.nTypes = spec.num_types ∧
      ix.nKids = nKidsOf spec := by
  obtain ⟨acc, h, inv⟩ := createDiscreteStateSpace_inv spec
  rw [h]
  exact ⟨inv.dp, inv.de, inv.dt, inv.dk⟩

theorem inRange_age {spec : ModelSpec K} {s : State} (h : Spec.InRange spec s) :
    (s.age + 1).toNat < nKidsOf spec := by
  have := h.ageLo; have := h.ageHi
  unfold nKidsOf; omega

theorem rowOf_lt {spec : ModelSpec K} {s : State} (h : Spec.InRange spec s) :
    rowOf spec s < nRows spec :=
  rowNat_lt _ _ _ h.period h.educ h.type h.partner (inRange_age h) h.lagged

theorem stateAt_rowOf {spec : ModelSpec K} {s : State} (h : Spec.InRange spec s) :
    stateAt spec.num_educ_levels spec.num_types (nKidsOf spec) (rowOf spec s) = s := by
  unfold rowOf
  rw [stateAt_rowNat _ _ _ h.educ h.type h.partner (inRange_age h) h.lagged]
  have := h.ageLo
  have e : ((s.age + 1).toNat : Int) - 1 = s.age := by omega
  rw [e]

theorem states_rowOf {spec : ModelSpec K} {s : State} (h : Spec.InRange spec s) :
    (createDiscreteStateSpace spec).1[rowOf spec s]? = some s := by
  have hl := rowOf_lt h
  rw [List.getElem?_eq_getElem (by rw [states_length]; exact hl), states_get, stateAt_rowOf h]

theorem stateAt_inRange {spec : ModelSpec K} {m : Nat} (h : m < nRows spec) :
    Spec.InRange spec (stateAt spec.num_educ_levels spec.num_types (nKidsOf spec) m) := by
  have hT : 0 < spec.num_periods := by
    rcases Nat.eq_zero_or_pos spec.num_periods with h0 | h0
    · simp [nRows, h0] at h
    · exact h0
  have hE : 0 < spec.num_educ_levels := by
    rcases Nat.eq_zero_or_pos spec.num_educ_levels with h0 | h0
    · simp [nRows, h0] at h
    · exact h0
  have hTy : 0 < spec.num_types := by
    rcases Nat.eq_zero_or_pos spec.num_types with h0 | h0
    · simp [nRows, h0] at h
    · exact h0
  have hK : 0 < nKidsOf spec := by
    rcases Nat.eq_zero_or_pos (nKidsOf spec) with h0 | h0
    · simp [nRows, h0] at h
    · exact h0
  have hkm := Nat.mod_lt (m / 3) hK
  constructor
  · show m / 3 / nKidsOf spec / 2 / spec.num_types / spec.num_educ_levels < spec.num_periods
    rw [Nat.div_lt_iff_lt_mul hE, Nat.div_lt_iff_lt_mul hTy, Nat.div_lt_iff_lt_mul (by norm_num),
      Nat.div_lt_iff_lt_mul hK, Nat.div_lt_iff_lt_mul (by norm_num)]
    exact h
  · exact Nat.mod_lt _ hE
  · exact Nat.mod_lt _ (by norm_num)
  · exact Nat.mod_lt _ hTy
  · show -1 ≤ ((m / 3 % nKidsOf spec : Nat) : Int) - 1
    omega
  · show ((m / 3 % nKidsOf spec : Nat) : Int) - 1 ≤ spec.child_age_max
    unfold nKidsOf at hkm hK ⊢
    omega
  · exact Nat.mod_lt _ (by norm_num)

theorem rowOf_stateAt (spec : ModelSpec K) (m : Nat) :
    rowOf spec (stateAt spec.num_educ_levels spec.num_types (nKidsOf spec) m) = m := by
  unfold rowOf stateAt
  have : (((m / 3 % nKidsOf spec : Nat) : Int) - 1 + 1).toNat = m / 3 % nKidsOf spec := by omega
  simp only [this]
  exact rowNat_stateAt _ _ _ m

theorem rowOf_inj {spec : ModelSpec K} {s s' : State} (h : Spec.InRange spec s)
    (h' : Spec.InRange spec s') (e : rowOf spec s = rowOf spec s') : s = s' := by
  rw [← stateAt_rowOf h, ← stateAt_rowOf h', e]

theorem mem_states (spec : ModelSpec K) (s : State) :
    s ∈ (createDiscreteStateSpace spec).1 ↔ Spec.InRange spec s := by
  constructor
  · intro h
    rw [states_eq, List.mem_map] at h
    obtain ⟨m, hm, rfl⟩ := h
    exact stateAt_inRange (List.mem_range.1 hm)
  · intro h
    exact List.mem_of_getElem? (states_rowOf h)

theorem states_nodup (spec : ModelSpec K) : (createDiscreteStateSpace spec).1.Nodup := by
  rw [states_eq]
  refine List.Nodup.map_on ?_ List.nodup_range
  intro a _ b _ h
  rw [← rowOf_stateAt spec a, ← rowOf_stateAt spec b, h]

/-- Every position of the indexer. -/
theorem indexer_val {spec : ModelSpec K} {s : State} (h : Spec.InRange spec s) :
    (createDiscreteStateSpace spec).2.val s.period s.educ s.lagged s.type
      (slotOf (nKidsOf spec) (s.age + 1).toNat) s.partner = (rowOf spec s : Int) := by
  obtain ⟨acc, hacc, inv⟩ := createDiscreteStateSpace_inv spec
  rw [hacc, inv.val _ _ _ _ _ _ h.educ h.lagged h.type (inRange_age h) h.partner]
  have hl := rowOf_lt h
  unfold rowOf nRows at hl
  simp only [rowOf]
  rw [if_pos hl]

theorem indexer_get {spec : ModelSpec K} {s : State} (h : Spec.InRange spec s) :
    (createDiscreteStateSpace spec).2.get s.period s.educ s.lagged s.type
      (Spec.slot spec s.age) s.partner = .ok (rowOf spec s : Int) := by
  obtain ⟨d1, d2, d3, d4⟩ := indexer_dims spec
  have ha := inRange_age h
  have hlo := h.ageLo
  have hhi := h.ageHi
  have hslot : Spec.slot spec s.age = (slotOf (nKidsOf spec) (s.age + 1).toNat : Nat) := by
    unfold Spec.slot slotOf nKidsOf
    by_cases e : s.age = -1
    · rw [if_pos e, if_pos (by omega)]; omega
    · rw [if_neg e, if_neg (by omega)]; omega
  unfold Indexer.get
  rw [d1, d2, d3, d4, hslot, npIndex_of_lt h.period, npIndex_of_lt h.educ,
    npIndex_of_lt (show s.lagged < NUM_CHOICES from h.lagged), npIndex_of_lt h.type,
    npIndex_of_lt (slotOf_lt ha), npIndex_of_lt h.partner]
  simp only [ok_bind]
  rw [indexer_val h]; rfl

/-- NumPy's negative index: slot `-1` is the last slot. -/
theorem indexer_get_neg {spec : ModelSpec K} {s : State} (h : Spec.InRange spec s)
    (hs : s.age = -1) :
    (createDiscreteStateSpace spec).2.get s.period s.educ s.lagged s.type (-1) s.partner
      = .ok (rowOf spec s : Int) := by
  obtain ⟨d1, d2, d3, d4⟩ := indexer_dims spec
  have ha := inRange_age h
  have hslot : ((-1 : Int) + (nKidsOf spec : Nat)).toNat = slotOf (nKidsOf spec) (s.age + 1).toNat := by
    unfold slotOf; rw [if_pos (by omega)]; omega
  unfold Indexer.get
  rw [d1, d2, d3, d4, npIndex_of_lt h.period, npIndex_of_lt h.educ,
    npIndex_of_lt (show s.lagged < NUM_CHOICES from h.lagged), npIndex_of_lt h.type,
    npIndex_of_neg (by omega) (by omega), npIndex_of_lt h.partner, hslot]
  simp only [ok_bind]
  rw [indexer_val h]; rfl

/-! ## Update rule -/

theorem rule_get {spec : ModelSpec K} {s : State} (h : Spec.InRange spec s) :
    npGet (childAgeUpdateRule spec.child_age_max (createDiscreteStateSpace spec).1)
      (rowOf spec s : Int) = .ok (Spec.older spec.child_age_max s.age) := by
  have hl := rowOf_lt h
  have hlen : (childAgeUpdateRule spec.child_age_max (createDiscreteStateSpace spec).1).length
      = nRows spec := by simp [childAgeUpdateRule, states_length]
  rw [npGet_of_lt (by rw [hlen]; exact hl)]
  congr 1
  simp only [childAgeUpdateRule, List.getElem_map, states_get, stateAt_rowOf h, Spec.older]
  have := h.ageLo; have := h.ageHi
  split_ifs <;> omega

theorem older_range {A a : Int} (h0 : -1 ≤ a) (h1 : a ≤ A) :
    -1 ≤ Spec.older A a ∧ Spec.older A a ≤ A := by
  unfold Spec.older; split_ifs <;> omega

/-! ## Child indexes -/

theorem successor_inRange {spec : ModelSpec K} {s : State} (h : Spec.InRange spec s)
    (hp : s.period + 1 < spec.num_periods) {c q : Nat} (hc : c < 3) (hq : q < 2) {b : Bool}
    (hA : b = true → 0 ≤ spec.child_age_max) :
    Spec.InRange spec (Spec.successor spec.child_age_max s c b q) := by
  have ho := older_range h.ageLo h.ageHi
  refine ⟨hp, h.educ, hc, h.type, ?_, ?_, hq⟩
  · show -1 ≤ if b = true then (0 : Int) else Spec.older spec.child_age_max s.age
    split_ifs
    · omega
    · exact ho.1
  · show (if b = true then (0 : Int) else Spec.older spec.child_age_max s.age) ≤ spec.child_age_max
    split_ifs with hb
    · exact hA hb
    · exact ho.2

/-- The successor in the degenerate case `child_age_max = -1`, where a birth has no slot of its own. -/
def successorRow (spec : ModelSpec K) (s : State) (c : Nat) (b : Bool) (q : Nat) : Nat :=
  rowOf spec (Spec.successor spec.child_age_max s c
    (b && decide (0 ≤ spec.child_age_max)) q)

theorem childIndexesOf_eq {spec : ModelSpec K} {s : State} (h : Spec.InRange spec s) :
    childIndexesOf (createDiscreteStateSpace spec).2 spec.num_periods
      (childAgeUpdateRule spec.child_age_max (createDiscreteStateSpace spec).1) s =
      .ok (if s.period + 1 < spec.num_periods then
        fun c b q => (successorRow spec s (c : Nat) (decide (b = 1)) (q : Nat) : Int)
      else fun _ _ _ => MISSING_INT) := by
  unfold childIndexesOf
  by_cases hp : s.period + 1 < spec.num_periods
  · rw [if_pos (by omega), if_pos hp]
    have hslot : (if s.age = -1 then ((createDiscreteStateSpace spec).2.nKids : Int) - 1 else s.age)
        = Spec.slot spec s.age := by
      have := h.ageLo; have := h.ageHi
      rw [(indexer_dims spec).2.2.2]
      unfold Spec.slot nKidsOf
      split_ifs <;> omega
    simp only [hslot]
    rw [indexer_get h]
    simp only [ok_bind]
    rw [rule_get h]
    simp only [ok_bind]
    rw [seqFin3_ok]
    intro c
    rw [seqFin2_ok]
    intro b
    rw [seqFin2_ok]
    intro q
    have hc : (c : Nat) < 3 := c.2
    have hq : (q : Nat) < 2 := q.2
    set s' := Spec.successor spec.child_age_max s (c : Nat)
      (decide (b = 1) && decide (0 ≤ spec.child_age_max)) (q : Nat) with hs'
    have hr : Spec.InRange spec s' := by
      apply successor_inRange h hp hc hq
      intro hb
      simp at hb
      exact hb.2
    have hA : -1 ≤ spec.child_age_max := h.ageLo.trans h.ageHi
    have hgoal : (createDiscreteStateSpace spec).2.get s'.period s'.educ s'.lagged s'.type
        (if b = 1 then 0 else Spec.older spec.child_age_max s.age) s'.partner
        = .ok (rowOf spec s' : Int) := by
      by_cases hb : b = 1
      · rw [if_pos hb]
        by_cases hA0 : 0 ≤ spec.child_age_max
        · have hage : s'.age = 0 := by simp [hs', Spec.successor, hb, hA0]
          have := indexer_get hr
          rw [hage] at this
          simpa [Spec.slot] using this
        · have hA1 : spec.child_age_max = -1 := by omega
          have hage : s'.age = -1 := by
            have := hr.ageLo; have := hr.ageHi; omega
          have := indexer_get hr
          rw [hage] at this
          simpa [Spec.slot, hA1] using this
      · rw [if_neg hb]
        have hage : s'.age = Spec.older spec.child_age_max s.age := by
          simp [hs', Spec.successor, hb]
        by_cases ho : Spec.older spec.child_age_max s.age = -1
        · rw [ho]
          exact indexer_get_neg hr (hage.trans ho)
        · have := indexer_get hr
          rw [hage] at this
          simpa [Spec.slot, ho] using this
    exact hgoal
  · rw [if_neg (by omega), if_neg hp]

/-! ## Covariates -/

theorem childBin_eq {A age : Int} (h0 : -1 ≤ age) (h1 : age ≤ A) :
    childBin A age = .ok (some (Spec.ageGroup age)) := by
  unfold childBin Spec.ageGroup
  have hc : [-2, -1, 2, 5, 10, max A 11].IsChain (· < ·) := by simp
  simp only [pdCut, hc, not_true_eq_false, if_false, cutLabel, List.length_cons, List.length_nil,
    ne_eq]
  split_ifs <;> first | rfl | omega

variable [Field K] [LinearOrder K] [Transc K]

/-- The covariates of a state, without exceptions. -/
def covOf (spec : ModelSpec K) (s : State) : Covariate K :=
  { bin := Spec.ageGroup s.age
    maleWage := if s.partner = 1 then Transc.exp (spec.partner_cf_const
      + spec.partner_cf_age * (s.period : K) + spec.partner_cf_age_sq * (s.period : K) ^ 2
      + spec.partner_cf_educ * (s.educ : K)) * HOURS 2 else 0
    equivScale := if s.age = -1 then (if s.partner = 1 then 1.5 else 1)
      else (if s.partner = 1 then 1.8 else 1.3)
    childBenefits := if s.age = -1 then 0 else spec.child_benefits }

theorem constructCovariate_eq {spec : ModelSpec K} {s : State} (h : Spec.InRange spec s) :
    constructCovariate spec s = .ok (covOf spec s) := by
  unfold constructCovariate covOf createEquivalenceScale
  rw [childBin_eq h.ageLo h.ageHi]
  by_cases h1 : s.age = -1 <;> by_cases h2 : s.partner = 1 <;> simp [h1, h2]

theorem constructCovariates_eq (spec : ModelSpec K) :
    constructCovariates spec (createDiscreteStateSpace spec).1
      = .ok ((createDiscreteStateSpace spec).1.map (covOf spec)) :=
  mapE_of_forall fun s hs => constructCovariate_eq ((mem_states spec s).1 hs)

/-- The child table without exceptions. -/
def childOf (spec : ModelSpec K) (s : State) : ChildIdx :=
  if s.period + 1 < spec.num_periods then
    fun c b q => (successorRow spec s (c : Nat) (decide (b = 1)) (q : Nat) : Int)
  else fun _ _ _ => MISSING_INT

/-- `create_state_space_objects` never raises, and this is what it returns. -/
theorem createStateSpaceObjects_eq (spec : ModelSpec K) :
    createStateSpaceObjects spec = .ok
      { states := (createDiscreteStateSpace spec).1
        indexer := (createDiscreteStateSpace spec).2
        covariates := (createDiscreteStateSpace spec).1.map (covOf spec)
        childAgeUpdateRule := childAgeUpdateRule spec.child_age_max (createDiscreteStateSpace spec).1
        childStateIndexes := (createDiscreteStateSpace spec).1.map (childOf spec) } := by
  unfold createStateSpaceObjects createChildIndexes
  simp only [constructCovariates_eq]
  rw [mapE_of_forall (g := childOf spec)]
  intro s hs
  exact childIndexesOf_eq ((mem_states spec s).1 hs)

end Soepy

namespace Soepy
variable {K : Type}

/-! ## Blocks of periods -/

/-- States per period. -/
def perPeriod (spec : ModelSpec K) : Nat :=
  spec.num_educ_levels * spec.num_types * 2 * nKidsOf spec * 3

theorem nRows_eq (spec : ModelSpec K) : nRows spec = spec.num_periods * perPeriod spec := by
  unfold nRows perPeriod; ring

theorem rowOf_period (spec : ModelSpec K) (s : State) (t : Nat) :
    rowOf spec { s with period := t } = t * perPeriod spec + rowOf spec { s with period := 0 } := by
  unfold rowOf rowNat perPeriod
  ring

theorem rowOf_zero_lt {spec : ModelSpec K} {s : State} (h : Spec.InRange spec s) :
    rowOf spec { s with period := 0 } < perPeriod spec := by
  have := rowNat_lt spec.num_educ_levels spec.num_types (nKidsOf spec) (T := 1) (p := 0)
    (by norm_num) h.educ h.type h.partner (inRange_age h) h.lagged
  rw [Nat.one_mul] at this
  exact this

theorem rowOf_split {spec : ModelSpec K} (s : State) :
    rowOf spec s = s.period * perPeriod spec + rowOf spec { s with period := 0 } := by
  have := rowOf_period spec s s.period
  simpa using this

theorem perPeriod_div (spec : ModelSpec K) (hT : 0 < spec.num_periods) :
    nRows spec / spec.num_periods = perPeriod spec := by
  rw [nRows_eq, Nat.mul_div_cancel_left _ hT]

/-- Row `j` of block `t`. -/
theorem stateAt_block (spec : ModelSpec K) {t j : Nat} (hj : j < perPeriod spec) :
    stateAt spec.num_educ_levels spec.num_types (nKidsOf spec) (t * perPeriod spec + j)
      = { stateAt spec.num_educ_levels spec.num_types (nKidsOf spec) j with period := t } := by
  have hr : j < nRows { spec with num_periods := 1 } := by
    rw [nRows_eq]; show j < 1 * perPeriod spec; rw [Nat.one_mul]; exact hj
  have h0 := stateAt_inRange (spec := { spec with num_periods := 1 }) hr
  set s0 := stateAt spec.num_educ_levels spec.num_types (nKidsOf spec) j with hs0
  have hs0' : stateAt spec.num_educ_levels spec.num_types
    (nKidsOf { spec with num_periods := 1 }) j = s0 := rfl
  rw [hs0'] at h0
  have hp0 : s0.period = 0 := by have := h0.period; simp at this; exact this
  have hrow : rowOf spec s0 = j := rowOf_stateAt spec j
  have hin : Spec.InRange { spec with num_periods := t + 1 } { s0 with period := t } :=
    ⟨Nat.lt_succ_self t, h0.educ, h0.lagged, h0.type, h0.ageLo, h0.ageHi, h0.partner⟩
  have key := stateAt_rowOf hin
  have hrow' : rowOf { spec with num_periods := t + 1 } { s0 with period := t }
      = t * perPeriod spec + j := by
    have h1 := rowOf_period spec s0 t
    have h2 : ({ s0 with period := 0 } : State) = s0 := by rw [← hp0]
    rw [h2, hrow] at h1
    exact h1
  rw [hrow'] at key
  exact key

end Soepy
