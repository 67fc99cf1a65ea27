import Verif.Proof.RandomSpec
import Verif.Spec.RandomInit

/-! The tables of the test fixtures. -/

set_option linter.unusedSectionVars false

namespace Soepy
open Props
variable {S K : Type} [Field K] [LinearOrder K] [IsStrictOrderedRing K] [FloorRing K] [Transc K]
  {r : InitRng S K} {p : Process S K}

/-- One table was written, nothing else has changed besides the generator. -/
def Wrote (name : String) (rows : List (Nat × K)) (p p' : Process S K) : Prop :=
  p'.store = p.store ∧ p'.disk.frames = p.disk.frames ∧ p'.disk.specs = p.disk.specs ∧
    ∀ n, p'.disk.shares n = if n = name then some rows else p.disk.shares n

theorem Kept.wrote {name : String} {rows : List (Nat × K)} {p p' p'' : Process S K} (h : Kept p p')
    (h' : Wrote name rows p' p'') : Wrote name rows p p'' := by
  unfold Wrote at *
  rwa [h.1, h.2] at h'

theorem saveShares_runs (name : String) {index : List Nat} {values : List K} (h : index.length = values.length)
    (p : Process S K) :
    (Py.saveShares name index values : Py S K Unit).Runs p fun _ p' => Wrote name (index.zip values) p p' := by
  unfold Py.saveShares Py.Runs
  dsimp only
  rw [if_neg (by simpa using h)]
  exact ⟨_, _, rfl, rfl, rfl, rfl, fun n => rfl⟩

/-! ## Shares by education -/

theorem zip_replicate (e : Nat) : ∀ a : List K, (List.replicate a.length e).zip a = a.map fun x => (e, x)
  | [] => rfl
  | x :: a => by
    rw [List.length_cons, List.replicate_succ, List.zip_cons_cons, zip_replicate e a, List.map_cons]

theorem filter_same (e e' : Nat) (a : List K) :
    ((a.map fun x => (e, x)).filter fun r => r.1 == e').map Prod.snd = if e = e' then a else [] := by
  split_ifs with h
  · rw [List.filter_eq_self.2 (by simp [h]), List.map_map]
    exact List.map_id a
  · rw [List.filter_eq_nil_iff.2 (by simp [h]), List.map_nil]

theorem product_shares {n : Nat} (hn : 1 ≤ n) {values : List K} (hlen : values.length = n * 3)
    (h0 : ∀ x ∈ values, 0 ≤ x) (h1 : values.sum ≤ 1) :
    Spec.SharesOk ((productIndex [0, 1, 2] n).zip values) n 3 := by
  obtain ⟨a, b, c, rfl, ha, hb, hc⟩ : ∃ a b c : List K, values = a ++ (b ++ c) ∧ a.length = n ∧ b.length = n ∧
      c.length = n := by
    refine ⟨values.take n, (values.drop n).take n, (values.drop n).drop n, ?_, ?_, ?_, ?_⟩
    · rw [List.take_append_drop, List.take_append_drop]
    · rw [List.length_take]; omega
    · rw [List.length_take, List.length_drop]; omega
    · rw [List.length_drop, List.length_drop]; omega
  have e : (productIndex [0, 1, 2] n).zip (a ++ (b ++ c))
      = a.map (fun x => (0, x)) ++ (b.map (fun x => (1, x)) ++ c.map fun x => (2, x)) := by
    unfold productIndex
    simp only [List.flatMap_cons, List.flatMap_nil, List.append_nil]
    rw [List.zip_append (by rw [List.length_replicate, ha]), List.zip_append (by rw [List.length_replicate, hb])]
    conv_lhs => rw [← ha, zip_replicate, ha, ← hb, zip_replicate, hb, ← hc, zip_replicate]
  have ga : 0 ≤ a.sum := List.sum_nonneg fun x hx => h0 x (by simp [hx])
  have gb : 0 ≤ b.sum := List.sum_nonneg fun x hx => h0 x (by simp [hx])
  have gc : 0 ≤ c.sum := List.sum_nonneg fun x hx => h0 x (by simp [hx])
  rw [List.sum_append, List.sum_append] at h1
  have key : ∀ l : List K, l.length = n → (∀ x ∈ l, 0 ≤ x) → l.sum ≤ 1 → ∃ x rest, l = x :: rest ∧
      rest.length + 1 = n ∧ (∀ y ∈ rest, 0 ≤ y) ∧ rest.sum ≤ 1 := by
    intro l hl hx hs
    cases l with
    | nil => rw [List.length_nil] at hl; omega
    | cons x rest =>
      refine ⟨x, rest, rfl, hl, fun y hy => hx y (by simp [hy]), ?_⟩
      rw [List.sum_cons] at hs
      have := hx x (by simp)
      linarith
  intro i hi
  rw [e]
  simp only [List.filter_append, List.map_append]
  rw [filter_same, filter_same, filter_same]
  have hi : i = 0 ∨ i = 1 ∨ i = 2 := by omega
  rcases hi with rfl | rfl | rfl
  · simpa using key a ha (fun x hx => h0 x (by simp [hx])) (by linarith)
  · simpa using key b hb (fun x hx => h0 x (by simp [hx])) (by linarith)
  · simpa using key c hc (fun x hx => h0 x (by simp [hx])) (by linarith)

theorem productIndex_length (outer : List Nat) (n : Nat) : (productIndex outer n).length = outer.length * n := by
  unfold productIndex
  induction outer with
  | nil => simp
  | cons e l ih => rw [List.flatMap_cons, List.length_append, ih, List.length_replicate, List.length_cons]; ring

theorem saveDistribution_runs (laws : InitLaws r) (name : String) {constrained : Bool} {n : Int} (hn : 1 ≤ n)
    (hc : constrained = true → n = 1) (p : Process S K) :
    (saveDistribution r name 3 constrained n).Runs p fun _ p' => ∃ rows, Wrote name rows p p' ∧
      Spec.SharesOk rows n.toNat 3 := by
  unfold saveDistribution
  cases constrained with
  | true =>
    rw [hc rfl, if_pos rfl]
    obtain ⟨a, p', h1, h2⟩ := saveShares_runs (K := K) (S := S) name (index := productIndex (List.range 3) 1)
      (values := List.replicate 3 0) rfl p
    exact ⟨a, p', h1, _, h2, product_shares (values := List.replicate 3 0) (n := 1) le_rfl (by simp) (by simp) (by simp)⟩
  | false =>
    rw [if_neg (by simp)]
    refine (uniform_runs laws (by norm_num) (by omega) p).bind fun l p' ⟨hk, hlen, hb⟩ => ?_
    have hl : (normalised l).length = n.toNat * 3 := by
      unfold normalised
      rw [List.length_map]
      omega
    obtain ⟨a, p'', h1, h2⟩ := saveShares_runs (K := K) (S := S) name (index := productIndex [0, 1, 2] n.toNat)
      (values := normalised l) (by rw [productIndex_length, hl]; simp [mul_comm]) p'
    refine ⟨a, p'', h1, _, hk.wrote h2, product_shares (by omega) hl (normalised_nonneg fun x hx => (hb x hx).1) ?_⟩
    rw [normalised_sum]
    refine (sum_pos_of_one_le ?_ fun x hx => (hb x hx).1).ne'
    rintro rfl
    rw [List.length_nil] at hlen
    push_cast at hlen
    omega

/-! ## Tables by period -/

theorem product_periods {T : Nat} {values : List K} (hlen : values.length = T * 3)
    (h : ∀ x ∈ values, 0 ≤ x ∧ x ≤ 1) : Spec.PeriodTable ((productIndex (List.range T) 3).zip values) T 3 := by
  have hl : (productIndex (List.range T) 3).length = values.length := by
    rw [productIndex_length, List.length_range, hlen]
  have hm : ∀ t, t ∈ productIndex (List.range T) 3 ↔ t < T := by
    intro t
    unfold productIndex
    simp
  refine ⟨?_, ?_, ?_⟩
  · intro t ht
    obtain ⟨i, hi, he⟩ := List.getElem_of_mem ((hm t).2 ht)
    have hi' : i < values.length := by omega
    refine ⟨(t, values[i]), ?_, rfl⟩
    rw [List.mem_iff_getElem]
    exact ⟨i, by rw [List.length_zip]; omega, by rw [List.getElem_zip, he]⟩
  · rw [List.filter_eq_self.2, List.length_zip, hl, min_self, hlen]
    intro x hx
    rw [decide_eq_true_iff]
    exact (hm _).1 (List.of_mem_zip (a := x.1) (b := x.2) hx).1
  · intro x hx
    exact h _ (List.of_mem_zip (a := x.1) (b := x.2) hx).2

theorem saveTable_runs (laws : InitLaws r) (name : String) {periods : Int} (hp : 0 ≤ periods) (zero : Bool)
    (p : Process S K) :
    (saveTable r name periods zero).Runs p fun _ p' => ∃ rows, Wrote name rows p p' ∧
      Spec.PeriodTable rows periods.toNat 3 ∧ (zero = true → ∀ x ∈ rows, x.2 = 0) := by
  unfold saveTable
  cases zero with
  | true =>
    dsimp only
    rw [if_pos rfl, if_neg (by omega)]
    obtain ⟨a, p', h1, h2⟩ := saveShares_runs (K := K) (S := S) name
      (index := productIndex (List.range periods.toNat) 3) (values := List.replicate (periods.toNat * 3) 0)
      (by rw [productIndex_length, List.length_range, List.length_replicate]) p
    refine ⟨a, p', h1, _, h2, product_periods (by simp) ?_, fun _ x hx =>
      List.eq_of_mem_replicate (List.of_mem_zip (a := x.1) (b := x.2) hx).2⟩
    intro x hx
    rw [List.eq_of_mem_replicate hx]
    exact ⟨le_rfl, zero_le_one⟩
  | false =>
    dsimp only
    rw [if_neg (by simp)]
    refine (uniform_runs laws zero_le_one (by omega) p).bind fun l p' ⟨hk, hlen, hb⟩ => ?_
    have hl : l.length = periods.toNat * 3 := by omega
    obtain ⟨a, p'', h1, h2⟩ := saveShares_runs (K := K) (S := S) name
      (index := productIndex (List.range periods.toNat) 3) (values := l)
      (by rw [productIndex_length, List.length_range, hl]) p'
    exact ⟨a, p'', h1, _, hk.wrote h2, product_periods hl hb, by simp⟩

/-! ## All files -/

/-- The files that are left behind. -/
structure Fixture (c : Constr) (z : Sizes) (frame : Frame K) (par : ModelParams K) (p p' : Process S K) : Prop where
  store : p'.store = p.store
  params : p'.disk.frames = fun n => if n = "test.soepy.pkl" then some frame else p.disk.frames n
  good : GoodFrame frame par
  spec : p'.disk.specs = fun n => if n = "test.soepy.yml" then some (specObjects z, 0) else p.disk.specs n
  educ : ∃ rows, p'.disk.shares "test.soepy.educ.shares.pkl" = some rows ∧ rows.length = 3 ∧
    ValidProbs (rows.map Prod.snd)
  ages : ∃ rows, p'.disk.shares "test.soepy.child.age.shares.pkl" = some rows ∧
    Spec.SharesOk rows (z.child_age_init_max + 2).toNat 3
  partner : ∃ rows, p'.disk.shares "test.soepy.partner.shares.pkl" = some rows ∧ rows.length = 3 ∧
    ∀ x ∈ rows, 0 ≤ x.2 ∧ x.2 ≤ 1
  pt : ∃ rows, p'.disk.shares "test.soepy.pt.exp.shares.pkl" = some rows ∧
    Spec.SharesOk rows (z.init_exp_max + 1).toNat 3
  ft : ∃ rows, p'.disk.shares "test.soepy.ft.exp.shares.pkl" = some rows ∧
    Spec.SharesOk rows (z.init_exp_max + 1).toNat 3
  births : ∃ rows, p'.disk.shares "test.soepy.child.pkl" = some rows ∧ Spec.PeriodTable rows z.periods.toNat 3
  arrival : ∃ rows, p'.disk.shares "test.soepy.partner.arrival.pkl" = some rows ∧
    Spec.PeriodTable rows z.periods.toNat 3 ∧ (c.partner_arrival = true → ∀ x ∈ rows, x.2 = 0)
  separation : ∃ rows, p'.disk.shares "test.soepy.partner.separation.pkl" = some rows ∧
    Spec.PeriodTable rows z.periods.toNat 3 ∧ (c.partner_separation = true → ∀ x ∈ rows, x.2 = 0)

theorem drawSizes_runs (laws : InitLaws r) (c : Constr) (p : Process S K) :
    (drawSizes r c).Runs p fun z p' => Kept p p' ∧ Spec.Chosen c z := by
  unfold drawSizes
  refine (orRandint_runs laws c.agents (by norm_num) p).bind fun x1 p1 ⟨k1, h1⟩ => ?_
  refine (orRandint_runs laws c.periods (by norm_num) p1).bind fun x2 p2 ⟨k2, h2⟩ => ?_
  refine (orRandint_runs laws c.seed_sim (by norm_num) p2).bind fun x3 p3 ⟨k3, h3⟩ => ?_
  refine (orRandint_runs laws c.seed_emax (by norm_num) p3).bind fun x4 p4 ⟨k4, h4⟩ => ?_
  refine (orRandint_runs laws c.num_draws_emax (by norm_num) p4).bind fun x5 p5 ⟨k5, h5⟩ => ?_
  refine (orRandint_runs laws c.child_age_init_max (by norm_num) p5).bind fun x6 p6 ⟨k6, h6⟩ => ?_
  refine (orRandint_runs laws c.init_exp_max (by norm_num) p6).bind fun x7 p7 ⟨k7, h7⟩ => ?_
  exact Py.Runs.pure ⟨(((((k1.trans k2).trans k3).trans k4).trans k5).trans k6).trans k7,
    rfl, h1, h2, h3, h4, h5, h6, h7⟩

/-- Sizes for which the files can be written. -/
structure Fit (z : Sizes) : Prop where
  years : z.educ_years.length = 3
  periods : 0 ≤ z.periods
  ages : -1 ≤ z.child_age_init_max
  exp : 0 ≤ z.init_exp_max

theorem randomInit_runs (laws : InitLaws r) (c : Constr) (hfit : ∀ z, Spec.Chosen c z → Fit z) (p : Process S K) :
    (randomInit r c).Runs p fun z p' => Spec.Chosen c z ∧ ∃ frame par, Fixture c z frame par p p' := by
  unfold randomInit
  refine (drawSizes_runs laws c p).bind fun z p1 ⟨k1, hz⟩ => ?_
  have hf := hfit z hz
  refine Py.Runs.bind (Q := fun _ p2 => p2.store = p.store ∧ p2.disk.frames = p.disk.frames ∧
    p2.disk.specs = fun n => if n = "test.soepy.yml" then some (specObjects z, 0) else p.disk.specs n)
    ⟨(), _, rfl, k1.1, by rw [← k1.2], by rw [← k1.2]⟩ fun _ p2 ⟨a2, b2, c2⟩ => ?_
  refine (drawFrame_runs laws p2).bind fun frame p3 ⟨k3, par, hgood⟩ => ?_
  refine Py.Runs.bind (Q := fun _ p4 => p4.store = p.store ∧
    (p4.disk.frames = fun n => if n = "test.soepy.pkl" then some frame else p.disk.frames n) ∧
    p4.disk.specs = fun n => if n = "test.soepy.yml" then some (specObjects z, 0) else p.disk.specs n)
    ⟨(), _, rfl, k3.1.trans a2, by rw [← b2, ← k3.2], by rw [← c2, ← k3.2]⟩ fun _ p4 ⟨a4, b4, c4⟩ => ?_
  rw [hf.years]
  refine (uniform_runs laws (by norm_num) (by norm_num) p4).bind fun educ p5 ⟨k5, hlen5, hb5⟩ => ?_
  have hl5 : educ.length = 3 := by exact_mod_cast hlen5
  refine (saveShares_runs _ (by rw [List.length_range, normalised, List.length_map, hl5]) p5).bind fun _ p6 w6 => ?_
  replace w6 := k5.wrote w6
  refine (saveDistribution_runs laws _ (by have := hf.ages; omega) (by intro h; have := of_decide_eq_true h; omega)
    p6).bind fun _ p7 ⟨ages, w7, h7⟩ => ?_
  refine (uniform_runs laws (by norm_num) (by norm_num) p7).bind fun partner p8 ⟨k8, hlen8, hb8⟩ => ?_
  have hl8 : partner.length = 3 := by exact_mod_cast hlen8
  refine (saveShares_runs _ (by rw [hl8]; rfl) p8).bind fun _ p9 w9 => ?_
  replace w9 := k8.wrote w9
  refine (saveDistribution_runs laws _ (by have := hf.exp; omega) (by intro h; have := of_decide_eq_true h; omega)
    p9).bind fun _ p10 ⟨pt, w10, h10⟩ => ?_
  refine (saveDistribution_runs laws _ (by have := hf.exp; omega) (by intro h; have := of_decide_eq_true h; omega)
    p10).bind fun _ p11 ⟨ft, w11, h11⟩ => ?_
  refine (saveTable_runs laws _ hf.periods _ p11).bind fun _ p12 ⟨births, w12, h12⟩ => ?_
  refine (saveTable_runs laws _ hf.periods _ p12).bind fun _ p13 ⟨arrival, w13, h13⟩ => ?_
  refine (saveTable_runs laws _ hf.periods _ p13).bind fun _ p14 ⟨separation, w14, h14⟩ => ?_
  refine Py.Runs.pure ⟨hz, frame, par, ?_⟩
  have hsh : ∀ n, p14.disk.shares n = if n = "test.soepy.partner.separation.pkl" then some separation
      else if n = "test.soepy.partner.arrival.pkl" then some arrival
      else if n = "test.soepy.child.pkl" then some births
      else if n = "test.soepy.ft.exp.shares.pkl" then some ft
      else if n = "test.soepy.pt.exp.shares.pkl" then some pt
      else if n = "test.soepy.partner.shares.pkl" then some ([0, 1, 2].zip partner)
      else if n = "test.soepy.child.age.shares.pkl" then some ages
      else if n = "test.soepy.educ.shares.pkl" then some ((List.range 3).zip (normalised educ))
      else p4.disk.shares n := by
    intro n
    rw [w14.2.2.2, w13.2.2.2, w12.2.2.2, w11.2.2.2, w10.2.2.2, w9.2.2.2, w7.2.2.2, w6.2.2.2]
  have hneu : educ ≠ [] := by rintro rfl; simp at hl5
  refine ⟨?_, ?_, hgood, ?_, ?_, ?_, ?_, ?_, ?_, ?_, ?_, ?_⟩
  · rw [w14.1, w13.1, w12.1, w11.1, w10.1, w9.1, w7.1, w6.1, a4]
  · rw [w14.2.1, w13.2.1, w12.2.1, w11.2.1, w10.2.1, w9.2.1, w7.2.1, w6.2.1, b4]
  · rw [w14.2.2.1, w13.2.2.1, w12.2.2.1, w11.2.2.1, w10.2.2.1, w9.2.2.1, w7.2.2.1, w6.2.2.1, c4]
  · refine ⟨(List.range 3).zip (normalised educ), by rw [hsh]; simp, by simp [normalised, hl5], ?_⟩
    rw [List.map_snd_zip (by simp [normalised, hl5])]
    refine ⟨normalised_nonneg fun x hx => (hb5 x hx).1, ?_⟩
    rw [normalised_sum (sum_pos_of_one_le hneu fun x hx => (hb5 x hx).1).ne']
    norm_num
  · exact ⟨ages, by rw [hsh]; simp, h7⟩
  · refine ⟨[0, 1, 2].zip partner, by rw [hsh]; simp, by simp [hl8], fun x hx => ?_⟩
    exact hb8 _ (List.of_mem_zip (a := x.1) (b := x.2) hx).2
  · exact ⟨pt, by rw [hsh]; simp, h10⟩
  · exact ⟨ft, by rw [hsh]; simp, h11⟩
  · exact ⟨births, by rw [hsh]; simp, h12.1⟩
  · exact ⟨arrival, by rw [hsh]; simp, h13⟩
  · exact ⟨separation, by rw [hsh]; simp, h14⟩

end Soepy
