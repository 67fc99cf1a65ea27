import Verif.Spec.Attributes
import Verif.Proof.Types
import Verif.Proof.ReadTax

/-! Where the fields of the processed parameters come from. -/

set_option linter.unusedSectionVars false

namespace Soepy
variable {K : Type} [Field K] [LinearOrder K]

theorem lookup_foldl_rows (rs : List (String × String × K)) (acc : Dict K) (k : String) :
    (rs.foldl (fun i r => dset i r.2.1 r.2.2) acc).lookup k =
      (((rs.filter fun r => decide (r.2.1 = k)).getLast?).map fun r => r.2.2).or (acc.lookup k) := by
  induction rs generalizing acc with
  | nil => simp
  | cons r rs ih =>
    rw [List.foldl_cons, ih, lookup_dset]
    by_cases h : r.2.1 = k
    · rw [List.filter_cons_of_pos (by simpa using h), if_pos h.symm, List.getLast?_cons]
      cases (rs.filter fun r => decide (r.2.1 = k)).getLast? <;> simp
    · rw [List.filter_cons_of_neg (by simpa using h), if_neg fun e => h e.symm]

/-- Looking up a parameter by category and name. -/
theorem paramsDict_row {rows : List (String × String × K)} {c k : String} {d : Dict K} {v : K}
    (h1 : dget (paramsDict rows) c = .ok d) (h2 : dget d k = .ok v) : Spec.rowValue rows c k = some v := by
  have h1 := dget_ok h1
  have h2 := dget_ok h2
  rw [paramsDict_lookup] at h1
  split_ifs at h1
  obtain rfl := Option.some.inj h1
  rw [lookup_foldl_rows, List.lookup_nil, Option.or_none, List.filter_filter] at h2
  unfold Spec.rowValue
  rw [← h2]
  congr 2
  refine List.filter_congr fun r _ => ?_
  by_cases e1 : r.1 = c <;> by_cases e2 : r.2.1 = k <;> simp [e1, e2]

theorem educArray_ok {cat : Dict K} {p : String} {l : List K} (h : educArray cat p = .ok l) :
    l.length = cat.length ∧ 3 ≤ cat.length ∧
      (∃ v, dget cat (p ++ "_low") = .ok v ∧ l[0]? = some v) ∧
      (∃ v, dget cat (p ++ "_middle") = .ok v ∧ l[1]? = some v) ∧
      (∃ v, dget cat (p ++ "_high") = .ok v ∧ l[2]? = some v) ∧ ∀ i : Nat, 3 ≤ i → i < l.length → l[i]? = some 0 := by
  unfold educArray at h
  dsimp only at h
  rw [List.length_replicate] at h
  obtain ⟨low, h1, h⟩ := bind_ok.1 h
  by_cases c0 : 0 < cat.length
  swap
  · rw [if_neg c0, error_bind] at h; cases h
  rw [if_pos c0, ok_bind] at h
  obtain ⟨mid, h2, h⟩ := bind_ok.1 h
  by_cases c1 : 1 < cat.length
  swap
  · rw [if_neg c1, error_bind] at h; cases h
  rw [if_pos c1, ok_bind] at h
  obtain ⟨high, h3, h⟩ := bind_ok.1 h
  by_cases c2 : 2 < cat.length
  swap
  · rw [if_neg c2] at h; cases h
  rw [if_pos c2, pure_ok] at h
  subst h
  refine ⟨by simp, by omega, ⟨low, h1, ?_⟩, ⟨mid, h2, ?_⟩, ⟨high, h3, ?_⟩, ?_⟩
  · rw [List.getElem?_set_ne (by omega), List.getElem?_set_ne (by omega), List.getElem?_set_self (by simpa using c0)]
  · rw [List.getElem?_set_ne (by omega), List.getElem?_set_self (by simpa using c1)]
  · rw [List.getElem?_set_self (by simpa using c2)]
  · intro i hi hl
    rw [List.getElem?_set_ne (by omega), List.getElem?_set_ne (by omega), List.getElem?_set_ne (by omega),
      List.getElem?_replicate, if_pos (by simpa using hl)]

theorem kidsArray_ok {dis : Dict K} {key : String} {l : List K} (h : kidsArray dis key = .ok l) :
    l.length = 3 ∧
      (∃ v, dget dis (key ++ "_educ_low") = .ok v ∧ l[0]? = some v) ∧
      (∃ v, dget dis (key ++ "_educ_middle") = .ok v ∧ l[1]? = some v) ∧
      (∃ v, dget dis (key ++ "_educ_high") = .ok v ∧ l[2]? = some v) := by
  unfold kidsArray at h
  obtain ⟨a, h1, h⟩ := bind_ok.1 h
  obtain ⟨b, h2, h⟩ := bind_ok.1 h
  obtain ⟨c, h3, h⟩ := bind_ok.1 h
  rw [pure_ok] at h
  subst h
  exact ⟨rfl, ⟨_, h1, rfl⟩, ⟨_, h2, rfl⟩, ⟨_, h3, rfl⟩⟩

/-- Only category `hetrg_unobs` is changed by `expand_model_params_dict`. -/
theorem expandModelParamsDict_dget {d d' : Dict (Dict K)} {der : DerivedAttr K}
    (h : expandModelParamsDict d = .ok (d', der)) {c : String} (hc : c ≠ "hetrg_unobs") :
    dget d' c = dget d c := by
  unfold expandModelParamsDict at h
  obtain ⟨sd, -, h⟩ := bind_ok.1 h
  obtain ⟨s, -, h⟩ := bind_ok.1 h
  unfold dget
  cases hl : d.lookup "shares" with
  | none =>
    rw [hl] at h
    dsimp only at h
    obtain ⟨het, -, h⟩ := bind_ok.1 h
    simp only [pure_ok, Prod.mk.injEq] at h
    obtain ⟨rfl, -⟩ := h
    rw [lookup_dset, if_neg hc, lookup_dset, if_neg hc]
  | some sh =>
    rw [hl] at h
    dsimp only at h
    obtain ⟨het, -, h⟩ := bind_ok.1 h
    simp only [pure_ok, Prod.mk.injEq] at h
    obtain ⟨rfl, -⟩ := h
    rw [lookup_dset, if_neg hc]

theorem expandModelParamsDict_sd {d d' : Dict (Dict K)} {der : DerivedAttr K}
    (h : expandModelParamsDict d = .ok (d', der)) :
    ∃ sd, dget d "sd_wage_shock" = .ok sd ∧ dget sd "sigma" = .ok der.shock_sd := by
  unfold expandModelParamsDict at h
  obtain ⟨sd, h1, h⟩ := bind_ok.1 h
  obtain ⟨s, h2, h⟩ := bind_ok.1 h
  refine ⟨sd, h1, ?_⟩
  rw [h2]
  cases hl : d.lookup "shares" with
  | none =>
    rw [hl] at h
    dsimp only at h
    obtain ⟨het, -, h⟩ := bind_ok.1 h
    simp only [pure_ok, Prod.mk.injEq] at h
    obtain ⟨-, rfl⟩ := h
    rfl
  | some sh =>
    rw [hl] at h
    dsimp only at h
    obtain ⟨het, -, h⟩ := bind_ok.1 h
    simp only [pure_ok, Prod.mk.injEq] at h
    obtain ⟨-, rfl⟩ := h
    rfl

/-- What `group_parameters` reads. -/
structure Grouped (d : Dict (Dict K)) (der : DerivedAttr K) (par : ModelParams K) : Prop where
  g0 : ∃ c, dget d "const_wage_eq" = .ok c ∧ educArray c "gamma_0" = .ok par.gamma_0
  g1 : ∃ c, dget d "exp_return" = .ok c ∧ educArray c "gamma_1" = .ok par.gamma_1
  gp : ∃ c, dget d "exp_increase_p" = .ok c ∧ educArray c "gamma_p" = .ok par.gamma_p
  gpm : ∃ c, dget d "exp_increase_p_mom" = .ok c ∧ dget c "gamma_p_mom" = .ok par.gamma_p_mom
  dis : ∃ c, dget d "disutil_work" = .ok c ∧
    dget c "child_0_2_f" = .ok par.child_0_2_f ∧ dget c "child_0_2_p" = .ok par.child_0_2_p ∧
    dget c "child_3_5_f" = .ok par.child_3_5_f ∧ dget c "child_3_5_p" = .ok par.child_3_5_p ∧
    dget c "child_6_10_f" = .ok par.child_6_10_f ∧ dget c "child_6_10_p" = .ok par.child_6_10_p ∧
    kidsArray c "no_kids_f" = .ok par.no_kids_f ∧ kidsArray c "no_kids_p" = .ok par.no_kids_p ∧
    kidsArray c "yes_kids_f" = .ok par.yes_kids_f ∧ kidsArray c "yes_kids_p" = .ok par.yes_kids_p
  delta : ∃ c, dget d "discount" = .ok c ∧ dget c "delta" = .ok par.delta
  mu : ∃ c, dget d "risk" = .ok c ∧ dget c "mu" = .ok par.mu
  sd : par.shock_sd = der.shock_sd
  shares : par.type_shares = der.type_shares

theorem groupParameters_ok {d : Dict (Dict K)} {der : DerivedAttr K} {par : ModelParams K}
    (h : groupParameters d der = .ok par) : Grouped d der par := by
  unfold groupParameters at h
  obtain ⟨c0, a0, h⟩ := bind_ok.1 h
  obtain ⟨g0, b0, h⟩ := bind_ok.1 h
  obtain ⟨c1, a1, h⟩ := bind_ok.1 h
  obtain ⟨g1, b1, h⟩ := bind_ok.1 h
  obtain ⟨c2, a2, h⟩ := bind_ok.1 h
  obtain ⟨g2, b2, h⟩ := bind_ok.1 h
  obtain ⟨c3, a3, h⟩ := bind_ok.1 h
  obtain ⟨g3, b3, h⟩ := bind_ok.1 h
  obtain ⟨c4, a4, h⟩ := bind_ok.1 h
  obtain ⟨x1, e1, h⟩ := bind_ok.1 h
  obtain ⟨x2, e2, h⟩ := bind_ok.1 h
  obtain ⟨x3, e3, h⟩ := bind_ok.1 h
  obtain ⟨x4, e4, h⟩ := bind_ok.1 h
  obtain ⟨x5, e5, h⟩ := bind_ok.1 h
  obtain ⟨x6, e6, h⟩ := bind_ok.1 h
  obtain ⟨x7, e7, h⟩ := bind_ok.1 h
  obtain ⟨x8, e8, h⟩ := bind_ok.1 h
  obtain ⟨x9, e9, h⟩ := bind_ok.1 h
  obtain ⟨x10, e10, h⟩ := bind_ok.1 h
  obtain ⟨c5, a5, h⟩ := bind_ok.1 h
  obtain ⟨x11, e11, h⟩ := bind_ok.1 h
  obtain ⟨c6, a6, h⟩ := bind_ok.1 h
  obtain ⟨x12, e12, h⟩ := bind_ok.1 h
  obtain ⟨het, -, h⟩ := bind_ok.1 h
  rw [pure_ok] at h
  subst h
  exact ⟨⟨_, a0, b0⟩, ⟨_, a1, b1⟩, ⟨_, a2, b2⟩, ⟨_, a3, b3⟩, ⟨_, a4, e1, e2, e3, e4, e5, e6, e7, e8, e9, e10⟩,
    ⟨_, a5, e11⟩, ⟨_, a6, e12⟩, rfl, rfl⟩

/-! ## Reading attributes backwards -/

variable {flat : Dict (Val K)} {k : String}

theorem attr_ok {v : Val K} (h : attr flat k = .ok v) : flat.lookup k = some v := by
  unfold attr at h
  split at h
  · rename_i w hw
    rw [hw, Except.ok.inj h]
  · cases h

theorem attrInt_ok {i : Int} (h : attrInt flat k = .ok i) : flat.lookup k = some (.int i) := by
  unfold attrInt at h
  obtain ⟨v, h1, h⟩ := bind_ok.1 h
  rw [attr_ok h1]
  cases v <;> simp_all [pure, Except.pure, throw, throwThe, MonadExceptOf.throw]

theorem attrNat_ok {i : Nat} (h : attrNat flat k = .ok i) : flat.lookup k = some (.int i) := by
  unfold attrNat at h
  obtain ⟨j, h1, h⟩ := bind_ok.1 h
  split_ifs at h with hj
  rw [pure_ok] at h
  rw [attrInt_ok h1, ← h, Int.toNat_of_nonneg (not_lt.1 hj)]

theorem attrStr_ok {s : String} (h : attrStr flat k = .ok s) : flat.lookup k = some (.str s) := by
  unfold attrStr at h
  obtain ⟨v, h1, h⟩ := bind_ok.1 h
  rw [attr_ok h1]
  cases v <;> simp_all [pure, Except.pure, throw, throwThe, MonadExceptOf.throw]

theorem attrNum_ok {x : K} (h : attrNum flat k = .ok x) : ∃ v, flat.lookup k = some v ∧ Spec.IsNum v x := by
  unfold attrNum at h
  obtain ⟨v, h1, h⟩ := bind_ok.1 h
  exact ⟨v, attr_ok h1, (toNum_iff v x).1 h⟩

end Soepy
