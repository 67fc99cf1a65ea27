import Verif.Props.Attributes
import Verif.Props.Types
import Verif.Proof.Shocks

/-!
# Property C86: the number of types
-/

set_option linter.unusedSectionVars false

namespace Soepy.Props
open Soepy
variable {S K : Type} [Field K] [LinearOrder K]

private theorem dset_length {α : Type} (d : Dict α) (k : String) (v : α) :
    (dset d k v).length = if k ∈ d.map Prod.fst then d.length else d.length + 1 := by
  induction d with
  | nil => simp [dset]
  | cons y ys ih =>
    unfold dset
    by_cases h : y.1 = k
    · simp [h]
    · have h' : ¬ k = y.1 := fun e => h e.symm
      rw [if_neg h, List.length_cons, ih]
      simp only [List.map_cons, List.mem_cons, h', false_or, List.length_cons]
      split_ifs <;> rfl

private theorem dset_mem_keys {α : Type} (d : Dict α) (k : String) (v : α) (x : String) :
    x ∈ (dset d k v).map Prod.fst ↔ x = k ∨ x ∈ d.map Prod.fst := by
  induction d with
  | nil => simp [dset]
  | cons y ys ih =>
    unfold dset
    by_cases h : y.1 = k
    · subst h; simp
    · rw [if_neg h, List.map_cons, List.mem_cons, ih]
      simp only [List.map_cons, List.mem_cons]
      tauto

/-- A dictionary made from rows is not longer than the rows, and shorter if a name is repeated. -/
private theorem foldl_dset_length (rs : List (String × String × K)) (acc : Dict K) :
    (rs.foldl (fun i r => dset i r.2.1 r.2.2) acc).length ≤ acc.length + rs.length ∧
    ((rs.foldl (fun i r => dset i r.2.1 r.2.2) acc).length = acc.length + rs.length →
      (rs.map fun r => r.2.1).Nodup ∧ ∀ r ∈ rs, r.2.1 ∉ acc.map Prod.fst) := by
  induction rs generalizing acc with
  | nil => simp
  | cons r rs ih =>
    rw [List.foldl_cons]
    obtain ⟨h1, h2⟩ := ih (dset acc r.2.1 r.2.2)
    have hl := dset_length acc r.2.1 r.2.2
    by_cases hm : r.2.1 ∈ acc.map Prod.fst
    · rw [if_pos hm] at hl
      rw [hl] at h1
      simp only [List.length_cons]
      refine ⟨by omega, fun h => absurd h (by omega)⟩
    · rw [if_neg hm] at hl
      rw [hl] at h1 h2
      simp only [List.length_cons]
      refine ⟨by omega, fun h => ?_⟩
      obtain ⟨k1, k2⟩ := h2 (by omega)
      constructor
      · rw [List.map_cons, List.nodup_cons]
        refine ⟨fun hc => ?_, k1⟩
        obtain ⟨r', hr', e⟩ := List.mem_map.1 hc
        exact k2 r' hr' ((dset_mem_keys _ _ _ _).2 (Or.inl e))
      · intro r' hr'
        rcases List.mem_cons.1 hr' with rfl | hr'
        · exact hm
        · exact fun hc => k2 r' hr' ((dset_mem_keys _ _ _ _).2 (Or.inr hc))

/-- **C86**  A readable frame never has more shares (with that of the baseline type) than rows of
category `shares` plus one, and as many exactly if the rows are named as the code expects. -/
theorem C86_shares {frame : Frame K} {par : ModelParams K} (h : readModelParams frame = .ok par) :
    par.type_shares.length ≤ (Spec.rowsOf frame "shares").length + 1 ∧
    (par.type_shares.length = (Spec.rowsOf frame "shares").length + 1 ↔ Spec.SharesNamed frame) := by
  have hgen : ∃ d : Dict K, par.type_shares.length = (d.filter fun kv => pyIn "share" kv.1).length + 1 ∧
      d = (frame.filter fun r => decide (r.1 = "shares")).foldl (fun i r => dset i r.2.1 r.2.2) [] := by
    unfold readModelParams at h
    obtain ⟨⟨d, der⟩, h1, h2⟩ := bind_ok.1 h
    rw [(groupParameters_ok h2).shares]
    unfold expandModelParamsDict at h1
    obtain ⟨sd, -, h1⟩ := bind_ok.1 h1
    obtain ⟨s, -, h1⟩ := bind_ok.1 h1
    rw [paramsDict_lookup] at h1
    by_cases hs : (frame.filter fun r => decide (r.1 = "shares")) = []
    · rw [if_pos hs] at h1
      dsimp only at h1
      obtain ⟨het, -, h1⟩ := bind_ok.1 h1
      simp only [pure_ok, Prod.mk.injEq] at h1
      obtain ⟨-, rfl⟩ := h1
      refine ⟨_, ?_, rfl⟩
      rw [hs]
      rfl
    · rw [if_neg hs] at h1
      dsimp only at h1
      obtain ⟨het, -, h1⟩ := bind_ok.1 h1
      simp only [pure_ok, Prod.mk.injEq] at h1
      obtain ⟨-, rfl⟩ := h1
      exact ⟨_, by simp, rfl⟩
  obtain ⟨d, e1, e2⟩ := hgen
  obtain ⟨l1, l2⟩ := foldl_dset_length (frame.filter fun r => decide (r.1 = "shares")) []
  rw [← e2] at l1 l2
  have hlen : (Spec.rowsOf frame "shares").length
      = (frame.filter fun r => decide (r.1 = "shares")).length := by simp [Spec.rowsOf]
  have hf : (d.filter fun kv => pyIn "share" kv.1).length ≤ d.length := List.length_filter_le _ _
  simp only [List.length_nil, Nat.zero_add] at l1 l2
  refine ⟨by omega, ?_⟩
  have hnames : (Spec.rowsOf frame "shares").map Prod.fst
      = (frame.filter fun r => decide (r.1 = "shares")).map fun r => r.2.1 := by
    simp [Spec.rowsOf]
  constructor
  · intro heq
    have hd : d.length = (frame.filter fun r => decide (r.1 = "shares")).length := by omega
    obtain ⟨n1, -⟩ := l2 hd
    have hnew : d = (frame.filter fun r => decide (r.1 = "shares")).map fun r => r.2 := by
      rw [e2, foldl_dset_new (by simpa using n1)]
      rfl
    refine ⟨by rw [hnames]; exact n1, ?_⟩
    have hall := List.length_filter_eq_length_iff.1 (show
      (d.filter fun kv => pyIn "share" kv.1).length = d.length by omega)
    intro r hr
    have : r ∈ d := by rw [hnew]; exact hr
    simpa [pyIn] using hall r this
  · rintro ⟨n1, n2⟩
    have hnew : d = (frame.filter fun r => decide (r.1 = "shares")).map fun r => r.2 := by
      rw [e2, foldl_dset_new (by rw [hnames] at n1; simpa using n1)]
      rfl
    have hall : (d.filter fun kv => pyIn "share" kv.1).length = d.length := by
      rw [List.length_filter_eq_length_iff]
      intro r hr
      rw [hnew] at hr
      simpa [pyIn] using n2 r hr
    rw [e1, hall, hnew, hlen, List.length_map]

/-- **C86**  `expand_model_params_dict` counts the types it lists the shares of. (`group_parameters` drops
the count; the solver takes its own, `C86_number_of_types`.) -/
theorem C86_derived_count {d d' : Dict (Dict K)} {der : DerivedAttr K}
    (h : expandModelParamsDict d = .ok (d', der)) : der.num_types = der.type_shares.length := by
  unfold expandModelParamsDict at h
  obtain ⟨sd, -, h⟩ := bind_ok.1 h
  obtain ⟨s, -, h⟩ := bind_ok.1 h
  cases hs : d.lookup "shares" with
  | none =>
    rw [hs] at h
    obtain ⟨het, -, h⟩ := bind_ok.1 h
    simp only [pure_ok, Prod.mk.injEq] at h
    obtain ⟨-, rfl⟩ := h
    rfl
  | some sh =>
    rw [hs] at h
    obtain ⟨het, -, h⟩ := bind_ok.1 h
    simp only [pure_ok, Prod.mk.injEq] at h
    obtain ⟨-, rfl⟩ := h
    rfl

/-- A dictionary with two shares: three types. -/
example : ∃ d' der, expandModelParamsDict (K := ℚ)
    [("sd_wage_shock", [("sigma", 1/2)]), ("shares", [("share_1", 1/5), ("share_2", 1/5)]),
      ("hetrg_unobs", [])] = .ok (d', der) ∧ der.num_types = 3 ∧ der.type_shares = [3/5, 1/5, 1/5] := by
  refine ⟨_, _, rfl, ?_, ?_⟩ <;> decide +kernel

variable [IsStrictOrderedRing K] [FloorRing K] [Transc K]

/-- **C86**  The solver distinguishes as many types as there are rows of category `shares`, plus the
baseline type. -/
theorem C86_number_of_types {st st' : Store K} {a : Nat} {top : Dict (Val K)} {G : String → Nat}
    {D : String → Dict (Val K)} {spec : ModelSpec K} {frame : Frame K} (hc : Closed st)
    (h : Spec.IsSpecDict st a top G D)
    (hr : readModelSpec st a (specNumTypes frame) = .ok (st', spec)) :
    spec.num_types = (Spec.rowsOf frame "shares").length + 1 := by
  obtain ⟨y, m, d', x, grid, h1, h2, h3, h4, h5, hF⟩ := read_fields hc h hr
  have k := Except.ok.inj ((attrNat_eq (flat_derived h h3 m (specNumTypes frame)).2).symm.trans
    hF.num_types)
  rw [← k]
  unfold specNumTypes Spec.rowsOf
  rw [List.length_map]
  simp only [beq_eq_decide]

/-- **C86**  A simulation that returns has a share for every type the solver distinguishes, none of them
negative; with the previous theorems, the rows of category `shares` are then named as the code expects. -/
theorem C86_simulated_types {env : Env S K} {frame : Frame K} {a : Nat} {biased sparse : Bool}
    {w : World S K} {par : ModelParams K} {spec : ModelSpec K} {rows : List (OutRow K)}
    (h : Spec.Output env frame a biased sparse w par spec rows) :
    par.type_shares.length = spec.num_types ∧ (∀ y ∈ par.type_shares, 0 ≤ y) ∧
    (∀ top G D, Spec.IsSpecDict w.store a top G D → Spec.SharesNamed frame) := by
  have key : par.type_shares.length = spec.num_types ∧ ∀ y ∈ par.type_shares, 0 ≤ y := by
    obtain ⟨c, g1, sol, hc, hs, ⟨g2, hp⟩, -⟩ := output_run h
    unfold pythSimulate at hp
    dsimp only at hp
    obtain ⟨x, hp, -⟩ := bind_ok.1 hp
    unfold prepareSimulationData at hp
    dsimp only at hp
    obtain ⟨⟨educs, g1⟩, heduc, hp⟩ := bind_ok.1 hp
    obtain ⟨periods, hper, hp⟩ := bind_ok.1 hp
    obtain ⟨⟨arrs, g2⟩, hloop, hp⟩ := bind_ok.1 hp
    obtain ⟨ages, hage, hp⟩ := bind_ok.1 hp
    obtain ⟨partners, hpart, hp⟩ := bind_ok.1 hp
    obtain ⟨pts, hpt, hp⟩ := bind_ok.1 hp
    obtain ⟨fts, hft, hp⟩ := bind_ok.1 hp
    obtain ⟨⟨types, g3⟩, hty, hp⟩ := bind_ok.1 hp
    obtain ⟨-, k1, k2, -⟩ := npChoice_ok_iff.1 hty
    exact ⟨k1, k2.1⟩
  refine ⟨key.1, key.2, fun top G D hd => ?_⟩
  obtain ⟨st', hr⟩ := h.spec_ok
  rw [← (C86_shares h.params).2, key.1, C86_number_of_types h.closed hd hr]

/-- **C86**  With a repeated row of category `shares`, or one whose name does not contain "share",
`simulate` never returns a data set. -/
theorem C86_misnamed_shares_raise {env : Env S K} {frame : Frame K} {a : Nat} {biased sparse : Bool}
    {w : World S K} {top : Dict (Val K)} {G : String → Nat} {D : String → Dict (Val K)}
    (hl : RngLaws env.rng) (hc : Closed w.store) (hd : Spec.IsSpecDict w.store a top G D)
    (hn : ¬ Spec.SharesNamed frame) :
    ∃ e, simulate env frame a biased sparse w = .error e := by
  cases h : simulate env frame a biased sparse w with
  | error e => exact ⟨e, rfl⟩
  | ok r =>
    exfalso
    obtain ⟨rows, w'⟩ := r
    have ha := spec_lt hd
    obtain ⟨par, spec, st1, c, g1, g2, h1, h2, h3, h4⟩ := (simulate_ok hc ha).1 ⟨w', h⟩
    exact hn ((C86_simulated_types (par := par) (spec := spec)
      ⟨hl, hc, ha, h1, ⟨st1, h2⟩, ⟨w', h⟩⟩).2.2 top G D hd)

/-- The frame of the example is named correctly and has two types. -/
example : Spec.SharesNamed exFrame ∧ Spec.rowsOf exFrame "shares" = [("share_1", 2/5)] := by
  have h : Spec.rowsOf exFrame "shares" = [("share_1", 2/5)] := by decide +kernel
  unfold Spec.SharesNamed
  rw [h]
  refine ⟨⟨by simp, ?_⟩, rfl⟩
  intro r hr
  simp only [List.mem_singleton] at hr
  subst hr
  decide +kernel

/-- A frame with a misnamed row can be read and loses a type. -/
example : ∃ par, readModelParams (exFrame ++ [("shares", "fraction_2", 1/10)]) = .ok par ∧
    par.type_shares.length = 2 ∧
    (Spec.rowsOf (exFrame ++ [("shares", "fraction_2", 1/10)]) "shares").length + 1 = 3 := by
  have h : (readModelParams (exFrame ++ [("shares", "fraction_2", 1/10)])).toOption.map
      (fun p => p.type_shares.length) = some 2 := by decide +kernel
  cases hr : readModelParams (exFrame ++ [("shares", "fraction_2", 1/10)]) with
  | error e => rw [hr] at h; cases h
  | ok par =>
    rw [hr] at h
    exact ⟨par, rfl, Option.some.inj h, by decide +kernel⟩

/-- With this frame the simulation of the example raises. -/
example [Transc ℚ] {f : FileData} (hf : f.Ok 4) (hermite : Nat → List ℚ × List ℚ) (biased sparse : Bool)
    (g : Nat) : ∃ e, simulate (simEnv f hermite) (exFrame ++ [("shares", "fraction_2", 1/10)]) 0 biased
      sparse { rng := g, store := exStore } = .error e := by
  obtain ⟨rows, h⟩ := exOutput hf hermite biased sparse g
  refine C86_misnamed_shares_raise h.laws exStore_closed exStore_isSpecDict ?_
  rintro ⟨-, hn⟩
  have := hn ("fraction_2", 1/10) (by decide +kernel)
  revert this
  decide +kernel

end Soepy.Props
