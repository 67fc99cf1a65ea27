import Verif.Model.RandomInit
import Verif.Spec.Rebuilt
import Verif.Proof.RandomSpec
import Verif.Props.Processing

/-!
# The dictionary of a specification, rebuilt (C102)

`random_init.py` contains a function that turns the attributes of a specification into a nested dictionary "as in the
init file".  The dictionary is not an init file: reading it always fails.
-/

set_option linter.unusedSectionVars false

namespace Soepy.Props
open Soepy
variable {K : Type} [Field K] [LinearOrder K] [IsStrictOrderedRing K] [FloorRing K] [Transc K]

section
variable {st st' : Store K} {flat : Dict (Val K)} {a : Nat}

private theorem rebuildGroup_ok {flat : Dict (Val K)} : ∀ {keys : List String} {d : Dict (Val K)},
    rebuildGroup flat keys = .ok d →
    d.map Prod.fst = keys ∧ (∀ k ∈ keys, d.lookup k = flat.lookup k ∧ (flat.lookup k).isSome = true)
      ∧ (∀ k, k ∉ keys → d.lookup k = none) ∧ ∀ kv ∈ d, flat.lookup kv.1 = some kv.2
  | [], d, h => by
    cases h
    simp
  | k :: keys, d, h => by
    obtain ⟨y, ys, h1, h2, rfl⟩ := mapE_cons_ok.1 h
    obtain ⟨v, hv, h3⟩ := bind_ok.1 h1
    cases pure_ok.1 h3
    have hv := dget_ok hv
    obtain ⟨i1, i2, i3, i4⟩ := rebuildGroup_ok h2
    refine ⟨by simp [i1], fun k' hk' => ?_, fun k' hk' => ?_, ?_⟩
    · rw [lookup_cons_ite]
      split
      · next he => subst he; simp [hv]
      · next he => exact i2 k' ((List.mem_cons.1 hk').resolve_left he)
    · rw [List.mem_cons, not_or] at hk'
      rw [lookup_cons_ite, if_neg hk'.1]
      exact i3 k' hk'.2
    · intro kv hkv
      rcases List.mem_cons.1 hkv with rfl | h
      · exact hv
      · exact i4 kv h

private theorem rebuildGroup_error {flat : Dict (Val K)} {e : PyErr} : ∀ {keys : List String},
    rebuildGroup flat keys = .error e → ∃ before k after, keys = before ++ k :: after ∧ e = .keyError k ∧
      flat.lookup k = none ∧ ∀ k' ∈ before, (flat.lookup k').isSome = true
  | [], h => by cases h
  | k :: keys, h => by
    unfold rebuildGroup at h
    rw [mapE] at h
    cases hv : flat.lookup k with
    | none =>
      refine ⟨[], k, keys, rfl, ?_, hv, by simp⟩
      simp only [dget, hv, error_bind] at h
      cases h
      rfl
    | some v =>
      simp only [dget_eq hv, ok_bind] at h
      cases hr : rebuildGroup flat keys with
      | ok d =>
        unfold rebuildGroup at hr
        simp only [hr] at h
        cases h
      | error e' =>
        obtain ⟨b, k', c, rfl, h2, h3, h4⟩ := rebuildGroup_error hr
        unfold rebuildGroup at hr
        simp only [hr] at h
        cases h
        refine ⟨k :: b, k', c, rfl, h2, h3, ?_⟩
        intro x hx
        rcases List.mem_cons.1 hx with rfl | hx
        · simp [hv]
        · exact h4 x hx

private theorem groups_error {flat : Dict (Val K)} {e : PyErr} : ∀ {gs : List (String × List String)},
    mapE (fun g => rebuildGroup flat g.2) gs = .error e →
    ∃ before k after, gs.flatMap Prod.snd = before ++ k :: after ∧ e = .keyError k ∧
      flat.lookup k = none ∧ ∀ k' ∈ before, (flat.lookup k').isSome = true
  | [], h => by cases h
  | g :: gs, h => by
    rw [mapE] at h
    cases hg : rebuildGroup flat g.2 with
    | error e' =>
      rw [hg] at h
      cases h
      obtain ⟨b, k, c, h1, h2⟩ := rebuildGroup_error hg
      exact ⟨b, k, c ++ gs.flatMap Prod.snd, by rw [List.flatMap_cons, h1]; simp, h2⟩
    | ok d =>
      rw [hg] at h
      cases hr : mapE (fun g => rebuildGroup flat g.2) gs with
      | ok ds => rw [hr] at h; cases h
      | error e' =>
        rw [hr] at h
        cases h
        obtain ⟨b, k, c, h1, h2, h3, h4⟩ := groups_error hr
        refine ⟨g.2 ++ b, k, c, by rw [List.flatMap_cons, h1]; simp, h2, h3, ?_⟩
        intro x hx
        rcases List.mem_append.1 hx with hx | hx
        · have := rebuildGroup_ok hg
          exact (this.2.1 x hx).2
        · exact h4 x hx

/-- The order in which the attributes are read. -/
def readingOrder : List String :=
  ["GENERAL", "EDUC", "SIMULATION", "SOLUTION", "TAXES_TRANSFERS", "INITIAL_CONDITIONS", "EXOG_PROC"].flatMap Spec.kept

/-- **C102**  If the function fails, then because of the first of the listed attributes that the specification does
not have. -/
theorem C102_missing {e : PyErr} (h : initDictFlatToInitDict st flat = .error e) :
    ∃ before k after, readingOrder = before ++ k :: after ∧ e = .keyError k ∧ flat.lookup k = none ∧
      ∀ k' ∈ before, (flat.lookup k').isSome = true := by
  have ho : readingOrder = rebuiltKeys.flatMap Prod.snd := by decide +kernel
  rw [ho]
  unfold initDictFlatToInitDict at h
  cases hg : mapE (fun g => rebuildGroup flat g.2) rebuiltKeys with
  | error e' =>
    rw [hg, error_bind] at h
    cases h
    exact groups_error hg
  | ok ds => rw [hg, ok_bind] at h; cases h

/-- Where a group lies among the new objects. -/
private def place (g : String) : Nat :=
  ["GENERAL", "EDUC", "SIMULATION", "SOLUTION", "TAXES_TRANSFERS", "INITIAL_CONDITIONS", "EXOG_PROC"].idxOf g

private theorem rebuilt_shape (h : initDictFlatToInitDict st flat = .ok (st', a)) :
    ∃ groups : List (Dict (Val K)), groups.length = 7 ∧ a = st.length + 7 ∧
      st' = st ++ groups.map .dict ++ [.dict (rebuiltKeys.zipIdx.map fun g => (g.1.1, .ref (st.length + g.2)))] ∧
      ∀ g ∈ Spec.userGroups, ∃ d, groups[place g]? = some d ∧ rebuildGroup flat (Spec.kept g) = .ok d := by
  unfold initDictFlatToInitDict at h
  obtain ⟨groups, hg, h⟩ := bind_ok.1 h
  cases pure_ok.1 h
  have hl : groups.length = 7 := mapE_length hg
  refine ⟨groups, hl, by rw [hl], rfl, ?_⟩
  intro g hgm
  have hp : place g < rebuiltKeys.length ∧ (rebuiltKeys[place g]?).map Prod.snd = some (Spec.kept g) := by
    revert g
    decide +kernel
  obtain ⟨h1, h2⟩ := hp
  have hp2 : place g < groups.length := by rw [hl]; exact h1
  refine ⟨groups[place g], List.getElem?_eq_getElem hp2, ?_⟩
  have := mapE_get hg (place g) h1 hp2
  rw [List.getElem?_eq_getElem h1] at h2
  simp only [Option.map_some, Option.some.injEq] at h2
  rw [← h2]
  exact this

/-- **C102**  The function returns if and only if the specification has all listed attributes. -/
theorem C102_returns_iff :
    (∃ r, initDictFlatToInitDict st flat = .ok r) ↔ ∀ g ∈ Spec.userGroups, ∀ k ∈ Spec.kept g, (flat.lookup k).isSome := by
  constructor
  · rintro ⟨⟨st', a⟩, h⟩ g hg k hk
    obtain ⟨groups, -, -, -, h4⟩ := rebuilt_shape h
    obtain ⟨d, -, hd⟩ := h4 g hg
    exact ((rebuildGroup_ok hd).2.1 k hk).2
  · intro h
    cases hr : initDictFlatToInitDict st flat with
    | ok r => exact ⟨r, rfl⟩
    | error e =>
      obtain ⟨b, k, c, h1, -, h3, -⟩ := C102_missing hr
      have hk : k ∈ readingOrder := by rw [h1]; simp
      have hall : ∀ k ∈ readingOrder, ∃ g ∈ Spec.userGroups, k ∈ Spec.kept g := by decide +kernel
      obtain ⟨g, hg, hk⟩ := hall k hk
      have := h g hg k hk
      rw [h3] at this
      cases this

/-- **C102**  What the function returns: the memory so far is unchanged, and after it there is a dictionary with the
seven groups and nothing else; a group has the listed keys with the values of the attributes, and no others. -/
theorem C102_rebuilt (h : initDictFlatToInitDict st flat = .ok (st', a)) :
    ∃ top G D, Spec.IsSpecDict st' a top G D ∧ (∃ new, st' = st ++ new) ∧
      (∀ g, g ∉ Spec.userGroups → top.lookup g = none) ∧
      ∀ g ∈ Spec.userGroups, ∀ k, (D g).lookup k = if k ∈ Spec.kept g then flat.lookup k else none := by
  obtain ⟨groups, hl, rfl, rfl, hd⟩ := rebuilt_shape h
  have hlook : ∀ g ∈ Spec.userGroups, ∀ k,
      (groups.getD (place g) []).lookup k = if k ∈ Spec.kept g then flat.lookup k else none := by
    intro g hg k
    obtain ⟨d, h1, h2⟩ := hd g hg
    obtain ⟨-, i2, i3, -⟩ := rebuildGroup_ok h2
    rw [List.getD_eq_getElem?_getD, h1]
    split
    · next hk => exact (i2 k hk).1
    · next hk => exact i3 k hk
  have hplace : ∀ g ∈ Spec.userGroups, place g < 7 := by decide +kernel
  have hcare : (groups.getD (place "TAXES_TRANSFERS") []).lookup "child_care_costs" = none := by
    rw [hlook _ (by decide) _, if_neg (by decide)]
  refine ⟨rebuiltKeys.zipIdx.map fun g => (g.1.1, .ref (st.length + g.2)), fun g => st.length + place g,
    fun g => groups.getD (place g) [], ⟨?_, ?_, ?_, ?_, ?_, ?_, ?_, ?_⟩, ⟨_, List.append_assoc _ _ _⟩, ?_, hlook⟩
  · rw [List.getElem?_append_right (by simp [hl])]
    simp [hl]
  · intro g hg
    fin_cases hg <;> rfl
  · intro g hg
    obtain ⟨d, h1, h2⟩ := hd g hg
    have := hplace g hg
    rw [List.append_assoc, List.getElem?_append_right (by omega), List.getElem?_append_left (by simp [hl]; omega)]
    simp [h1]
  · intro g hg
    have := hplace g hg
    omega
  · intro g hg g' hg' he
    have he : place g = place g' := by omega
    have hall : ∀ g ∈ Spec.userGroups, ∀ g' ∈ Spec.userGroups, place g = place g' → g = g' := by decide +kernel
    exact hall g hg g' hg' he
  · intro g hg
    obtain ⟨d, h1, h2⟩ := hd g hg
    rw [List.getD_eq_getElem?_getD, h1]
    show (d.map Prod.fst).Nodup
    rw [(rebuildGroup_ok h2).1]
    have hall : ∀ g ∈ Spec.userGroups, (Spec.kept g).Nodup := by decide +kernel
    exact hall g hg
  · rw [hcare]; simp
  · intro g hg
    rw [hcare]; simp
  · intro g hg
    rw [lookup_none_iff]
    intro hm
    apply hg
    have : (rebuiltKeys.zipIdx.map fun g => (g.1.1, (.ref (st.length + g.2) : Val K))).map Prod.fst
      = rebuiltKeys.map Prod.fst := rfl
    rw [this] at hm
    have hall : ∀ g ∈ rebuiltKeys.map Prod.fst, g ∈ Spec.userGroups := by decide +kernel
    exact hall g hm

private theorem lookup_mem {d : Dict (Val K)} {k : String} {v : Val K} (h : d.lookup k = some v) : (k, v) ∈ d := by
  induction d with
  | nil => cases h
  | cons kv d ih =>
    obtain ⟨k', v'⟩ := kv
    rw [lookup_cons_ite] at h
    split at h
    · next he => subst he; cases h; exact List.mem_cons_self
    · exact List.mem_cons_of_mem _ (ih h)

private theorem ok_mono {n m : Nat} (hnm : n ≤ m) {v : Val K} (h : v.Ok n) : v.Ok m := by
  cases v <;> first | trivial | exact lt_of_lt_of_le h hnm

private theorem rebuilt_closed (hc : Closed st) (hf : ∀ kv ∈ flat, kv.2.Ok st.length)
    (h : initDictFlatToInitDict st flat = .ok (st', a)) : Closed st' := by
  unfold initDictFlatToInitDict at h
  obtain ⟨groups, hg, h⟩ := bind_ok.1 h
  cases pure_ok.1 h
  have hl : groups.length = 7 := mapE_length hg
  intro o ho
  have hlen : (st ++ groups.map Obj.dict ++ [Obj.dict (rebuiltKeys.zipIdx.map fun g =>
      (g.1.1, (.ref (st.length + g.2) : Val K)))]).length = st.length + 8 := by simp [hl]
  rw [hlen]
  rcases List.mem_append.1 ho with ho | ho
  · rcases List.mem_append.1 ho with ho | ho
    · have := hc o ho
      cases o with
      | dict d => exact fun kv hkv => ok_mono (by omega) (this kv hkv)
      | list l => exact fun v hv => ok_mono (by omega) (this v hv)
    · obtain ⟨d, hd, rfl⟩ := List.mem_map.1 ho
      obtain ⟨g, -, hgd⟩ := mapE_mem hg hd
      intro kv hkv
      exact ok_mono (by omega) (hf _ (lookup_mem ((rebuildGroup_ok hgd).2.2.2 kv hkv)))
  · cases List.mem_singleton.1 ho
    intro kv hkv
    obtain ⟨g, hgm, rfl⟩ := List.mem_map.1 hkv
    have hall : ∀ g ∈ rebuiltKeys.zipIdx, g.2 < 7 := by decide +kernel
    have := hall g hgm
    show st.length + g.2 < st.length + 8
    omega

/-- **C102**  The rebuilt dictionary cannot be read: if `educ_years` is a list, the reader stops at the missing
`tax_splitting`. -/
theorem C102_not_readable (hc : Closed st) (hf : ∀ kv ∈ flat, kv.2.Ok st.length) {e : Nat} {l : List (Val K)}
    (he : flat.lookup "educ_years" = some (.ref e)) (hl : st[e]? = some (.list l))
    (h : initDictFlatToInitDict st flat = .ok (st', a)) (n : Nat) :
    readModelSpec st' a n = .error (.valueError "Specify if couples share taxes.") := by
  have hc' := rebuilt_closed hc hf h
  obtain ⟨top, G, D, hs, ⟨new, rfl⟩, -, hk⟩ := C102_rebuilt h
  refine C51_no_tax_splitting hc' hs (e := e) (l := l) ?_ ?_ ?_
  · rw [hk _ (by decide), if_pos (by decide), he]
  · rw [List.getElem?_append_left (List.getElem?_eq_some_iff.1 hl).1, hl]
  · rw [hk _ (by decide), if_neg (by decide)]

/-- **C102**  Whatever the attributes are, the rebuilt dictionary cannot be read. -/
theorem C102_never_readable (hc : Closed st) (hf : ∀ kv ∈ flat, kv.2.Ok st.length)
    (h : initDictFlatToInitDict st flat = .ok (st', a)) (n : Nat) (r : Store K × ModelSpec K) :
    readModelSpec st' a n ≠ .ok r := by
  intro hx
  have hc' := rebuilt_closed hc hf h
  obtain ⟨top, G, D, hs, -, -, hk⟩ := C102_rebuilt h
  have hr := readModelSpec_read hc' hs n
  rw [hx] at hr
  obtain ⟨y, -, hr⟩ := bind_ok.1 hr.symm
  obtain ⟨m, -, hr⟩ := bind_ok.1 hr
  obtain ⟨d, hd, -⟩ := bind_ok.1 hr
  have hn : (D "TAXES_TRANSFERS").lookup "tax_splitting" = none := by rw [hk _ (by decide), if_neg (by decide)]
  unfold taxAll taxSystemD at hd
  rw [hasKey_eq, hn] at hd
  cases hd

private theorem dset_ok {n : Nat} {d : Dict (Val K)} (hd : ∀ kv ∈ d, kv.2.Ok n) {k : String} {v : Val K} (hv : v.Ok n) :
    ∀ kv ∈ dset d k v, kv.2.Ok n := by
  induction d with
  | nil => intro kv hkv; cases List.mem_singleton.1 hkv; exact hv
  | cons x d ih =>
    obtain ⟨k', v'⟩ := x
    intro kv hkv
    unfold dset at hkv
    split at hkv
    · rcases List.mem_cons.1 hkv with rfl | h
      · exact hv
      · exact hd kv (List.mem_cons_of_mem _ h)
    · rcases List.mem_cons.1 hkv with rfl | h
      · exact hd _ List.mem_cons_self
      · exact ih (fun kv h => hd kv (List.mem_cons_of_mem _ h)) kv h

private theorem merge_ok {n : Nat} {d : Dict (Val K)} : ∀ {acc : Dict (Val K)}, (∀ kv ∈ d, kv.2.Ok n) →
    (∀ kv ∈ acc, kv.2.Ok n) → ∀ kv ∈ d.foldl (fun acc kv => dset acc kv.1 kv.2) acc, kv.2.Ok n := by
  induction d with
  | nil => intro acc _ h; exact h
  | cons x d ih =>
    intro acc hd hacc
    exact ih (fun kv h => hd kv (List.mem_cons_of_mem _ h)) (dset_ok hacc (hd x List.mem_cons_self))

private theorem flatten_ok (hc : Closed st) {root : Nat} : ∀ {gs : List String} {acc flat : Dict (Val K)},
    (∀ kv ∈ acc, kv.2.Ok st.length) →
    foldlE (fun (flat : Dict (Val K)) group => do
      let (_, d) ← groupOf st root group
      pure (d.foldl (fun acc kv => dset acc kv.1 kv.2) flat)) acc gs = .ok flat →
    ∀ kv ∈ flat, kv.2.Ok st.length
  | [], acc, flat, ha, h => by cases h; exact ha
  | g :: gs, acc, flat, ha, h => by
    obtain ⟨acc', h1, h2⟩ := foldlE_cons_ok.1 h
    obtain ⟨⟨x, d⟩, h3, h4⟩ := bind_ok.1 h1
    cases pure_ok.1 h4
    refine flatten_ok hc (merge_ok ?_ ha) h2
    obtain ⟨top, -, h5⟩ := bind_ok.1 h3
    obtain ⟨v, -, h6⟩ := bind_ok.1 h5
    cases v with
    | ref y =>
      unfold valDict getDict at h6
      cases hy : st[y]? with
      | none => simp [hy] at h6
      | some o =>
        cases o with
        | list l => simp [hy] at h6
        | dict d' =>
          simp only [hy, Except.ok.injEq, Prod.mk.injEq] at h6
          obtain ⟨-, rfl⟩ := h6
          exact hc _ (List.mem_of_getElem? hy)
    | _ => cases h6

/-- **C102**  Reading a specification, taking its attributes, rebuilding the dictionary and reading that one: although
the first reading succeeds, the second one never does. -/
theorem C102_no_round_trip {st2 : Store K} {spec : ModelSpec K} {b n m : Nat} (hc : Closed st) (ha : a < st.length)
    (h1 : readModelSpec st a n = .ok (st2, spec)) (h2 : flattenModelSpecDict st2 (deepcopy st a).2 = .ok flat)
    (h3 : initDictFlatToInitDict st2 flat = .ok (st', b)) (r : Store K × ModelSpec K) : readModelSpec st' b m ≠ .ok r := by
  have hc2 := readModelSpec_closed hc ha h1
  exact C102_never_readable hc2 (flatten_ok hc2 (by simp) h2) h3 m r

end

/-- The attributes of a generated specification, as far as they are listed. -/
def smallFlat : Dict (Val ℚ) :=
  [("num_types", .int 1), ("tax_splitting", .bool true)] ++ readingOrder.map fun k =>
    if k = "educ_years" then (k, .ref 8) else (k, .int 10)

/-- The hypotheses are met by the attributes of a generated specification (with ten in place of the numbers); without
the `child_age_max` the function fails. -/
example [Transc ℚ] :
    let z : Sizes := ⟨[10, 11, 12], 5, 4, 1, 2, 3, -1, 0⟩
    Closed (specObjects z : Store ℚ) ∧ (∀ kv ∈ smallFlat, kv.2.Ok (specObjects z : Store ℚ).length) ∧
      smallFlat.lookup "educ_years" = some (.ref 8) ∧
      (∃ st' a, initDictFlatToInitDict (specObjects z : Store ℚ) smallFlat = .ok (st', a) ∧
        ∀ n, readModelSpec st' a n = .error (.valueError "Specify if couples share taxes.")) ∧
      initDictFlatToInitDict (specObjects z : Store ℚ) (smallFlat.filter fun kv => kv.1 ≠ "child_age_max")
        = .error (.keyError "child_age_max") := by
  intro z
  have hc := specObjects_closed (K := ℚ) z
  have hlen : (specObjects z : Store ℚ).length = 13 := rfl
  have hf : ∀ kv ∈ smallFlat, kv.2.Ok (specObjects z : Store ℚ).length := by
    rw [hlen]
    intro kv hkv
    rcases List.mem_append.1 hkv with h | h
    · fin_cases h <;> trivial
    · obtain ⟨k, -, rfl⟩ := List.mem_map.1 h
      split
      · show 8 < 13; omega
      · trivial
  have he : smallFlat.lookup "educ_years" = some (.ref 8) := rfl
  obtain ⟨⟨st', a⟩, hr⟩ := (C102_returns_iff (st := (specObjects z : Store ℚ)) (flat := smallFlat)).2 (by decide +kernel)
  exact ⟨hc, hf, he, ⟨st', a, hr, C102_not_readable hc hf he rfl hr⟩, rfl⟩

end Soepy.Props
