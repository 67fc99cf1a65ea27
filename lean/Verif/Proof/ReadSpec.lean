import Verif.Spec.SpecDict
import Verif.Proof.Dict
import Verif.Proof.Store

/-! # Reading a specification dictionary, step by step -/

set_option linter.unusedSectionVars false

namespace Soepy
variable {K : Type}

/-! ## Dictionary-level versions of the processing steps -/

section steps
variable [Field K] [LinearOrder K]

def taxSystemD (d : Dict (Val K)) : Except PyErr (Dict (Val K)) :=
  if !hasKey d "tax_splitting" then .error (.valueError "Specify if couples share taxes.")
  else if !hasKey d "tax_year" then .error (.valueError "Specify tax_year.")
  else do
    let y ← dget d "tax_year"
    if y.is2007 then pure (dset d "tax_params" (.taxArray createTaxParameters))
    else .error (.valueError "Tax year not implemented.")

def careD (st : Store K) (d : Dict (Val K)) : Except PyErr (Dict (Val K)) :=
  if !hasKey d "child_care_costs" then .error (.valueError "Child care costs not properly specified.")
  else do
    let ac ← valDict st (← dget d "child_care_costs")
    if !hasKey ac.2 "under_3" || !hasKey ac.2 "3_to_6" then
      .error (.valueError "Child care costs not properly specified.")
    else do
      let r1 ← costRow st (← dget ac.2 "under_3")
      let r2 ← costRow st (← dget ac.2 "3_to_6")
      pure (dset d "child_care_costs"
        (.costArray fun b j => (![fun _ => 0, r1, r2] : Fin 3 → Fin 2 → K) b j / M_FACTOR))

def sscD (d : Dict (Val K)) : Except PyErr (Dict (Val K)) := do
  let rate ← (← dget d "ssc_rate").toNum
  let cap ← (← dget d "ssc_cap").toNum
  pure (dset d "ssc_deductions" (.sscArray { rate := rate, cap := cap / Y_FACTOR }))

def divD (key : String) (factor : K) (d : Dict (Val K)) : Except PyErr (Dict (Val K)) := do
  let x ← (← dget d key).toNum
  pure (dset d key (.num (x / factor)))

/-- All steps on the tax group. -/
def taxAll (st : Store K) (d : Dict (Val K)) : Except PyErr (Dict (Val K)) := do
  let d ← taxSystemD d
  let d ← careD st d
  let d ← sscD d
  let d ← divD "elterngeld_min" M_FACTOR d
  let d ← divD "elterngeld_max" M_FACTOR d
  let d ← divD "erziehungsgeld_income_threshold_single" Y_FACTOR d
  let d ← divD "erziehungsgeld_income_threshold_married" Y_FACTOR d
  divD "erziehungsgeld" M_FACTOR d

/-! ## Memory with one group in focus -/

/-- The outer dictionary is at `a`, its tax group at `T`. -/
structure View (base : Store K) (a T : Nat) (top : Dict (Val K)) : Prop where
  top_at : base[a]? = some (.dict top)
  group : top.lookup "TAXES_TRANSFERS" = some (.ref T)
  ne : T ≠ a
  lt : T < base.length
  dict : ∃ d, base[T]? = some (.dict d)

variable {base : Store K} {a T : Nat} {top : Dict (Val K)}

theorem getDict_of {st : Store K} {a : Nat} {d : Dict (Val K)} (h : st[a]? = some (.dict d)) :
    getDict st a = .ok d := by
  unfold getDict; rw [h]

theorem groupOf_of {st : Store K} {a b : Nat} {top d : Dict (Val K)} {g : String}
    (h : st[a]? = some (.dict top)) (hg : top.lookup g = some (.ref b))
    (hd : st[b]? = some (.dict d)) : groupOf st a g = .ok (b, d) := by
  unfold groupOf
  rw [getDict_of h, ok_bind, dget_eq hg, ok_bind]
  unfold valDict
  dsimp only
  rw [getDict_of hd]

theorem View.groupOf (v : View base a T top) (d : Dict (Val K)) :
    groupOf (base.set T (.dict d)) a "TAXES_TRANSFERS" = .ok (T, d) := by
  refine groupOf_of (top := top) ?_ v.group ?_
  · rw [List.getElem?_set_ne v.ne]; exact v.top_at
  · rw [List.getElem?_set_self v.lt]

theorem View.setIn (v : View base a T top) (d : Dict (Val K)) (k : String) (x : Val K) :
    setIn (base.set T (.dict d)) a "TAXES_TRANSFERS" k x = .ok (base.set T (.dict (dset d k x))) := by
  unfold Soepy.setIn
  rw [v.groupOf d]
  simp only [ok_bind, List.set_set]
  rfl

theorem bind_congr_ok {α β : Type} (x : Except PyErr α) {g g' : α → Except PyErr β}
    (h : ∀ a, x = .ok a → g a = g' a) : (x >>= g) = (x >>= g') := by
  cases x with
  | error e => rfl
  | ok a => exact h a rfl

theorem map_bind {α β γ : Type} (x : Except PyErr α) (f : α → Except PyErr β) (g : β → γ) :
    (x >>= f).map g = x >>= fun a => (f a).map g := by
  cases x <;> rfl

theorem bind_map {α β γ : Type} (x : Except PyErr α) (f : β → Except PyErr γ) (g : α → β) :
    (x.map g >>= f) = x >>= fun a => f (g a) := by
  cases x <;> rfl

theorem map_map' {α β γ : Type} (x : Except PyErr α) (f : α → β) (g : β → γ) :
    (x.map f).map g = x.map fun a => g (f a) := by
  cases x <;> rfl

/-- Two memories have the same list objects. -/
def SameLists (st st' : Store K) : Prop :=
  ∀ (r : Nat) l, st[r]? = some (.list l) ↔ st'[r]? = some (.list l)

theorem costRow_same {st st' : Store K} (h : SameLists st st') (v : Val K) :
    costRow st v = costRow st' v := by
  cases v with
  | ref r =>
    unfold costRow
    dsimp only
    cases h1 : st[r]? with
    | none =>
      cases h2 : st'[r]? with
      | none => rfl
      | some o =>
        cases o with
        | dict d => rfl
        | list l => rw [(h r l).2 h2] at h1; simp at h1
    | some o =>
      cases o with
      | list l => rw [(h r l).1 h1]
      | dict d =>
        cases h2 : st'[r]? with
        | none => rfl
        | some o =>
          cases o with
          | dict d => rfl
          | list l => rw [(h r l).2 h2] at h1; simp at h1
  | _ => rfl

theorem listNums_same {st st' : Store K} (h : SameLists st st') (v : Val K) :
    listNums st v = listNums st' v := by
  cases v with
  | ref r =>
    unfold listNums
    dsimp only
    cases h1 : st[r]? with
    | none =>
      cases h2 : st'[r]? with
      | none => rfl
      | some o =>
        cases o with
        | dict d => rfl
        | list l => rw [(h r l).2 h2] at h1; simp at h1
    | some o =>
      cases o with
      | list l => rw [(h r l).1 h1]
      | dict d =>
        cases h2 : st'[r]? with
        | none => rfl
        | some o =>
          cases o with
          | dict d => rfl
          | list l => rw [(h r l).2 h2] at h1; simp at h1
  | _ => rfl

theorem listNats_same {st st' : Store K} (h : SameLists st st') (v : Val K) :
    listNats st v = listNats st' v := by
  cases v with
  | ref r =>
    unfold listNats
    dsimp only
    cases h1 : st[r]? with
    | none =>
      cases h2 : st'[r]? with
      | none => rfl
      | some o =>
        cases o with
        | dict d => rfl
        | list l => rw [(h r l).2 h2] at h1; simp at h1
    | some o =>
      cases o with
      | list l => rw [(h r l).1 h1]
      | dict d =>
        cases h2 : st'[r]? with
        | none => rfl
        | some o =>
          cases o with
          | dict d => rfl
          | list l => rw [(h r l).2 h2] at h1; simp at h1
  | _ => rfl

theorem specOfFlat_same {st st' : Store K} (h : SameLists st st') (flat : Dict (Val K)) (grid : List K) :
    specOfFlat st flat grid = specOfFlat st' flat grid := by
  unfold specOfFlat
  simp only [listNats_same h]

theorem SameLists.symm {st st' : Store K} (h : SameLists st st') : SameLists st' st :=
  fun r l => (h r l).symm

theorem SameLists.trans {st st' st'' : Store K} (h : SameLists st st') (h' : SameLists st' st'') :
    SameLists st st'' := fun r l => (h r l).trans (h' r l)

theorem SameLists.set {st : Store K} {x : Nat} {d d' : Dict (Val K)} (h : st[x]? = some (.dict d)) :
    SameLists st (st.set x (.dict d')) := by
  intro r l
  rw [List.getElem?_set]
  split
  · rename_i hr
    subst hr
    rw [h]
    split <;> simp
  · rfl

theorem SameLists.append {st : Store K} {d : Dict (Val K)} :
    SameLists st (st ++ [.dict d]) := by
  intro r l
  rcases lt_trichotomy r st.length with h | h | h
  · rw [List.getElem?_append_left h]
  · subst h; simp
  · rw [List.getElem?_eq_none (by omega), List.getElem?_eq_none (by simp; omega)]

theorem processTaxSystem_view (v : View base a T top) (d : Dict (Val K)) :
    processTaxSystem (base.set T (.dict d)) a
      = (taxSystemD d).map fun d' => base.set T (.dict d') := by
  unfold processTaxSystem taxSystemD
  rw [v.groupOf d, ok_bind]
  dsimp only
  split
  · rfl
  · split
    · rfl
    · rw [map_bind]
      refine bind_congr_ok _ fun y _ => ?_
      split
      · rw [v.setIn]; rfl
      · rfl

theorem createChildCareCosts_view (v : View base a T top) (d : Dict (Val K))
    (hd : d.lookup "child_care_costs" ≠ some (.ref T)) :
    createChildCareCosts (base.set T (.dict d)) a
      = (careD base d).map fun d' => base.set T (.dict d') := by
  obtain ⟨d0, hd0⟩ := v.dict
  unfold createChildCareCosts careD
  rw [v.groupOf d, ok_bind]
  dsimp only
  split
  · rfl
  · rw [map_bind]
    refine bind_congr_ok _ fun y hy => ?_
    have hv : valDict (base.set T (.dict d)) y = valDict base y := by
      cases y with
      | ref r =>
        unfold valDict
        dsimp only
        unfold getDict
        rw [List.getElem?_set_ne]
        rintro rfl
        exact hd (dget_ok hy)
      | _ => rfl
    rw [hv, map_bind]
    refine bind_congr_ok _ fun ac _ => ?_
    obtain ⟨ad, c⟩ := ac
    dsimp only
    split
    · rfl
    · rw [map_bind]
      refine bind_congr_ok _ fun y1 _ => ?_
      rw [map_bind, costRow_same (SameLists.set hd0).symm]
      refine bind_congr_ok _ fun r1 _ => ?_
      rw [map_bind]
      refine bind_congr_ok _ fun y2 _ => ?_
      rw [map_bind, costRow_same (SameLists.set hd0).symm]
      refine bind_congr_ok _ fun r2 _ => ?_
      rw [v.setIn]; rfl

theorem processSsc_view (v : View base a T top) (d : Dict (Val K)) :
    processSsc (base.set T (.dict d)) a = (sscD d).map fun d' => base.set T (.dict d') := by
  unfold processSsc sscD
  rw [v.groupOf d, ok_bind]
  dsimp only
  simp only [map_bind, v.setIn]
  rfl

theorem divideIn_view (v : View base a T top) (d : Dict (Val K)) (k : String) (q : K) :
    divideIn (base.set T (.dict d)) a k q = (divD k q d).map fun d' => base.set T (.dict d') := by
  unfold divideIn divD
  rw [v.groupOf d, ok_bind]
  dsimp only
  simp only [map_bind, v.setIn]
  rfl

/-- Everything after the derived attributes. -/
theorem taxSteps_view (v : View base a T top) (d : Dict (Val K))
    (hd : d.lookup "child_care_costs" ≠ some (.ref T)) :
    (do
      let st ← processTaxSystem (base.set T (.dict d)) a
      let st ← createChildCareCosts st a
      let st ← processSsc st a
      let st ← processElterngeld st a
      processErziehungsgeld st a)
      = (taxAll base d).map fun d' => base.set T (.dict d') := by
  unfold taxAll processElterngeld processErziehungsgeld
  rw [processTaxSystem_view v, bind_map, map_bind]
  refine bind_congr_ok _ fun d1 h1 => ?_
  have hd1 : d1.lookup "child_care_costs" ≠ some (.ref T) := by
    unfold taxSystemD at h1
    split at h1
    · simp at h1
    · split at h1
      · simp at h1
      · obtain ⟨y, -, h1⟩ := bind_ok.1 h1
        split at h1
        · rw [← pure_ok.1 h1, lookup_dset]
          simpa using hd
        · simp at h1
  rw [createChildCareCosts_view v _ hd1, bind_map, map_bind]
  refine bind_congr_ok _ fun d2 _ => ?_
  rw [processSsc_view v, bind_map, map_bind]
  refine bind_congr_ok _ fun d3 _ => ?_
  simp only [bind_assoc]
  rw [divideIn_view v, bind_map, map_bind]
  refine bind_congr_ok _ fun d4 _ => ?_
  rw [divideIn_view v, bind_map, map_bind]
  refine bind_congr_ok _ fun d5 _ => ?_
  rw [divideIn_view v, bind_map, map_bind]
  refine bind_congr_ok _ fun d6 _ => ?_
  rw [divideIn_view v, bind_map, map_bind]
  refine bind_congr_ok _ fun d7 _ => ?_
  rw [divideIn_view v]

/-! ## The whole reading -/

/-- The simulation group with the default elasticity scale. -/
def simGroup (d : Dict (Val K)) : Dict (Val K) :=
  if hasKey d "elasticity_scale" then d else dset d "elasticity_scale" (.int 1)

/-- The memory before the tax group is processed. -/
def baseOf (st : Store K) (a : Nat) (top : Dict (Val K)) (S : Nat) (sim : Dict (Val K)) (m n : Nat) :
    Store K :=
  ((st.set S (.dict (simGroup sim))).set a (.dict (dset top "DERIVED_ATTR" (.ref st.length)))) ++
    [.dict [("num_educ_levels", .int m), ("num_types", .int n)]]

/-- The flat dictionary. -/
def flatOf (D : String → Dict (Val K)) (d' : Dict (Val K)) (m n : Nat) : Dict (Val K) :=
  [D "GENERAL", D "EDUC", simGroup (D "SIMULATION"), D "SOLUTION", d', D "EXOG_PROC",
    D "INITIAL_CONDITIONS", [("num_educ_levels", .int m), ("num_types", .int n)]].foldl
    (fun flat d => d.foldl (fun acc kv => dset acc kv.1 kv.2) flat) []

variable {st : Store K} {G : String → Nat} {D : String → Dict (Val K)}

theorem spec_lt (h : Spec.IsSpecDict st a top G D) : a < st.length :=
  (List.getElem?_eq_some_iff.1 h.top_at).1

theorem group_lt (h : Spec.IsSpecDict st a top G D) {g : String} (hg : g ∈ Spec.userGroups) :
    G g < st.length :=
  (List.getElem?_eq_some_iff.1 (h.at_ g hg)).1

theorem mem_T : "TAXES_TRANSFERS" ∈ Spec.userGroups := by decide
theorem mem_S : "SIMULATION" ∈ Spec.userGroups := by decide
theorem mem_E : "EDUC" ∈ Spec.userGroups := by decide

/-- Objects of the memory after the first steps. -/
theorem base_get (h : Spec.IsSpecDict st a top G D) (m n : Nat) {g : String}
    (hg : g ∈ Spec.userGroups) (hS : g ≠ "SIMULATION") :
    (baseOf st a top (G "SIMULATION") (D "SIMULATION") m n)[G g]? = some (.dict (D g)) := by
  unfold baseOf
  rw [List.getElem?_append_left (by simpa using group_lt h hg),
    List.getElem?_set_ne (fun e => h.ne_top g hg e.symm),
    List.getElem?_set_ne (fun e => hS (h.distinct _ mem_S _ hg e).symm)]
  exact h.at_ g hg

theorem base_sim (h : Spec.IsSpecDict st a top G D) (m n : Nat) :
    (baseOf st a top (G "SIMULATION") (D "SIMULATION") m n)[G "SIMULATION"]?
      = some (.dict (simGroup (D "SIMULATION"))) := by
  unfold baseOf
  rw [List.getElem?_append_left (by simpa using group_lt h mem_S),
    List.getElem?_set_ne (fun e => h.ne_top _ mem_S e.symm),
    List.getElem?_set_self (group_lt h mem_S)]

theorem base_top (h : Spec.IsSpecDict st a top G D) (m n : Nat) :
    (baseOf st a top (G "SIMULATION") (D "SIMULATION") m n)[a]?
      = some (.dict (dset top "DERIVED_ATTR" (.ref st.length))) := by
  unfold baseOf
  rw [List.getElem?_append_left (by simpa using spec_lt h),
    List.getElem?_set_self (by simpa using spec_lt h)]

theorem base_derived (m n S : Nat) (sim : Dict (Val K)) :
    (baseOf st a top S sim m n)[st.length]?
      = some (.dict [("num_educ_levels", .int m), ("num_types", .int n)]) := by
  unfold baseOf
  rw [List.getElem?_append_right (by simp)]
  simp

theorem base_view (h : Spec.IsSpecDict st a top G D) (m n : Nat) :
    View (baseOf st a top (G "SIMULATION") (D "SIMULATION") m n) a (G "TAXES_TRANSFERS")
      (dset top "DERIVED_ATTR" (.ref st.length)) := by
  refine ⟨base_top h m n, ?_, h.ne_top _ mem_T, ?_, _, base_get h m n mem_T (by decide)⟩
  · rw [lookup_dset, if_neg (by decide)]
    exact h.group _ mem_T
  · exact (List.getElem?_eq_some_iff.1 (base_get h m n mem_T (by decide))).1

theorem base_same (h : Spec.IsSpecDict st a top G D) (m n : Nat) :
    SameLists st (baseOf st a top (G "SIMULATION") (D "SIMULATION") m n) := by
  unfold baseOf
  refine SameLists.trans ?_ SameLists.append
  refine SameLists.trans (SameLists.set (h.at_ _ mem_S)) (SameLists.set (d := top) ?_)
  rw [List.getElem?_set_ne (h.ne_top _ mem_S)]
  exact h.top_at

theorem lookup_closed {st : Store K} (hc : Closed st) {x : Nat} {d : Dict (Val K)}
    (hx : st[x]? = some (.dict d)) {k : String} {v : Val K} (hv : d.lookup k = some v) :
    v.Ok st.length :=
  lookup_ok (hc _ (List.mem_of_getElem? hx)) hv

/-- The tax steps read the same child care dictionary. -/
theorem careD_base (hc : Closed st) (h : Spec.IsSpecDict st a top G D) (m n : Nat) {d : Dict (Val K)}
    (hd : d.lookup "child_care_costs" = (D "TAXES_TRANSFERS").lookup "child_care_costs") :
    careD (baseOf st a top (G "SIMULATION") (D "SIMULATION") m n) d = careD st d := by
  unfold careD
  split
  · rfl
  · refine bind_congr_ok _ fun y hy => ?_
    have hv : valDict (baseOf st a top (G "SIMULATION") (D "SIMULATION") m n) y = valDict st y := by
      have hl : (D "TAXES_TRANSFERS").lookup "child_care_costs" = some y := hd ▸ dget_ok hy
      cases y with
      | ref r =>
        unfold valDict
        dsimp only
        unfold getDict
        have h1 : r ≠ a := fun e => h.care_top (by rw [hl, e])
        have h2 : r ≠ G "SIMULATION" := fun e => h.care_group _ mem_S (by rw [hl, e])
        have h3 : r < st.length := lookup_closed hc (h.at_ _ mem_T) hl
        unfold baseOf
        rw [List.getElem?_append_left (by simpa using h3), List.getElem?_set_ne (Ne.symm h1),
          List.getElem?_set_ne (Ne.symm h2)]
      | _ => rfl
    rw [hv]
    refine bind_congr_ok _ fun ac _ => ?_
    simp only [costRow_same (base_same h m n).symm]

theorem taxSystemD_ok {d d1 : Dict (Val K)} (h : taxSystemD d = .ok d1) :
    d1 = dset d "tax_params" (.taxArray createTaxParameters) := by
  unfold taxSystemD at h
  split at h
  · simp at h
  · split at h
    · simp at h
    · obtain ⟨y, -, h⟩ := bind_ok.1 h
      split at h
      · exact (pure_ok.1 h).symm
      · simp at h

theorem taxAll_base (hc : Closed st) (h : Spec.IsSpecDict st a top G D) (m n : Nat) :
    taxAll (baseOf st a top (G "SIMULATION") (D "SIMULATION") m n) (D "TAXES_TRANSFERS")
      = taxAll st (D "TAXES_TRANSFERS") := by
  unfold taxAll
  refine bind_congr_ok _ fun d1 h1 => ?_
  rw [careD_base hc h m n]
  rw [taxSystemD_ok h1, lookup_dset, if_neg (by decide)]

theorem expand_eq (hc : Closed st) (h : Spec.IsSpecDict st a top G D) (n : Nat) :
    expandModelSpecDict st a n = (do
      let y ← dget (D "EDUC") "educ_years"
      let m ← listLen st y
      let d' ← taxAll st (D "TAXES_TRANSFERS")
      pure ((baseOf st a top (G "SIMULATION") (D "SIMULATION") m n).set (G "TAXES_TRANSFERS")
        (.dict d'))) := by
  unfold expandModelSpecDict
  rw [groupOf_of h.top_at (h.group _ mem_E) (h.at_ _ mem_E), ok_bind]
  dsimp only
  refine bind_congr_ok _ fun y _ => bind_congr_ok _ fun m _ => ?_
  rw [groupOf_of h.top_at (h.group _ mem_S) (h.at_ _ mem_S), ok_bind]
  dsimp only
  have hdef : defaultElasticity st a (D "SIMULATION")
      = .ok (st.set (G "SIMULATION") (.dict (simGroup (D "SIMULATION")))) := by
    unfold defaultElasticity simGroup
    cases hk : hasKey (D "SIMULATION") "elasticity_scale" with
    | true =>
      simp only [Bool.not_true, Bool.false_eq_true, if_false, if_true]
      congr 1
      obtain ⟨hlt, hx⟩ := List.getElem?_eq_some_iff.1 (h.at_ _ mem_S)
      rw [← hx, List.set_getElem_self]
    | false =>
      simp only [Bool.not_false, if_true, Bool.false_eq_true, if_false]
      unfold Soepy.setIn
      rw [groupOf_of h.top_at (h.group _ mem_S) (h.at_ _ mem_S)]
      rfl
  rw [hdef, ok_bind, getDict_of (d := top), ok_bind]
  · simp only [List.length_set]
    have hv := base_view h m n
    have hself : baseOf st a top (G "SIMULATION") (D "SIMULATION") m n
        = (baseOf st a top (G "SIMULATION") (D "SIMULATION") m n).set (G "TAXES_TRANSFERS")
          (.dict (D "TAXES_TRANSFERS")) := by
      obtain ⟨hlt, hx⟩ := List.getElem?_eq_some_iff.1 (base_get h m n mem_T (by decide))
      rw [← hx, List.set_getElem_self]
    have key := taxSteps_view hv (D "TAXES_TRANSFERS") (h.care_group _ mem_T)
    rw [← hself, taxAll_base hc h] at key
    refine Eq.trans key ?_
    cases taxAll st (D "TAXES_TRANSFERS") <;> rfl
  · rw [List.getElem?_set_ne (h.ne_top _ mem_S)]
    exact h.top_at

theorem flatten_eq (h : Spec.IsSpecDict st a top G D) (m n : Nat) (d' : Dict (Val K)) :
    flattenModelSpecDict ((baseOf st a top (G "SIMULATION") (D "SIMULATION") m n).set
      (G "TAXES_TRANSFERS") (.dict d')) a = .ok (flatOf D d' m n) := by
  set fin := (baseOf st a top (G "SIMULATION") (D "SIMULATION") m n).set
      (G "TAXES_TRANSFERS") (.dict d') with hfin
  have hv := base_view h m n
  have htop : fin[a]? = some (.dict (dset top "DERIVED_ATTR" (.ref st.length))) := by
    rw [hfin, List.getElem?_set_ne hv.ne]; exact hv.top_at
  have hT : groupOf fin a "TAXES_TRANSFERS" = .ok (G "TAXES_TRANSFERS", d') := hv.groupOf d'
  have hg : ∀ g ∈ Spec.userGroups, g ≠ "TAXES_TRANSFERS" → g ≠ "SIMULATION" →
      groupOf fin a g = .ok (G g, D g) := by
    intro g hg h1 h2
    refine groupOf_of htop ?_ ?_
    · rw [lookup_dset, if_neg, h.group g hg]
      rintro rfl
      revert hg; decide
    · rw [hfin, List.getElem?_set_ne (fun e => h1 (h.distinct _ mem_T _ hg e).symm)]
      exact base_get h m n hg h2
  have hS : groupOf fin a "SIMULATION" = .ok (G "SIMULATION", simGroup (D "SIMULATION")) := by
    refine groupOf_of htop ?_ ?_
    · rw [lookup_dset, if_neg (by decide), h.group _ mem_S]
    · rw [hfin, List.getElem?_set_ne (fun e => by
        have := h.distinct _ mem_T _ mem_S e
        revert this; decide)]
      exact base_sim h m n
  have hD : groupOf fin a "DERIVED_ATTR"
      = .ok (st.length, [("num_educ_levels", .int m), ("num_types", .int n)]) := by
    refine groupOf_of htop ?_ ?_
    · rw [lookup_dset, if_pos rfl]
    · rw [hfin, List.getElem?_set_ne (fun e => by have := group_lt h mem_T; omega)]
      exact base_derived m n _ _
  unfold flattenModelSpecDict specGroups
  simp only [foldlE, hg "GENERAL" (by decide) (by decide) (by decide),
    hg "EDUC" (by decide) (by decide) (by decide), hS,
    hg "SOLUTION" (by decide) (by decide) (by decide), hT,
    hg "EXOG_PROC" (by decide) (by decide) (by decide),
    hg "INITIAL_CONDITIONS" (by decide) (by decide) (by decide), hD, ok_bind, pure, Except.pure]
  rfl

/-- Reading, reduced to the caller's dictionaries. -/
theorem readCopied_eq (hc : Closed st) (h : Spec.IsSpecDict st a top G D) (n : Nat) :
    (readCopied st a n).map Prod.snd = (do
      let y ← dget (D "EDUC") "educ_years"
      let m ← listLen st y
      let d' ← taxAll st (D "TAXES_TRANSFERS")
      let x ← dget top "exp_grid"
      let grid ← listNums st x
      specOfFlat st (flatOf D d' m n) grid) := by
  unfold readCopied
  rw [expand_eq hc h n]
  simp only [bind_assoc, map_bind]
  refine bind_congr_ok _ fun y _ => bind_congr_ok _ fun m _ => bind_congr_ok _ fun d' _ => ?_
  have hv := base_view h m n
  have hs : SameLists ((baseOf st a top (G "SIMULATION") (D "SIMULATION") m n).set
      (G "TAXES_TRANSFERS") (.dict d')) st :=
    (SameLists.trans (base_same h m n) (SameLists.set hv.dict.choose_spec)).symm
  simp only [pure_bind]
  rw [flatten_eq h m n d', ok_bind, getDict_of (d := dset top "DERIVED_ATTR" (.ref st.length)),
    ok_bind]
  · have hx : dget (dset top "DERIVED_ATTR" (.ref st.length)) "exp_grid" = dget top "exp_grid" := by
      unfold dget
      rw [lookup_dset, if_neg (by decide)]
    rw [hx]
    refine bind_congr_ok _ fun x _ => ?_
    rw [listNums_same hs]
    refine bind_congr_ok _ fun grid _ => ?_
    rw [specOfFlat_same hs]
    cases specOfFlat st (flatOf D d' m n) grid <;> rfl
  · rw [List.getElem?_set_ne hv.ne]; exact hv.top_at

/-- The same for `read_model_spec_init` itself. -/
theorem readModelSpec_read (hc : Closed st) (h : Spec.IsSpecDict st a top G D) (n : Nat) :
    (readModelSpec st a n).map Prod.snd = (do
      let y ← dget (D "EDUC") "educ_years"
      let m ← listLen st y
      let d' ← taxAll st (D "TAXES_TRANSFERS")
      let x ← dget top "exp_grid"
      let grid ← listNums st x
      specOfFlat st (flatOf D d' m n) grid) := by
  rw [← readCopied_eq hc h n]
  have hr := readModelSpec_core hc (spec_lt h) n
  cases e0 : readCopied st a n <;> cases e1 : readModelSpec st a n <;> rw [e0, e1] at hr <;>
    simp_all [RelE, Except.map]

end steps

end Soepy
