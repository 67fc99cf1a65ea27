import Verif.Spec.Vocabulary
import Verif.Model.Processing
import Verif.Proof.Except
import Mathlib.Logic.Function.Basic

/-! # Reading a specification does not depend on where it lies in memory

Embeddings of one memory into another: the object at address `x` of the first memory is found at
address `f x` of the second one, with all its references renamed. -/

set_option linter.unusedSectionVars false

namespace Soepy
variable {K : Type}

/-- Rename addresses in a value. -/
def Val.ren (f : Nat → Nat) : Val K → Val K
  | .ref a => .ref (f a)
  | v => v

/-- Rename addresses in a dictionary. -/
def renD (f : Nat → Nat) (d : Dict (Val K)) : Dict (Val K) := d.map fun kv => (kv.1, kv.2.ren f)

/-- Rename addresses in an object. -/
def Obj.ren (f : Nat → Nat) : Obj K → Obj K
  | .dict d => .dict (renD f d)
  | .list l => .list (l.map (Val.ren f))

/-- `st1` is embedded in `st2` along `f`. -/
structure Emb (f : Nat → Nat) (st1 st2 : Store K) : Prop where
  inj : Function.Injective f
  get : ∀ (x : Nat) o, st1[x]? = some o → st2[f x]? = some (o.ren f)
  closed : Closed st1

/-- Two computations fail in the same way or succeed with related results. -/
def RelE {α β : Type} (R : α → β → Prop) (x : Except PyErr α) (y : Except PyErr β) : Prop :=
  match x, y with
  | .ok a, .ok b => R a b
  | .error e, .error e' => e = e'
  | _, _ => False

theorem RelE.bind {α β α' β' : Type} {R : α → β → Prop} {R' : α' → β' → Prop}
    {x : Except PyErr α} {y : Except PyErr β} {f : α → Except PyErr α'} {g : β → Except PyErr β'}
    (h : RelE R x y) (hf : ∀ a b, x = .ok a → y = .ok b → R a b → RelE R' (f a) (g b)) :
    RelE R' (x >>= f) (y >>= g) := by
  cases x <;> cases y <;> simp only [RelE] at h
  · rename_i e e'
    subst h
    simp [RelE, Bind.bind, Except.bind]
  · exact hf _ _ rfl rfl h

theorem RelE.ok {α β : Type} {R : α → β → Prop} {a : α} {b : β} (h : R a b) :
    RelE R (.ok a) (.ok b) := h

theorem RelE.err {α β : Type} {R : α → β → Prop} (e : PyErr) :
    RelE R (.error e : Except PyErr α) (.error e : Except PyErr β) := rfl

theorem RelE.of_eq {α : Type} {x y : Except PyErr α} (h : x = y) : RelE (· = ·) x y := by
  subst h; cases x <;> simp [RelE]

theorem RelE.eq {α : Type} {x y : Except PyErr α} (h : RelE (· = ·) x y) : x = y := by
  cases x <;> cases y <;> simp_all [RelE]

theorem RelE.imp {α β : Type} {R R' : α → β → Prop} {x : Except PyErr α} {y : Except PyErr β}
    (h : RelE R x y) (hi : ∀ a b, R a b → R' a b) : RelE R' x y := by
  cases x <;> cases y <;> simp_all [RelE]

/-! ## Dictionaries -/

theorem lookup_renD (f : Nat → Nat) (d : Dict (Val K)) (k : String) :
    (renD f d).lookup k = (d.lookup k).map (Val.ren f) := by
  induction d with
  | nil => rfl
  | cons kv d ih =>
    obtain ⟨k', v⟩ := kv
    simp only [renD, List.map_cons, List.lookup_cons] at ih ⊢
    cases k == k' <;> simp [ih]

theorem dset_renD (f : Nat → Nat) (d : Dict (Val K)) (k : String) (v : Val K) :
    renD f (dset d k v) = dset (renD f d) k (v.ren f) := by
  induction d with
  | nil => rfl
  | cons kv d ih =>
    obtain ⟨k', v'⟩ := kv
    simp only [renD, dset, List.map_cons] at ih ⊢
    split <;> simp [ih]

theorem hasKey_renD (f : Nat → Nat) (d : Dict (Val K)) (k : String) :
    hasKey (renD f d) k = hasKey d k := by
  unfold hasKey; rw [lookup_renD]; simp

theorem lookup_ok {n : Nat} {d : Dict (Val K)} (h : ∀ kv ∈ d, kv.2.Ok n) {k : String} {v : Val K}
    (hv : d.lookup k = some v) : v.Ok n := by
  induction d with
  | nil => simp at hv
  | cons kv d ih =>
    obtain ⟨k', v'⟩ := kv
    rw [List.lookup_cons] at hv
    cases hk : k == k' <;> rw [hk] at hv
    · exact ih (fun kv hkv => h kv (List.mem_cons_of_mem _ hkv)) hv
    · simp only [Option.some.injEq] at hv
      subst hv
      exact h _ List.mem_cons_self

theorem dset_ok {n : Nat} {d : Dict (Val K)} (h : ∀ kv ∈ d, kv.2.Ok n) (k : String) {v : Val K}
    (hv : v.Ok n) : ∀ kv ∈ dset d k v, kv.2.Ok n := by
  induction d with
  | nil => intro kv hkv; simp [dset] at hkv; subst hkv; exact hv
  | cons kv d ih =>
    obtain ⟨k', v'⟩ := kv
    intro kv hkv
    simp only [dset] at hkv
    split at hkv
    · rcases List.mem_cons.1 hkv with rfl | hkv
      · exact hv
      · exact h _ (List.mem_cons_of_mem _ hkv)
    · rcases List.mem_cons.1 hkv with rfl | hkv
      · exact h _ List.mem_cons_self
      · exact ih (fun kv hkv => h kv (List.mem_cons_of_mem _ hkv)) kv hkv

theorem Val.Ok.mono {n m : Nat} (hnm : n ≤ m) {v : Val K} (h : v.Ok n) : v.Ok m := by
  cases v <;> simp_all [Val.Ok]; omega

theorem Obj.Ok.mono {n m : Nat} (hnm : n ≤ m) {o : Obj K} (h : o.Ok n) : o.Ok m := by
  cases o with
  | dict d => exact fun kv hkv => (h kv hkv).mono hnm
  | list l => exact fun v hv => (h v hv).mono hnm

/-! ## Memory operations respect embeddings -/

variable {f : Nat → Nat} {st1 st2 : Store K}

/-- Relation between an address with its dictionary in the two memories. -/
def RelDict (f : Nat → Nat) (n : Nat) (x y : Nat × Dict (Val K)) : Prop :=
  y.1 = f x.1 ∧ y.2 = renD f x.2 ∧ x.1 < n ∧ ∀ kv ∈ x.2, kv.2.Ok n

theorem getDict_emb (h : Emb f st1 st2) {a : Nat} (ha : a < st1.length) :
    RelE (fun d d' => d' = renD f d ∧ ∀ kv ∈ d, kv.2.Ok st1.length)
      (getDict st1 a) (getDict st2 (f a)) := by
  unfold getDict
  have hg : st1[a]? = some st1[a] := List.getElem?_eq_getElem ha
  rw [h.get a _ hg, hg]
  have hc := h.closed _ (List.getElem_mem ha)
  cases ho : st1[a] with
  | dict d => rw [ho] at hc; exact ⟨rfl, hc⟩
  | list l => rfl

theorem valDict_emb (h : Emb f st1 st2) {v : Val K} (hv : v.Ok st1.length) :
    RelE (RelDict f st1.length) (valDict st1 v) (valDict st2 (v.ren f)) := by
  cases v with
  | ref a =>
    have := getDict_emb h (a := a) hv
    simp only [valDict, Val.ren]
    cases h1 : getDict st1 a <;> cases h2 : getDict st2 (f a) <;> rw [h1, h2] at this <;>
      simp only [RelE] at this ⊢
    · exact this
    · exact ⟨rfl, this.1, hv, this.2⟩
  | _ => rfl

theorem dget_emb {n : Nat} {d : Dict (Val K)} (hd : ∀ kv ∈ d, kv.2.Ok n) (k : String) :
    RelE (fun v v' => v' = v.ren f ∧ v.Ok n) (dget d k) (dget (renD f d) k) := by
  unfold dget
  rw [lookup_renD]
  cases hl : d.lookup k with
  | none => rfl
  | some v => exact ⟨rfl, lookup_ok hd hl⟩

theorem groupOf_emb (h : Emb f st1 st2) {a : Nat} (ha : a < st1.length) (group : String) :
    RelE (RelDict f st1.length) (groupOf st1 a group) (groupOf st2 (f a) group) := by
  unfold groupOf
  refine RelE.bind (getDict_emb h ha) ?_
  rintro d _ - - ⟨rfl, hd⟩
  refine RelE.bind (dget_emb hd group) ?_
  rintro v _ - - ⟨rfl, hv⟩
  exact valDict_emb h hv

/-- Relation between the memories before and after a change: still embedded, same size of the first,
and the second one is unchanged outside the image. -/
structure RelSt (f : Nat → Nat) (st1 st2 st1' st2' : Store K) : Prop where
  emb : Emb f st1' st2'
  len1 : st1.length ≤ st1'.length
  len2 : st2.length ≤ st2'.length
  frame : ∀ y, y < st2.length → (∀ x, f x ≠ y) → st2'[y]? = st2[y]?

theorem RelSt.refl (h : Emb f st1 st2) : RelSt f st1 st2 st1 st2 :=
  ⟨h, le_refl _, le_refl _, fun _ _ _ => rfl⟩

theorem RelSt.trans {st1' st2' st1'' st2'' : Store K} (h : RelSt f st1 st2 st1' st2')
    (h' : RelSt f st1' st2' st1'' st2'') : RelSt f st1 st2 st1'' st2'' :=
  ⟨h'.emb, le_trans h.len1 h'.len1, le_trans h.len2 h'.len2,
   fun y hy hx => (h'.frame y (lt_of_lt_of_le hy h.len2) hx).trans (h.frame y hy hx)⟩

theorem set_emb (h : Emb f st1 st2) {a : Nat} (ha : a < st1.length) {d : Dict (Val K)}
    (hd : ∀ kv ∈ d, kv.2.Ok st1.length) :
    RelSt f st1 st2 (st1.set a (.dict d)) (st2.set (f a) (.dict (renD f d))) := by
  have hlt : f a < st2.length := by
    have := h.get a _ (List.getElem?_eq_getElem ha)
    rw [List.getElem?_eq_some_iff] at this
    exact this.1
  refine ⟨⟨h.inj, ?_, ?_⟩, by simp, by simp, ?_⟩
  · intro x o hx
    by_cases hxa : x = a
    · subst hxa
      rw [List.getElem?_set_self ha] at hx
      rw [List.getElem?_set_self hlt]
      simp only [Option.some.injEq] at hx
      subst hx
      rfl
    · rw [List.getElem?_set_ne (by omega)] at hx
      rw [List.getElem?_set_ne (fun e => hxa (h.inj e).symm)]
      exact h.get x o hx
  · intro o ho
    rw [List.length_set]
    rcases List.mem_or_eq_of_mem_set ho with ho | rfl
    · exact h.closed o ho
    · exact hd
  · intro y hy hne
    rw [List.getElem?_set_ne (hne a)]

/-- A value without addresses. -/
def Val.Plain (v : Val K) : Prop := ∀ a, v ≠ .ref a

theorem Val.Plain.ren {v : Val K} (h : v.Plain) : v.ren f = v := by
  cases v <;> first | rfl | exact absurd rfl (h _)

theorem Val.Plain.ok {v : Val K} (h : v.Plain) (n : Nat) : v.Ok n := by
  cases v <;> first | trivial | exact absurd rfl (h _)

theorem setIn_emb (h : Emb f st1 st2) {a : Nat} (ha : a < st1.length) (group key : String)
    {v : Val K} (hv : v.Plain) :
    RelE (RelSt f st1 st2) (setIn st1 a group key v) (setIn st2 (f a) group key v) := by
  unfold setIn
  refine RelE.bind (groupOf_emb h ha group) ?_
  rintro ⟨x, d⟩ ⟨_, _⟩ - - ⟨rfl, rfl, hx, hd⟩
  dsimp only at hx hd ⊢
  have := set_emb h hx (dset_ok hd key (hv.ok _))
  rw [dset_renD, hv.ren] at this
  exact this

variable [Field K] [LinearOrder K]

theorem toNum_ren (v : Val K) : (v.ren f).toNum = v.toNum := by cases v <;> rfl

theorem costRow_emb (h : Emb f st1 st2) {v : Val K} (hv : v.Ok st1.length) :
    costRow st2 (v.ren f) = costRow st1 v := by
  cases v with
  | ref a =>
    simp only [Val.ren, costRow]
    have hg : st1[a]? = some st1[a] := List.getElem?_eq_getElem hv
    rw [h.get a _ hg, hg]
    cases st1[a] with
    | dict d => rfl
    | list l =>
      simp only [Obj.ren]
      match l with
      | [] => rfl
      | [x] => simp [toNum_ren]
      | [x, y] => simp [toNum_ren]
      | x :: y :: z :: l => rfl
  | _ => rfl

theorem listLen_emb (h : Emb f st1 st2) {v : Val K} (hv : v.Ok st1.length) :
    listLen st2 (v.ren f) = listLen st1 v := by
  cases v with
  | ref a =>
    simp only [Val.ren, listLen]
    have hg : st1[a]? = some st1[a] := List.getElem?_eq_getElem hv
    rw [h.get a _ hg, hg]
    cases st1[a] <;> simp [Obj.ren, renD]
  | _ => rfl

theorem mapE_map_congr {α β γ : Type} {g : α → Except PyErr γ} {g' : β → Except PyErr γ} {r : α → β}
    (h : ∀ a, g' (r a) = g a) (l : List α) : mapE g' (l.map r) = mapE g l := by
  induction l with
  | nil => rfl
  | cons a l ih => simp only [List.map_cons, mapE, h, ih]

theorem listNums_emb (h : Emb f st1 st2) {v : Val K} (hv : v.Ok st1.length) :
    listNums st2 (v.ren f) = listNums st1 v := by
  cases v with
  | ref a =>
    simp only [Val.ren, listNums]
    have hg : st1[a]? = some st1[a] := List.getElem?_eq_getElem hv
    rw [h.get a _ hg, hg]
    cases st1[a] with
    | dict d => rfl
    | list l => exact mapE_map_congr (fun v => toNum_ren v) l
  | _ => rfl

theorem listNats_emb (h : Emb f st1 st2) {v : Val K} (hv : v.Ok st1.length) :
    listNats st2 (v.ren f) = listNats st1 v := by
  cases v with
  | ref a =>
    simp only [Val.ren, listNats]
    have hg : st1[a]? = some st1[a] := List.getElem?_eq_getElem hv
    rw [h.get a _ hg, hg]
    cases st1[a] with
    | dict d => rfl
    | list l =>
      refine mapE_map_congr (fun v => ?_) l
      cases v <;> rfl
  | _ => rfl

theorem processTaxSystem_emb (h : Emb f st1 st2) {a : Nat} (ha : a < st1.length) :
    RelE (RelSt f st1 st2) (processTaxSystem st1 a) (processTaxSystem st2 (f a)) := by
  unfold processTaxSystem
  refine RelE.bind (groupOf_emb h ha _) ?_
  rintro ⟨x, d⟩ ⟨_, _⟩ - - ⟨rfl, rfl, hx, hd⟩
  dsimp only at hx hd ⊢
  rw [hasKey_renD, hasKey_renD]
  split
  · rfl
  split
  · rfl
  refine RelE.bind (dget_emb hd _) ?_
  rintro v _ - - ⟨rfl, hv⟩
  rw [show (v.ren f).is2007 = v.is2007 by cases v <;> rfl]
  split
  · exact setIn_emb h ha _ _ (by intro a; simp)
  · rfl

theorem createChildCareCosts_emb (h : Emb f st1 st2) {a : Nat} (ha : a < st1.length) :
    RelE (RelSt f st1 st2) (createChildCareCosts st1 a) (createChildCareCosts st2 (f a)) := by
  unfold createChildCareCosts
  refine RelE.bind (groupOf_emb h ha _) ?_
  rintro ⟨x, d⟩ ⟨_, _⟩ - - ⟨rfl, rfl, hx, hd⟩
  dsimp only at hx hd ⊢
  rw [hasKey_renD]
  split
  · rfl
  refine RelE.bind (dget_emb hd _) ?_
  rintro v _ - - ⟨rfl, hv⟩
  refine RelE.bind (valDict_emb h hv) ?_
  rintro ⟨y, c⟩ ⟨_, _⟩ - - ⟨rfl, rfl, hy, hc⟩
  dsimp only at hy hc ⊢
  rw [hasKey_renD, hasKey_renD]
  split
  · rfl
  refine RelE.bind (dget_emb hc _) ?_
  rintro v1 _ - - ⟨rfl, hv1⟩
  rw [costRow_emb h hv1]
  refine RelE.bind (RelE.of_eq rfl) ?_
  rintro r1 _ - - rfl
  refine RelE.bind (dget_emb hc _) ?_
  rintro v2 _ - - ⟨rfl, hv2⟩
  rw [costRow_emb h hv2]
  refine RelE.bind (RelE.of_eq rfl) ?_
  rintro r2 _ - - rfl
  exact setIn_emb h ha _ _ (by intro a; simp)

theorem processSsc_emb (h : Emb f st1 st2) {a : Nat} (ha : a < st1.length) :
    RelE (RelSt f st1 st2) (processSsc st1 a) (processSsc st2 (f a)) := by
  unfold processSsc
  refine RelE.bind (groupOf_emb h ha _) ?_
  rintro ⟨x, d⟩ ⟨_, _⟩ - - ⟨rfl, rfl, hx, hd⟩
  dsimp only at hx hd ⊢
  refine RelE.bind (dget_emb hd _) ?_
  rintro v _ - - ⟨rfl, hv⟩
  rw [toNum_ren]
  refine RelE.bind (RelE.of_eq rfl) ?_
  rintro r1 _ - - rfl
  refine RelE.bind (dget_emb hd _) ?_
  rintro v2 _ - - ⟨rfl, hv2⟩
  rw [toNum_ren]
  refine RelE.bind (RelE.of_eq rfl) ?_
  rintro r2 _ - - rfl
  exact setIn_emb h ha _ _ (by intro a; simp)

theorem divideIn_emb (h : Emb f st1 st2) {a : Nat} (ha : a < st1.length) (key : String) (q : K) :
    RelE (RelSt f st1 st2) (divideIn st1 a key q) (divideIn st2 (f a) key q) := by
  unfold divideIn
  refine RelE.bind (groupOf_emb h ha _) ?_
  rintro ⟨x, d⟩ ⟨_, _⟩ - - ⟨rfl, rfl, hx, hd⟩
  dsimp only at hx hd ⊢
  refine RelE.bind (dget_emb hd _) ?_
  rintro v _ - - ⟨rfl, hv⟩
  rw [toNum_ren]
  refine RelE.bind (RelE.of_eq rfl) ?_
  rintro r1 _ - - rfl
  exact setIn_emb h ha _ _ (by intro a; simp)

/-- Chain two steps. -/
theorem RelE.step {g1 g2 : Store K → Except PyErr (Store K)}
    {x y : Except PyErr (Store K)} {a : Nat} (ha : a < st1.length)
    (h : RelE (RelSt f st1 st2) x y)
    (hg : ∀ s1 s2, Emb f s1 s2 → a < s1.length → RelE (RelSt f s1 s2) (g1 s1) (g2 s2)) :
    RelE (RelSt f st1 st2) (x >>= g1) (y >>= g2) := by
  refine RelE.bind h ?_
  intro s1 s2 _ _ hs
  exact (hg s1 s2 hs.emb (lt_of_lt_of_le ha hs.len1)).imp fun _ _ h' => hs.trans h'

theorem processElterngeld_emb (h : Emb f st1 st2) {a : Nat} (ha : a < st1.length) :
    RelE (RelSt f st1 st2) (processElterngeld st1 a) (processElterngeld st2 (f a)) := by
  unfold processElterngeld
  exact RelE.step ha (divideIn_emb h ha _ _)
    fun s1 s2 hs ha' => divideIn_emb hs ha' _ _

theorem processErziehungsgeld_emb (h : Emb f st1 st2) {a : Nat} (ha : a < st1.length) :
    RelE (RelSt f st1 st2) (processErziehungsgeld st1 a) (processErziehungsgeld st2 (f a)) := by
  unfold processErziehungsgeld
  refine RelE.step ha (divideIn_emb h ha _ _) ?_
  intro s1 s2 hs ha'
  exact RelE.step ha' (divideIn_emb hs ha' _ _)
    fun s1 s2 hs ha' => divideIn_emb hs ha' _ _

theorem derived_emb (h : Emb f st1 st2) (hl : f st1.length = st2.length) {a : Nat} (ha : a < st1.length)
    {d : Dict (Val K)} (hd : ∀ kv ∈ d, kv.2.Ok st1.length) (ne nt : Int) :
    RelSt f st1 st2
      ((st1.set a (.dict (dset d "DERIVED_ATTR" (.ref st1.length)))) ++
        [.dict [("num_educ_levels", .int ne), ("num_types", .int nt)]])
      ((st2.set (f a) (.dict (dset (renD f d) "DERIVED_ATTR" (.ref st2.length)))) ++
        [.dict [("num_educ_levels", .int ne), ("num_types", .int nt)]]) := by
  have hlt : f a < st2.length := by
    have := h.get a _ (List.getElem?_eq_getElem ha)
    rw [List.getElem?_eq_some_iff] at this
    exact this.1
  refine ⟨⟨h.inj, ?_, ?_⟩, by simp, by simp, ?_⟩
  · intro x o hx
    rcases lt_trichotomy x st1.length with hxl | hxl | hxl
    · rw [List.getElem?_append_left (by simpa using hxl)] at hx
      have hfx : f x < st2.length := by
        have := h.get x _ (List.getElem?_eq_getElem hxl)
        rw [List.getElem?_eq_some_iff] at this
        exact this.1
      rw [List.getElem?_append_left (by simpa using hfx)]
      by_cases hxa : x = a
      · subst hxa
        rw [List.getElem?_set_self ha] at hx
        rw [List.getElem?_set_self hlt]
        simp only [Option.some.injEq] at hx
        subst hx
        simp only [Obj.ren, dset_renD, Val.ren, hl]
      · rw [List.getElem?_set_ne (by omega)] at hx
        rw [List.getElem?_set_ne (fun e => hxa (h.inj e).symm)]
        exact h.get x o hx
    · subst hxl
      rw [List.getElem?_append_right (by simp)] at hx
      rw [hl, List.getElem?_append_right (by simp)]
      simp only [List.length_set, Nat.sub_self, List.getElem?_cons_zero, Option.some.injEq] at hx ⊢
      subst hx
      rfl
    · rw [List.getElem?_eq_none (by simp; omega)] at hx
      cases hx
  · intro o ho
    rw [List.length_append, List.length_set, List.length_singleton]
    rcases List.mem_append.1 ho with ho | ho
    · rcases List.mem_or_eq_of_mem_set ho with ho | rfl
      · exact (h.closed o ho).mono (by omega)
      · exact dset_ok (fun kv hkv => (hd kv hkv).mono (by omega)) _ (by simp [Val.Ok])
    · simp only [List.mem_singleton] at ho
      subst ho
      intro kv hkv
      simp only [List.mem_cons, List.not_mem_nil, or_false] at hkv
      rcases hkv with rfl | rfl <;> trivial
  · intro y hy hne
    rw [List.getElem?_append_left (by simpa using hy), List.getElem?_set_ne (hne a)]

theorem expandModelSpecDict_emb (h : Emb f st1 st2) (hl : f st1.length = st2.length) {a : Nat}
    (ha : a < st1.length) (nt : Nat) :
    RelE (RelSt f st1 st2) (expandModelSpecDict st1 a nt) (expandModelSpecDict st2 (f a) nt) := by
  unfold expandModelSpecDict
  refine RelE.bind (groupOf_emb h ha _) ?_
  rintro ⟨x, d⟩ ⟨_, _⟩ - - ⟨rfl, rfl, hx, hd⟩
  dsimp only at hx hd ⊢
  refine RelE.bind (dget_emb hd _) ?_
  rintro v _ - - ⟨rfl, hv⟩
  rw [listLen_emb h hv]
  refine RelE.bind (RelE.of_eq rfl) ?_
  rintro ne _ - - rfl
  refine RelE.bind (groupOf_emb h ha _) ?_
  rintro ⟨y, sim⟩ ⟨_, _⟩ - - ⟨rfl, rfl, hy, hsim⟩
  dsimp only at hy hsim ⊢
  have h1 : RelE (fun s1 s2 => RelSt f st1 st2 s1 s2 ∧ s1.length = st1.length ∧ s2.length = st2.length)
      (defaultElasticity st1 a sim) (defaultElasticity st2 (f a) (renD f sim)) := by
    unfold defaultElasticity
    rw [hasKey_renD]
    split
    · have := setIn_emb h ha "SIMULATION" "elasticity_scale" (v := .int 1) (by intro a; simp)
      have hlen : ∀ (s s' : Store K) b g k v, setIn s b g k v = .ok s' → s'.length = s.length := by
        intro s s' b g k v hs
        unfold setIn at hs
        rw [bind_ok] at hs
        obtain ⟨⟨p, q⟩, -, hs⟩ := hs
        rw [pure_ok] at hs
        subst hs
        simp
      cases e1 : setIn st1 a "SIMULATION" "elasticity_scale" (.int 1) <;>
        cases e2 : setIn st2 (f a) "SIMULATION" "elasticity_scale" (.int 1) <;>
        rw [e1, e2] at this <;> simp only [RelE] at this ⊢
      · exact this
      · exact ⟨this, hlen _ _ _ _ _ _ e1, hlen _ _ _ _ _ _ e2⟩
    · exact ⟨RelSt.refl h, rfl, rfl⟩
  refine RelE.bind h1 ?_
  rintro s1 s2 - - ⟨hs, hl1, hl2⟩
  have ha1 : a < s1.length := by omega
  refine RelE.bind (getDict_emb hs.emb ha1) ?_
  rintro top _ - - ⟨rfl, htop⟩
  have hder := derived_emb hs.emb (by rw [hl1, hl2, hl]) ha1 htop ne nt
  have ha2 : a < (((s1.set a (.dict (dset top "DERIVED_ATTR" (.ref s1.length)))) ++
        [.dict [("num_educ_levels", .int (ne : Int)), ("num_types", .int (nt : Int))]] : Store K)).length :=
    lt_of_lt_of_le ha1 hder.len1
  refine (RelE.step ha2 (processTaxSystem_emb hder.emb ha2) ?_).imp
    (fun _ _ h' => (hs.trans hder).trans h')
  intro s3 s4 hs3 ha3
  refine RelE.step ha3 (createChildCareCosts_emb hs3 ha3) ?_
  intro s3 s4 hs3 ha3
  refine RelE.step ha3 (processSsc_emb hs3 ha3) ?_
  intro s3 s4 hs3 ha3
  refine RelE.step ha3 (processElterngeld_emb hs3 ha3) ?_
  intro s3 s4 hs3 ha3
  exact processErziehungsgeld_emb hs3 ha3

theorem foldl_dset_ren (d : Dict (Val K)) (flat : Dict (Val K)) :
    (renD f d).foldl (fun acc kv => dset acc kv.1 kv.2) (renD f flat)
      = renD f (d.foldl (fun acc kv => dset acc kv.1 kv.2) flat) := by
  induction d generalizing flat with
  | nil => rfl
  | cons kv d ih =>
    simp only [renD, List.map_cons, List.foldl_cons] at ih ⊢
    rw [← ih]
    congr 1
    exact (dset_renD f flat kv.1 kv.2).symm

theorem foldl_dset_ok {n : Nat} {d flat : Dict (Val K)} (hd : ∀ kv ∈ d, kv.2.Ok n)
    (hf : ∀ kv ∈ flat, kv.2.Ok n) :
    ∀ kv ∈ d.foldl (fun acc kv => dset acc kv.1 kv.2) flat, kv.2.Ok n := by
  induction d generalizing flat with
  | nil => exact hf
  | cons kv d ih =>
    simp only [List.foldl_cons]
    exact ih (fun kv hkv => hd kv (List.mem_cons_of_mem _ hkv))
      (dset_ok hf _ (hd kv List.mem_cons_self))

theorem flatten_emb (h : Emb f st1 st2) {a : Nat} (ha : a < st1.length) :
    RelE (fun d d' => d' = renD f d ∧ ∀ kv ∈ d, kv.2.Ok st1.length)
      (flattenModelSpecDict st1 a) (flattenModelSpecDict st2 (f a)) := by
  unfold flattenModelSpecDict
  have key : ∀ (gs : List String) (flat : Dict (Val K)), (∀ kv ∈ flat, kv.2.Ok st1.length) →
      RelE (fun d d' => d' = renD f d ∧ ∀ kv ∈ d, kv.2.Ok st1.length)
        (foldlE (fun (flat : Dict (Val K)) group => do
          let (_, d) ← groupOf st1 a group
          pure (d.foldl (fun acc kv => dset acc kv.1 kv.2) flat)) flat gs)
        (foldlE (fun (flat : Dict (Val K)) group => do
          let (_, d) ← groupOf st2 (f a) group
          pure (d.foldl (fun acc kv => dset acc kv.1 kv.2) flat)) (renD f flat) gs) := by
    intro gs
    induction gs with
    | nil => intro flat hf; exact ⟨rfl, hf⟩
    | cons g gs ih =>
      intro flat hf
      simp only [foldlE]
      have := groupOf_emb h ha g
      cases e1 : groupOf st1 a g <;> cases e2 : groupOf st2 (f a) g <;> rw [e1, e2] at this <;>
        simp only [RelE] at this
      · subst this
        simp only [error_bind]
        rfl
      · rename_i p p'
        obtain ⟨x, d⟩ := p
        obtain ⟨x', d'⟩ := p'
        obtain ⟨rfl, rfl, hx, hd⟩ := this
        simp only [ok_bind]
        dsimp only at hd ⊢
        simp only [pure, Except.pure, foldl_dset_ren]
        exact ih _ (foldl_dset_ok hd hf)
  exact key specGroups [] (by simp)

theorem attr_ren (flat : Dict (Val K)) (k : String) :
    attr (renD f flat) k = (attr flat k).map (Val.ren f) := by
  unfold attr
  rw [lookup_renD]
  cases flat.lookup k <;> rfl

theorem attrInt_ren (flat : Dict (Val K)) (k : String) : attrInt (renD f flat) k = attrInt flat k := by
  unfold attrInt
  rw [attr_ren]
  cases attr flat k with
  | error e => rfl
  | ok v => cases v <;> rfl

theorem attrNat_ren (flat : Dict (Val K)) (k : String) : attrNat (renD f flat) k = attrNat flat k := by
  unfold attrNat; rw [attrInt_ren]

theorem attrNum_ren (flat : Dict (Val K)) (k : String) : attrNum (renD f flat) k = attrNum flat k := by
  unfold attrNum
  rw [attr_ren]
  cases attr flat k with
  | error e => rfl
  | ok v => cases v <;> rfl

theorem attrStr_ren (flat : Dict (Val K)) (k : String) : attrStr (renD f flat) k = attrStr flat k := by
  unfold attrStr
  rw [attr_ren]
  cases attr flat k with
  | error e => rfl
  | ok v => cases v <;> rfl

theorem attr_bind_ren {β : Type} (flat : Dict (Val K)) (k : String) (g : Val K → Except PyErr β)
    (g' : Val K → Except PyErr β)
    (hg : ∀ v, attr flat k = .ok v → g' (v.ren f) = g v) :
    (attr (renD f flat) k >>= g') = (attr flat k >>= g) := by
  rw [attr_ren]
  cases h : attr flat k with
  | error e => rfl
  | ok v => exact hg v h

theorem attr_okv {n : Nat} {flat : Dict (Val K)} (hf : ∀ kv ∈ flat, kv.2.Ok n) {k : String} {v : Val K}
    (h : attr flat k = .ok v) : v.Ok n := by
  unfold attr at h
  cases hl : flat.lookup k with
  | none => rw [hl] at h; cases h
  | some w => rw [hl] at h; cases h; exact lookup_ok hf hl

theorem bind_congr' {α β : Type} (x : Except PyErr α) {g g' : α → Except PyErr β}
    (h : ∀ a, g a = g' a) : (x >>= g) = (x >>= g') := by
  have : g = g' := funext h
  rw [this]

theorem specOfFlat_emb (h : Emb f st1 st2) {flat : Dict (Val K)}
    (hf : ∀ kv ∈ flat, kv.2.Ok st1.length) (grid : List K) :
    specOfFlat st2 (renD f flat) grid = specOfFlat st1 flat grid := by
  unfold specOfFlat
  simp only [attrInt_ren, attrNat_ren, attrNum_ren, attrStr_ren]
  refine attr_bind_ren flat _ _ _ ?_
  intro v _
  rw [show (v.ren f).toTax = v.toTax by cases v <;> rfl]
  refine bind_congr' _ fun _ => ?_
  refine attr_bind_ren flat _ _ _ ?_
  intro v _
  rw [show (v.ren f).toSsc = v.toSsc by cases v <;> rfl]
  refine bind_congr' _ fun _ => ?_
  refine attr_bind_ren flat _ _ _ ?_
  intro v _
  rw [show (v.ren f).toCosts = v.toCosts by cases v <;> rfl]
  refine bind_congr' _ fun _ => ?_
  refine attr_bind_ren flat _ _ _ ?_
  intro v _
  rw [show (v.ren f).toBool = v.toBool by cases v <;> rfl]
  refine bind_congr' _ fun _ => ?_
  refine bind_congr' _ fun _ => ?_
  refine bind_congr' _ fun _ => ?_
  refine bind_congr' _ fun _ => ?_
  refine attr_bind_ren flat _ _ _ ?_
  intro v hv
  rw [listNats_emb h (attr_okv hf hv)]

/-- The part of `read_model_spec_init` after the copy. -/
def readCopied (st1 : Store K) (root numTypes : Nat) : Except PyErr (Store K × ModelSpec K) := do
  let st2 ← expandModelSpecDict st1 root numTypes
  let flat ← flattenModelSpecDict st2 root
  let top ← getDict st2 root
  let grid ← listNums st2 (← dget top "exp_grid")
  let spec ← specOfFlat st2 flat grid
  pure (st2, spec)

theorem readModelSpec_eq (st : Store K) (a n : Nat) :
    readModelSpec st a n = readCopied (deepcopy st a).1 (deepcopy st a).2 n := rfl

theorem readCopied_emb (h : Emb f st1 st2) (hl : f st1.length = st2.length) {a : Nat}
    (ha : a < st1.length) (nt : Nat) :
    RelE (fun r r' => RelSt f st1 st2 r.1 r'.1 ∧ r'.2 = r.2)
      (readCopied st1 a nt) (readCopied st2 (f a) nt) := by
  unfold readCopied
  refine RelE.bind (expandModelSpecDict_emb h hl ha nt) ?_
  intro s1 s2 _ _ hs
  have ha1 := lt_of_lt_of_le ha hs.len1
  refine RelE.bind (flatten_emb hs.emb ha1) ?_
  rintro flat _ - - ⟨rfl, hf⟩
  refine RelE.bind (getDict_emb hs.emb ha1) ?_
  rintro top _ - - ⟨rfl, ht⟩
  refine RelE.bind (dget_emb ht _) ?_
  rintro v _ - - ⟨rfl, hv⟩
  rw [listNums_emb hs.emb hv]
  refine RelE.bind (RelE.of_eq rfl) ?_
  rintro grid _ - - rfl
  rw [specOfFlat_emb hs.emb hf]
  refine RelE.bind (RelE.of_eq rfl) ?_
  rintro spec _ - - rfl
  exact ⟨hs, rfl⟩

/-! ## The embeddings at work -/

theorem Obj.shift_eq_ren (n : Nat) (o : Obj K) : o.shift n = o.ren (· + n) := by
  cases o with
  | dict d =>
    simp only [Obj.shift, Obj.ren, renD]
    congr 1
  | list l =>
    simp only [Obj.shift, Obj.ren]
    congr 1

/-- `deepcopy` embeds the memory in the new one. -/
theorem deepcopy_emb {st : Store K} (hc : Closed st) (a : Nat) :
    Emb (· + st.length) st (deepcopy st a).1 := by
  refine ⟨fun x y h => by simpa using h, ?_, hc⟩
  intro x o hx
  unfold deepcopy
  dsimp only
  rw [List.getElem?_append_right (by omega), Nat.add_sub_cancel, List.getElem?_map, hx,
    Option.map_some, Obj.shift_eq_ren]

theorem Val.ren_id {n : Nat} {g : Nat → Nat} (hg : ∀ x, x < n → g x = x) {v : Val K} (h : v.Ok n) :
    v.ren g = v := by
  cases v with
  | ref a => simp only [Val.ren]; rw [hg a h]
  | _ => rfl

theorem Obj.ren_id {n : Nat} {g : Nat → Nat} (hg : ∀ x, x < n → g x = x) {o : Obj K} (h : o.Ok n) :
    o.ren g = o := by
  cases o with
  | dict d =>
    simp only [Obj.ren, renD]
    congr 1
    conv_rhs => rw [← List.map_id d]
    refine List.map_congr_left fun kv hkv => ?_
    rw [Val.ren_id hg (h kv hkv)]
    rfl
  | list l =>
    simp only [Obj.ren]
    congr 1
    conv_rhs => rw [← List.map_id l]
    exact List.map_congr_left fun v hv => Val.ren_id hg (h v hv)

/-- A memory is embedded in every extension of it. -/
theorem prefix_emb {st rest : Store K} (hc : Closed st) :
    Emb (fun x => if x < st.length then x else x + rest.length) st (st ++ rest) := by
  refine ⟨?_, ?_, hc⟩
  · intro x y h
    dsimp only at h
    split at h <;> split at h <;> omega
  · intro x o hx
    have hlt : x < st.length := (List.getElem?_eq_some_iff.1 hx).1
    rw [if_pos hlt, List.getElem?_append_left hlt, hx,
      Obj.ren_id (fun y hy => if_pos hy) (hc o (List.mem_of_getElem? hx))]

/-- What a specification reads as, without the copy. -/
theorem readModelSpec_core {st : Store K} (hc : Closed st) {a : Nat} (ha : a < st.length) (n : Nat) :
    RelE (fun r r' => RelSt (· + st.length) st (deepcopy st a).1 r.1 r'.1 ∧ r'.2 = r.2)
      (readCopied st a n) (readModelSpec st a n) := by
  rw [readModelSpec_eq]
  exact readCopied_emb (deepcopy_emb hc a) (by simp [deepcopy]) ha n

/-- The caller's memory is unchanged. -/
theorem readModelSpec_prefix {st st' : Store K} (hc : Closed st) {a : Nat} (ha : a < st.length) {n : Nat}
    {spec : ModelSpec K} (h : readModelSpec st a n = .ok (st', spec)) :
    st <+: st' := by
  have hr := readModelSpec_core hc ha n
  rw [h] at hr
  cases hx : readCopied st a n with
  | error e => rw [hx] at hr; exact hr.elim
  | ok r =>
    rw [hx] at hr
    obtain ⟨hs, -⟩ := hr
    rw [List.prefix_iff_getElem?]
    intro i hi
    have h1 : i < (deepcopy st a).1.length := by simp only [deepcopy, List.length_append]; omega
    rw [hs.frame i h1 (by intro x; omega)]
    simp only [deepcopy]
    rw [List.getElem?_append_left hi, List.getElem?_eq_getElem hi]

/-- Reading at an address of the original memory gives the same specification in any extension. -/
theorem readModelSpec_extend {st rest : Store K} (hc : Closed st) (hc' : Closed (st ++ rest)) {a : Nat}
    (ha : a < st.length) (n : Nat) :
    RelE (fun r r' => r'.2 = r.2) (readModelSpec st a n) (readModelSpec (st ++ rest) a n) := by
  have h1 := readModelSpec_core hc ha n
  have h2 := readModelSpec_core hc' (a := a) (by simp; omega) n
  have h3 := readCopied_emb (prefix_emb (rest := rest) hc) (by simp) ha n
  simp only [if_pos ha] at h3
  cases e0 : readCopied st a n <;> cases e1 : readModelSpec st a n <;>
    cases e2 : readModelSpec (st ++ rest) a n <;> cases e3 : readCopied (st ++ rest) a n <;>
    simp_all [RelE]

/-- The memory after reading has no dangling references. -/
theorem readModelSpec_closed {st st' : Store K} (hc : Closed st) {a : Nat} (ha : a < st.length) {n : Nat}
    {spec : ModelSpec K} (h : readModelSpec st a n = .ok (st', spec)) : Closed st' := by
  have hcc : Closed (deepcopy st a).1 := by
    intro o ho
    simp only [deepcopy, List.length_append, List.length_map] at ho ⊢
    rcases List.mem_append.1 ho with ho | ho
    · exact (hc o ho).mono (by omega)
    · obtain ⟨o', ho', rfl⟩ := List.mem_map.1 ho
      have := hc o' ho'
      rw [Obj.shift_eq_ren]
      cases o' with
      | dict d =>
        intro kv hkv
        simp only [renD, List.mem_map] at hkv
        obtain ⟨kv', hkv', rfl⟩ := hkv
        have := this kv' hkv'
        revert this
        cases kv'.2 <;> simp [Val.ren, Val.Ok]
      | list l =>
        intro v hv
        simp only [List.mem_map] at hv
        obtain ⟨v', hv', rfl⟩ := hv
        have := this v' hv'
        revert this
        cases v' <;> simp [Val.ren, Val.Ok]
  have hid : Emb (fun x => x) (deepcopy st a).1 (deepcopy st a).1 := by
    refine ⟨fun x y h => h, ?_, hcc⟩
    intro x o hx
    have : o.ren (fun x => x) = o := by
      refine Obj.ren_id (n := (deepcopy st a).1.length) (fun _ _ => rfl) (hcc o (List.mem_of_getElem? hx))
    rw [this]; exact hx
  have hr := readCopied_emb hid rfl (a := (deepcopy st a).2) (by simp [deepcopy]; omega) n
  rw [← readModelSpec_eq, h] at hr
  exact hr.1.emb.closed

end Soepy
