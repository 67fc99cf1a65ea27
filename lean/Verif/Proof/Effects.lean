import Verif.Proof.Partner
import Verif.Spec.Effects
import Verif.Proof.Session

/-! # What the entry points leave behind -/

set_option linter.unusedSectionVars false

namespace Soepy
open Soepy.Spec (Exists Readable Sound Act Acts Present dataOf)
variable {S K : Type} [Field K] [LinearOrder K] [FloorRing K] [Transc K]

/-! ## Objects that only refer to new objects -/

/-- All references go to addresses from `n` on. -/
def Val.From (n : Nat) : Val K → Prop
  | .ref a => n ≤ a
  | _ => True

def Obj.From (n : Nat) : Obj K → Prop
  | .dict d => ∀ kv ∈ d, kv.2.From n
  | .list l => ∀ v ∈ l, v.From n

/-- `st` extends `base`; `root` and everything it reaches is new. -/
structure Apart (base : Store K) (root : Nat) (st : Store K) : Prop where
  kept : base <+: st
  closed : Closed st
  apart : ∀ x o, base.length ≤ x → st[x]? = some o → o.From base.length
  lo : base.length ≤ root
  hi : root < st.length

theorem Val.Plain.from {v : Val K} (h : v.Plain) (n : Nat) : v.From n := by
  cases v <;> first | trivial | exact absurd rfl (h _)

theorem dset_from {n : Nat} {d : Dict (Val K)} (h : ∀ kv ∈ d, kv.2.From n) (k : String) {v : Val K}
    (hv : v.From n) : ∀ kv ∈ dset d k v, kv.2.From n := by
  induction d with
  | nil => intro kv hkv; simp only [dset, List.mem_singleton] at hkv; subst hkv; exact hv
  | cons kv0 rest ih =>
    obtain ⟨k0, v0⟩ := kv0
    intro kv hkv
    simp only [dset] at hkv
    split at hkv
    · rcases List.mem_cons.1 hkv with rfl | hkv
      · exact hv
      · exact h kv (List.mem_cons_of_mem _ hkv)
    · rcases List.mem_cons.1 hkv with rfl | hkv
      · exact h _ List.mem_cons_self
      · exact ih (fun kv hkv => h kv (List.mem_cons_of_mem _ hkv)) kv hkv

theorem lookup_mem {α : Type} {d : Dict α} {k : String} {v : α} (h : d.lookup k = some v) :
    ∃ kv ∈ d, kv.2 = v := by
  induction d with
  | nil => cases h
  | cons kv rest ih =>
    obtain ⟨k0, v0⟩ := kv
    simp only [List.lookup] at h
    split at h
    · exact ⟨_, List.mem_cons_self, Option.some.inj h⟩
    · obtain ⟨kv, hm, hv⟩ := ih h
      exact ⟨kv, List.mem_cons_of_mem _ hm, hv⟩

theorem getDict_ok {st : Store K} {a : Nat} {d : Dict (Val K)} :
    getDict st a = .ok d ↔ st[a]? = some (.dict d) := by
  unfold getDict
  split <;> rename_i h
  · rw [h]; simp
  · constructor
    · intro h'; cases h'
    · intro h'; exact (h d h').elim

theorem set_apart {base : Store K} {root x : Nat} {st : Store K} {d : Dict (Val K)} (h : Apart base root st)
    (hx : base.length ≤ x) (hok : ∀ kv ∈ d, kv.2.Ok st.length) (hfr : ∀ kv ∈ d, kv.2.From base.length) :
    Apart base root (st.set x (.dict d)) := by
  refine ⟨?_, ?_, ?_, h.lo, by simpa using h.hi⟩
  · rw [List.prefix_iff_getElem?]
    intro i hi
    rw [List.getElem?_set_ne (by omega)]
    exact List.prefix_iff_getElem?.1 h.kept i hi
  · intro o ho
    rw [List.length_set]
    rcases List.mem_or_eq_of_mem_set ho with ho | rfl
    · exact h.closed o ho
    · exact hok
  · intro y o hy ho
    by_cases hxy : x = y
    · subst hxy
      rw [List.getElem?_set] at ho
      simp only [if_true] at ho
      split at ho
      · obtain rfl := Option.some.inj ho
        exact hfr
      · cases ho
    · rw [List.getElem?_set_ne hxy] at ho
      exact h.apart y o hy ho

theorem groupOf_apart {base : Store K} {root : Nat} {st : Store K} (h : Apart base root st) {g : String}
    {a : Nat} {d : Dict (Val K)} (hg : groupOf st root g = .ok (a, d)) :
    base.length ≤ a ∧ st[a]? = some (.dict d) := by
  unfold groupOf at hg
  obtain ⟨top, h1, hg⟩ := bind_ok.1 hg
  obtain ⟨v, h2, hg⟩ := bind_ok.1 hg
  have ht := h.apart root _ h.lo (getDict_ok.1 h1)
  unfold dget at h2
  split at h2 <;> rename_i hl
  · obtain rfl := Except.ok.inj h2
    obtain ⟨kv, hm, rfl⟩ := lookup_mem hl
    have hf := ht kv hm
    generalize kv.2 = v at hg hf
    unfold valDict at hg
    split at hg
    · split at hg <;> rename_i h3
      · obtain ⟨rfl, rfl⟩ := Prod.mk.inj (Except.ok.inj hg)
        exact ⟨hf, getDict_ok.1 h3⟩
      · cases hg
    · cases hg
  · cases h2

theorem setIn_apart {base : Store K} {root : Nat} {st st' : Store K} (h : Apart base root st) {g k : String}
    {v : Val K} (hv : v.Plain) (hs : setIn st root g k v = .ok st') : Apart base root st' := by
  unfold setIn at hs
  obtain ⟨⟨a, d⟩, h1, hs⟩ := bind_ok.1 hs
  obtain ⟨ha, hd⟩ := groupOf_apart h h1
  obtain rfl := pure_ok.1 hs
  exact set_apart h ha (dset_ok (h.closed _ (List.mem_of_getElem? hd)) _ (hv.ok _))
    (dset_from (h.apart a _ ha hd) _ (hv.from _))

/-- The step keeps what was there. -/
def Harmless (root : Nat) (f : Store K → Except PyErr (Store K)) : Prop :=
  ∀ base st st', Apart base root st → f st = .ok st' → Apart base root st'

theorem defaultElasticity_harmless (root : Nat) (sim : Dict (Val K)) :
    Harmless root (defaultElasticity · root sim) := by
  intro base st st' h hs
  unfold defaultElasticity at hs
  split at hs
  · exact setIn_apart h (by intro a; simp) hs
  · obtain rfl := Except.ok.inj hs; exact h

theorem addDerived_harmless (root ne nt : Nat) : Harmless (K := K) root (addDerived root ne nt) := by
  intro base st st' h hs
  unfold addDerived at hs
  obtain ⟨top, h1, hs⟩ := bind_ok.1 hs
  obtain rfl := pure_ok.1 hs
  have htop := getDict_ok.1 h1
  have hle := h.kept.length_le
  have hkv : ∀ kv ∈ dset top "DERIVED_ATTR" (.ref st.length), kv.2.Ok (st.length + 1) :=
    dset_ok (fun kv hkv => (h.closed _ (List.mem_of_getElem? htop) kv hkv).mono (by omega)) _ (by simp [Val.Ok])
  refine ⟨?_, ?_, ?_, h.lo, by simpa using Nat.lt_succ_of_lt h.hi⟩
  · rw [List.prefix_iff_getElem?]
    intro i hi
    rw [List.getElem?_append_left (by simpa using by omega),
      List.getElem?_set_ne (by have := h.lo; omega)]
    exact List.prefix_iff_getElem?.1 h.kept i hi
  · intro o ho
    rw [List.length_append, List.length_set, List.length_singleton]
    rcases List.mem_append.1 ho with ho | ho
    · rcases List.mem_or_eq_of_mem_set ho with ho | rfl
      · exact (h.closed o ho).mono (by omega)
      · exact hkv
    · obtain rfl := List.mem_singleton.1 ho
      intro kv hkv
      simp only [List.mem_cons, List.not_mem_nil, or_false] at hkv
      rcases hkv with rfl | rfl <;> trivial
  · intro x o hx ho
    rcases lt_trichotomy x st.length with hxl | hxl | hxl
    · rw [List.getElem?_append_left (by simpa using hxl)] at ho
      by_cases hxr : root = x
      · subst hxr
        rw [List.getElem?_set_self h.hi] at ho
        obtain rfl := Option.some.inj ho
        exact dset_from (h.apart _ _ hx htop) _ (show base.length ≤ st.length from hle)
      · rw [List.getElem?_set_ne hxr] at ho
        exact h.apart x o hx ho
    · subst hxl
      rw [List.getElem?_append_right (by simp)] at ho
      simp only [List.length_set, Nat.sub_self, List.getElem?_cons_zero, Option.some.injEq] at ho
      subst ho
      intro kv hkv
      simp only [List.mem_cons, List.not_mem_nil, or_false] at hkv
      rcases hkv with rfl | rfl <;> trivial
    · rw [List.getElem?_eq_none (by simp; omega)] at ho
      cases ho

theorem processTaxSystem_harmless (root : Nat) : Harmless (K := K) root (processTaxSystem · root) := by
  intro base st st' h hs
  unfold processTaxSystem at hs
  obtain ⟨⟨a, d⟩, -, hs⟩ := bind_ok.1 hs
  dsimp only at hs
  split_ifs at hs
  obtain ⟨y, -, hs⟩ := bind_ok.1 hs
  split_ifs at hs
  exact setIn_apart h (by intro a; simp) hs

theorem createChildCareCosts_harmless (root : Nat) :
    Harmless (K := K) root (createChildCareCosts · root) := by
  intro base st st' h hs
  unfold createChildCareCosts at hs
  obtain ⟨⟨a, d⟩, -, hs⟩ := bind_ok.1 hs
  dsimp only at hs
  split_ifs at hs
  obtain ⟨y, -, hs⟩ := bind_ok.1 hs
  obtain ⟨⟨b, c⟩, -, hs⟩ := bind_ok.1 hs
  dsimp only at hs
  split_ifs at hs
  obtain ⟨_, -, hs⟩ := bind_ok.1 hs
  obtain ⟨_, -, hs⟩ := bind_ok.1 hs
  obtain ⟨_, -, hs⟩ := bind_ok.1 hs
  obtain ⟨_, -, hs⟩ := bind_ok.1 hs
  exact setIn_apart h (by intro a; simp) hs

theorem processSsc_harmless (root : Nat) : Harmless (K := K) root (processSsc · root) := by
  intro base st st' h hs
  unfold processSsc at hs
  obtain ⟨⟨a, d⟩, -, hs⟩ := bind_ok.1 hs
  obtain ⟨_, -, hs⟩ := bind_ok.1 hs
  obtain ⟨_, -, hs⟩ := bind_ok.1 hs
  obtain ⟨_, -, hs⟩ := bind_ok.1 hs
  obtain ⟨_, -, hs⟩ := bind_ok.1 hs
  exact setIn_apart h (by intro a; simp) hs

theorem divideIn_harmless (root : Nat) (k : String) (q : K) : Harmless root (divideIn · root k q) := by
  intro base st st' h hs
  unfold divideIn at hs
  obtain ⟨⟨a, d⟩, -, hs⟩ := bind_ok.1 hs
  obtain ⟨_, -, hs⟩ := bind_ok.1 hs
  obtain ⟨_, -, hs⟩ := bind_ok.1 hs
  exact setIn_apart h (by intro a; simp) hs

/-! ## Programs that work on new objects only -/

/-- The program leaves the generator and the files alone and works on new objects, whether it returns or
raises. -/
def Py.Keeps {α : Type} (root : Nat) (x : Py S K α) : Prop :=
  ∀ base p, Apart base root p.store →
    Apart base root (x p).2.store ∧ (x p).2.rng = p.rng ∧ (x p).2.disk = p.disk

theorem Py.bind_eq {α β : Type} (x : Py S K α) (f : α → Py S K β) (p : Process S K) :
    (x >>= f) p = match x p with
      | (.ok a, p') => f a p'
      | (.error e, p') => (.error e, p') := rfl

theorem Py.Keeps.bind {α β : Type} {root : Nat} {x : Py S K α} {f : α → Py S K β} (hx : x.Keeps root)
    (hf : ∀ a, (f a).Keeps root) : (x >>= f).Keeps root := by
  intro base p hp
  have h := hx base p hp
  rw [Py.bind_eq]
  rcases hxp : x p with ⟨r, p'⟩
  rw [hxp] at h
  cases r with
  | error e => exact h
  | ok a =>
    obtain ⟨h1, h2, h3⟩ := hf a base p' h.1
    exact ⟨h1, h2.trans h.2.1, h3.trans h.2.2⟩

theorem Py.Keeps.calc {α : Type} (root : Nat) (x : Except PyErr α) :
    (Py.calc x : Py S K α).Keeps root := fun _ _ hp => ⟨hp, rfl, rfl⟩

theorem Py.Keeps.look {α : Type} (root : Nat) (f : Store K → Except PyErr α) :
    (Py.look f : Py S K α).Keeps root := fun _ _ hp => ⟨hp, rfl, rfl⟩

theorem Py.Keeps.write {root : Nat} {f : Store K → Except PyErr (Store K)} (hf : Harmless root f) :
    (Py.write f : Py S K Unit).Keeps root := by
  intro base p hp
  unfold Py.write
  cases h : f p.store with
  | error e => exact ⟨hp, rfl, rfl⟩
  | ok st => exact ⟨hf base _ _ hp h, rfl, rfl⟩

theorem expandSpec_keeps (root nt : Nat) : (expandSpec root nt : Py S K Unit).Keeps root := by
  unfold expandSpec
  refine .bind (.look _ _) fun _ => ?_
  refine .bind (.calc _ _) fun _ => ?_
  refine .bind (.look _ _) fun _ => ?_
  refine .bind (.look _ _) fun _ => ?_
  refine .bind (.write (defaultElasticity_harmless _ _)) fun _ => ?_
  refine .bind (.write (addDerived_harmless _ _ _)) fun _ => ?_
  refine .bind (.write (processTaxSystem_harmless _)) fun _ => ?_
  refine .bind (.write (createChildCareCosts_harmless _)) fun _ => ?_
  refine .bind (.write (processSsc_harmless _)) fun _ => ?_
  refine .bind (.write (divideIn_harmless _ _ _)) fun _ => ?_
  refine .bind (.write (divideIn_harmless _ _ _)) fun _ => ?_
  refine .bind (.write (divideIn_harmless _ _ _)) fun _ => ?_
  refine .bind (.write (divideIn_harmless _ _ _)) fun _ => ?_
  exact .write (divideIn_harmless _ _ _)

/-- `read_model_spec_init` after the object has been loaded or copied. -/
def readRoot (root nt : Nat) : Py S K (ModelSpec K) := do
  expandSpec root nt
  let flat ← .look (flattenModelSpecDict · root)
  let top ← .look (getDict · root)
  let gridVal ← .calc (dget top "exp_grid")
  let grid ← .look (listNums · gridVal)
  .look (specOfFlat · flat grid)

theorem readModelSpecInit_eq (sa : SpecArg) (nt : Nat) :
    (readModelSpecInit sa nt : Py S K (ModelSpec K)) = (loadSpec sa >>= fun root => readRoot root nt) := rfl

theorem readRoot_keeps (root nt : Nat) : (readRoot root nt : Py S K (ModelSpec K)).Keeps root := by
  unfold readRoot
  refine .bind (expandSpec_keeps _ _) fun _ => ?_
  refine .bind (.look _ _) fun _ => ?_
  refine .bind (.look _ _) fun _ => ?_
  refine .bind (.calc _ _) fun _ => ?_
  refine .bind (.look _ _) fun _ => ?_
  exact .look _ _

/-! ## Agreement with the definitions without effects -/

/-- The program returns what the function says; on success the memory is the one the function gives. -/
def Py.Does {α : Type} (x : Py S K α) (f : Store K → Except PyErr (Store K × α)) : Prop :=
  ∀ p, match f p.store with
    | .ok (st, a) => x p = (.ok a, { p with store := st })
    | .error e => (x p).1 = .error e

theorem Py.Does.bind {α β : Type} {x : Py S K α} {f : Store K → Except PyErr (Store K × α)}
    {y : α → Py S K β} {g : α → Store K → Except PyErr (Store K × β)} (hx : x.Does f)
    (hy : ∀ a, (y a).Does (g a)) : (x >>= y).Does (fun st => f st >>= fun r => g r.2 r.1) := by
  intro p
  have h := hx p
  show match (f p.store >>= fun r => g r.2 r.1) with | .ok (st, a) => _ | .error e => _
  cases hf : f p.store with
  | error e =>
    rw [hf] at h
    show ((x >>= y) p).1 = .error e
    rw [Py.bind_eq]
    rcases hxp : x p with ⟨r, p'⟩
    rw [hxp] at h
    dsimp only at h
    subst h
    rfl
  | ok r =>
    rw [hf] at h
    obtain ⟨st, a⟩ := r
    dsimp only at h
    have h2 := hy a { p with store := st }
    rw [ok_bind]
    dsimp only at h2 ⊢
    have h3 : (x >>= y) p = y a { p with store := st } := by rw [Py.bind_eq, h]
    rw [h3]
    exact h2

theorem Py.Does.look {α : Type} (f : Store K → Except PyErr α) :
    (Py.look f : Py S K α).Does (fun st => f st >>= fun a => pure (st, a)) := by
  intro p
  unfold Py.look
  cases h : f p.store with
  | error e => simp only [h]; rfl
  | ok a => simp only [h]; rfl

theorem Py.Does.calc {α : Type} (x : Except PyErr α) :
    (Py.calc x : Py S K α).Does (fun st => x >>= fun a => pure (st, a)) := by
  intro p
  unfold Py.calc
  cases x <;> rfl

theorem Py.Does.write (f : Store K → Except PyErr (Store K)) :
    (Py.write f : Py S K Unit).Does (fun st => f st >>= fun st' => pure (st', ())) := by
  intro p
  unfold Py.write
  cases h : f p.store with
  | error e => simp only [h]; rfl
  | ok a => simp only [h]; rfl

theorem Py.Does.congr {α : Type} {x : Py S K α} {f g : Store K → Except PyErr (Store K × α)}
    (h : x.Does f) (hfg : ∀ st, f st = g st) : x.Does g := by
  have : f = g := funext hfg
  rwa [← this]

theorem expandSpec_does (root nt : Nat) : (expandSpec root nt : Py S K Unit).Does
    (fun st => expandModelSpecDict st root nt >>= fun st' => pure (st', ())) := by
  unfold expandSpec
  refine Py.Does.congr (
    .bind (.look _) fun _ => .bind (.calc _) fun _ => .bind (.look _) fun _ => .bind (.look _) fun _ =>
    .bind (.write _) fun _ => .bind (.write _) fun _ => .bind (.write _) fun _ => .bind (.write _) fun _ =>
    .bind (.write _) fun _ => .bind (.write _) fun _ => .bind (.write _) fun _ => .bind (.write _) fun _ =>
    .bind (.write _) fun _ => .write _) ?_
  intro st
  simp only [expandModelSpecDict, addDerived, processElterngeld, processErziehungsgeld, bind_assoc, pure_bind]

theorem readRoot_does (root nt : Nat) : (readRoot root nt : Py S K (ModelSpec K)).Does
    (fun st => readCopied st root nt) := by
  unfold readRoot
  refine Py.Does.congr (.bind (expandSpec_does root nt) fun _ => .bind (.look _) fun _ =>
    .bind (.look _) fun _ => .bind (.calc _) fun _ => .bind (.look _) fun _ => .look _) ?_
  intro st
  simp only [readCopied, bind_assoc, pure_bind]

/-! ## Reading the specification -/

theorem shift_from (n : Nat) (o : Obj K) : (o.shift n).From n := by
  have hv : ∀ v : Val K, (v.shift n).From n := by
    intro v; cases v <;> simp [Val.shift, Val.From]
  cases o with
  | dict d =>
    intro kv hkv
    simp only [List.mem_map] at hkv
    obtain ⟨kv', -, rfl⟩ := hkv
    exact hv _
  | list l =>
    intro v hkv
    simp only [List.mem_map] at hkv
    obtain ⟨v', -, rfl⟩ := hkv
    exact hv _

theorem shift_ok {n m : Nat} {o : Obj K} (h : o.Ok m) : (o.shift n).Ok (n + m) := by
  have hv : ∀ v : Val K, v.Ok m → (v.shift n).Ok (n + m) := by
    intro v; cases v <;> simp [Val.shift, Val.Ok]; omega
  cases o with
  | dict d =>
    intro kv hkv
    simp only [List.mem_map] at hkv
    obtain ⟨kv', hm, rfl⟩ := hkv
    exact hv _ (h kv' hm)
  | list l =>
    intro v hkv
    simp only [List.mem_map] at hkv
    obtain ⟨v', hm, rfl⟩ := hkv
    exact hv _ (h v' hm)

/-- Objects placed at the end of memory. -/
def placed (st objs : Store K) : Store K := st ++ objs.map (Obj.shift st.length)

theorem placed_length (st objs : Store K) : (placed st objs).length = st.length + objs.length := by
  simp [placed]

theorem placed_closed {st objs : Store K} (hc : Closed st) (ho : Closed objs) : Closed (placed st objs) := by
  intro o h
  rw [placed_length]
  rcases List.mem_append.1 h with h | h
  · exact (hc o h).mono (by omega)
  · obtain ⟨o', h', rfl⟩ := List.mem_map.1 h
    exact shift_ok (ho o' h')

theorem placed_apart {st objs : Store K} (hc : Closed st) (ho : Closed objs) {root : Nat}
    (hr : root < objs.length) : Apart st (root + st.length) (placed st objs) := by
  refine ⟨List.prefix_append _ _, placed_closed hc ho, ?_, by omega, by rw [placed_length]; omega⟩
  intro x o hx h
  unfold placed at h
  rw [List.getElem?_append_right hx, List.getElem?_map] at h
  obtain ⟨o', -, rfl⟩ := Option.map_eq_some_iff.1 h
  exact shift_from _ _

theorem placed_emb (st : Store K) {objs : Store K} (ho : Closed objs) :
    Emb (· + st.length) objs (placed st objs) := by
  refine ⟨fun x y h => by simpa using h, ?_, ho⟩
  intro x o hx
  unfold placed
  rw [List.getElem?_append_right (by omega), Nat.add_sub_cancel, List.getElem?_map, hx,
    Option.map_some, Obj.shift_eq_ren]

theorem RelE.snd {α β γ : Type} {x : Except PyErr (α × γ)} {y : Except PyErr (β × γ)}
    {R : α × γ → β × γ → Prop} (h : RelE R x y) (hR : ∀ a b, R a b → b.2 = a.2) :
    x.map Prod.snd = y.map Prod.snd := by
  cases x with
  | error e => cases y with
    | error e' => obtain rfl : e = e' := h; rfl
    | ok b => exact h.elim
  | ok a => cases y with
    | error e' => exact h.elim
    | ok b => exact congrArg Except.ok (hR a b h).symm

/-- Reading objects placed in memory. -/
theorem readCopied_placed (st : Store K) {objs : Store K} (ho : Closed objs) {root : Nat}
    (hr : root < objs.length) (nt : Nat) :
    (readCopied (placed st objs) (root + st.length) nt).map Prod.snd
      = (readCopied objs root nt).map Prod.snd :=
  (RelE.snd (readCopied_emb (placed_emb st ho) (by rw [placed_length]; omega) hr nt)
    (fun _ _ h => h.2)).symm

/-- What an argument for the specification reads as, given the files and some memory in which it exists. -/
def specData (d : Disk K) (st : Store K) (nt : Nat) : SpecArg → Except PyErr (ModelSpec K)
  | .path name => match d.specs name with
    | some (objs, root) => (readCopied objs root nt).map Prod.snd
    | none => .error (.fileNotFound name)
  | .obj a => (readCopied st a nt).map Prod.snd

theorem readRoot_fst (root nt : Nat) (p : Process S K) :
    (readRoot root nt p).1 = (readCopied p.store root nt).map Prod.snd := by
  have h := readRoot_does root nt p
  dsimp only at h
  cases hr : readCopied p.store root nt with
  | error e => rw [hr] at h; exact h
  | ok r => rw [hr] at h; obtain ⟨st, a⟩ := r; dsimp only at h; rw [h]; rfl

/-- The result of reading, and what is left behind. -/
theorem readModelSpecInit_run {p : Process S K} (hp : Sound p) {sa : SpecArg} (ha : Exists p sa) (nt : Nat) :
    (readModelSpecInit sa nt p).1 = specData p.disk p.store nt sa ∧
    p.store <+: (readModelSpecInit sa nt p).2.store ∧ Closed (readModelSpecInit sa nt p).2.store ∧
    (readModelSpecInit sa nt p).2.rng = p.rng ∧ (readModelSpecInit sa nt p).2.disk = p.disk := by
  rw [readModelSpecInit_eq, Py.bind_eq]
  cases sa with
  | path name =>
    unfold loadSpec specData
    cases hd : p.disk.specs name with
    | none => simp only [hd]; exact ⟨trivial, List.prefix_rfl, hp.closed, trivial, trivial⟩
    | some x =>
      obtain ⟨objs, root⟩ := x
      obtain ⟨ho, hr⟩ := hp.files name objs root hd
      simp only [hd]
      have hk := readRoot_keeps (S := S) (root + p.store.length) nt p.store
        { p with store := placed p.store objs } (placed_apart hp.closed ho hr)
      refine ⟨?_, hk.1.kept, hk.1.closed, hk.2⟩
      exact (readRoot_fst _ _ _).trans (readCopied_placed _ ho hr nt)
  | obj a =>
    unfold loadSpec specData
    simp only [deepcopy]
    have hk := readRoot_keeps (S := S) (a + p.store.length) nt p.store
        { p with store := placed p.store p.store } (placed_apart hp.closed hp.closed ha)
    refine ⟨?_, hk.1.kept, hk.1.closed, hk.2⟩
    exact (readRoot_fst _ _ _).trans (readCopied_placed _ hp.closed ha nt)

theorem specData_ext {d : Disk K} {st st' : Store K} (hc : Closed st) (hc' : Closed st') (hp : st <+: st')
    {a : Nat} (ha : a < st.length) (nt : Nat) :
    specData d st' nt (.obj a) = specData d st nt (.obj a) := by
  obtain ⟨rest, rfl⟩ := hp
  have h := readCopied_emb (prefix_emb (rest := rest) hc) (by simp) ha nt
  simp only [if_pos ha] at h
  exact (RelE.snd h (fun _ _ h => h.2)).symm

theorem specData_obj {d : Disk K} {st : Store K} (hc : Closed st) {a : Nat} (ha : a < st.length) (nt : Nat) :
    specData d st nt (.obj a) = (readModelSpec st a nt).map Prod.snd :=
  RelE.snd (readModelSpec_core hc ha nt) (fun _ _ h => h.2)

/-! ## Two processes side by side -/

/-- Whatever the program does in two related processes, it returns the same and leaves related processes. -/
def Py.Cong {α : Type} (R : Process S K → Process S K → Prop) (x y : Py S K α) : Prop :=
  ∀ p p', R p p' → (x p).1 = (y p').1 ∧ R (x p).2 (y p').2

theorem Py.Cong.bind {α β : Type} {R : Process S K → Process S K → Prop} {x y : Py S K α}
    {f g : α → Py S K β} (hx : Py.Cong R x y) (hf : ∀ a, Py.Cong R (f a) (g a)) :
    Py.Cong R (x >>= f) (y >>= g) := by
  intro p p' h
  obtain ⟨h1, h2⟩ := hx p p' h
  rw [Py.bind_eq, Py.bind_eq]
  rcases hxp : x p with ⟨r, q⟩
  rcases hyp : y p' with ⟨r', q'⟩
  rw [hxp, hyp] at h1 h2
  dsimp only at h1 h2
  subst h1
  cases r with
  | error e => exact ⟨rfl, h2⟩
  | ok a => exact hf a q q' h2

theorem Py.Cong.calc {α : Type} {R : Process S K → Process S K → Prop} (x : Except PyErr α) :
    Py.Cong R (Py.calc x) (Py.calc x) := fun _ _ h => ⟨rfl, h⟩

theorem Py.Cong.pure {α : Type} {R : Process S K → Process S K → Prop} (x : α) :
    Py.Cong R (Pure.pure x) (Pure.pure x) := fun _ _ h => ⟨rfl, h⟩

theorem Py.Cong.draw {α : Type} {R : Process S K → Process S K → Prop}
    (hR : ∀ p p' g g', R p p' → R { p with rng := g } { p' with rng := g' })
    {lost lost' : S} {f f' : S → Except PyErr (α × S)} (hf : ∀ g g', dataOf (f g) = dataOf (f' g')) :
    Py.Cong R (Py.draw lost f) (Py.draw lost' f') := by
  intro p p' h
  have h1 := hf p.rng p'.rng
  unfold Py.draw
  cases hx : f p.rng with
  | error e =>
    cases hy : f' p'.rng with
    | error e' => rw [hx, hy] at h1; dsimp only; exact ⟨by rw [Except.error.inj h1], hR _ _ _ _ h⟩
    | ok b => rw [hx, hy] at h1; cases h1
  | ok a =>
    cases hy : f' p'.rng with
    | error e' => rw [hx, hy] at h1; cases h1
    | ok b =>
      rw [hx, hy] at h1
      dsimp only
      exact ⟨by rw [Except.ok.inj h1], hR _ _ _ _ h⟩

/-- Two processes in which the objects of `st` are unchanged and which agree on the files read by
`loadFrame` and `loadSpec`, and on the tables if `tables` is set. -/
structure Alike (st : Store K) (tables : Bool) (p p' : Process S K) : Prop where
  kept : st <+: p.store
  kept' : st <+: p'.store
  sound : Sound p
  sound' : Sound p'
  frames : p.disk.frames = p'.disk.frames
  specs : p.disk.specs = p'.disk.specs
  shares : tables = true → p.disk.shares = p'.disk.shares

theorem Alike.reseed {st : Store K} {b : Bool} {p p' : Process S K} (h : Alike st b p p') (g g' : S) :
    Alike st b { p with rng := g } { p' with rng := g' } :=
  ⟨h.kept, h.kept', ⟨h.sound.closed, h.sound.files⟩, ⟨h.sound'.closed, h.sound'.files⟩, h.frames, h.specs,
    h.shares⟩

theorem loadFrame_cong {st : Store K} {b : Bool} (fa : FrameArg K) :
    Py.Cong (Alike (S := S) st b) (loadFrame fa) (loadFrame fa) := by
  intro p p' h
  cases fa with
  | path name =>
    have e := congrFun h.frames name
    unfold loadFrame
    dsimp only
    cases hf : p'.disk.frames name with
    | none => rw [hf] at e; simp only [e]; exact ⟨trivial, h⟩
    | some f => rw [hf] at e; simp only [e]; exact ⟨trivial, h⟩
  | frame f => exact ⟨rfl, h⟩
  | other => exact ⟨rfl, h⟩

theorem readModelParamsInit_cong {st : Store K} {b : Bool} (fa : FrameArg K) :
    Py.Cong (Alike (S := S) st b) (readModelParamsInit fa) (readModelParamsInit fa) := by
  unfold readModelParamsInit
  exact .bind (loadFrame_cong fa) fun _ => .bind (.calc _) fun _ => .pure _

theorem readShares_cong {st : Store K} (name : String) :
    Py.Cong (Alike (S := S) st true) (readShares name) (readShares name) := by
  intro p p' h
  unfold readShares
  rw [h.shares rfl]
  cases p'.disk.shares name with
  | none => exact ⟨rfl, h⟩
  | some f => exact ⟨rfl, h⟩

/-- The argument exists in a memory. -/
def SpecArg.In (st : Store K) : SpecArg → Prop
  | .path _ => True
  | .obj a => a < st.length

theorem SpecArg.In.exists {st : Store K} {sa : SpecArg} (h : sa.In st) {p : Process S K}
    (hp : st <+: p.store) : Exists p sa := by
  cases sa with
  | path name => trivial
  | obj a => exact lt_of_lt_of_le h hp.length_le

theorem readModelSpecInit_cong {st : Store K} (hc : Closed st) {b : Bool} {sa : SpecArg} (ha : sa.In st)
    (nt : Nat) : Py.Cong (Alike (S := S) st b) (readModelSpecInit sa nt) (readModelSpecInit sa nt) := by
  intro p p' h
  obtain ⟨h1, h2, h3, h4, h5⟩ := readModelSpecInit_run h.sound (ha.exists h.kept) nt
  obtain ⟨k1, k2, k3, k4, k5⟩ := readModelSpecInit_run h.sound' (ha.exists h.kept') nt
  refine ⟨?_, h.kept.trans h2, h.kept'.trans k2, ⟨h3, by rw [h5]; exact h.sound.files⟩,
    ⟨k3, by rw [k5]; exact h.sound'.files⟩, by rw [h5, k5]; exact h.frames, by rw [h5, k5]; exact h.specs,
    by rw [h5, k5]; exact h.shares⟩
  rw [h1, k1]
  cases sa with
  | path name => unfold specData; rw [h.specs]
  | obj a =>
    rw [specData_ext hc h.sound.closed h.kept ha, specData_ext hc h.sound'.closed h.kept' ha]
    rfl

theorem buildObjects_cong {st : Store K} (rng : Rng S K) (hermite : Nat → List K × List K)
    (spec : ModelSpec K) (biased : Bool) (lost lost' : S) :
    Py.Cong (Alike st true) (buildObjects rng hermite spec biased lost)
      (buildObjects rng hermite spec biased lost') := by
  unfold buildObjects
  refine .bind (readShares_cong _) fun _ => .bind (readShares_cong _) fun _ => .bind (.calc _) fun _ =>
    .bind (readShares_cong _) fun _ => .bind (readShares_cong _) fun _ => .bind (.calc _) fun _ =>
    .bind (readShares_cong _) fun _ => .bind (.calc _) fun _ => .bind (readShares_cong _) fun _ =>
    .bind (.calc _) fun _ => .bind (readShares_cong _) fun _ => .bind (.calc _) fun _ =>
    .bind (readShares_cong _) fun _ =>
    .bind (.calc _) fun _ => .bind (.calc _) fun _ => .bind ?_ fun _ => .pure _
  exact .draw (fun p p' g g' h => h.reseed g g')
    (fun g g' => getSolveFunction_free rng hermite spec _ _ _ _ _ biased g g')

theorem getSimulateFuncP_cong {st : Store K} (hc : Closed st) (rng : Rng S K)
    (hermite : Nat → List K × List K) (fa : FrameArg K) {sa : SpecArg} (ha : sa.In st) (biased : Bool)
    (lost lost' : S) :
    Py.Cong (Alike st true) (getSimulateFuncP rng hermite fa sa biased lost)
      (getSimulateFuncP rng hermite fa sa biased lost') := by
  unfold getSimulateFuncP
  exact .bind (readModelParamsInit_cong fa) fun _ => .bind (readModelSpecInit_cong hc ha _) fun _ =>
    buildObjects_cong rng hermite _ biased lost lost'

theorem callSimulateFuncP_cong {st : Store K} (hc : Closed st) {b : Bool} (rng : Rng S K) (c : Cached K)
    (sparse : Bool) (fa : FrameArg K) {sa : SpecArg} (ha : sa.In st) (lost lost' : S) :
    Py.Cong (Alike st b) (callSimulateFuncP rng c sparse fa sa lost)
      (callSimulateFuncP rng c sparse fa sa lost') := by
  unfold callSimulateFuncP
  refine .bind (readModelParamsInit_cong fa) fun _ => .bind (readModelSpecInit_cong hc ha _) fun _ =>
    .bind (.calc _) fun _ => ?_
  exact .draw (fun p p' g g' h => h.reseed g g') (fun g g' => rfl)

theorem simulateP_cong {st : Store K} (hc : Closed st) (rng : Rng S K)
    (hermite : Nat → List K × List K) (fa : FrameArg K) {sa : SpecArg} (ha : sa.In st) (biased sparse : Bool)
    (l1 l2 l3 l4 : S) :
    Py.Cong (Alike st true) (simulateP rng hermite fa sa biased sparse l1 l2)
      (simulateP rng hermite fa sa biased sparse l3 l4) := by
  unfold simulateP
  exact .bind (getSimulateFuncP_cong hc rng hermite fa ha biased l1 l3) fun _ =>
    callSimulateFuncP_cong hc rng _ sparse fa ha l2 l4

/-! ## What a call leaves behind -/

/-- The program preserves a property of the process, whether it returns or raises. -/
def Py.Inv {α : Type} (I : Process S K → Prop) (x : Py S K α) : Prop := ∀ p, I p → I (x p).2

theorem Py.Inv.bind {α β : Type} {I : Process S K → Prop} {x : Py S K α} {f : α → Py S K β}
    (hx : x.Inv I) (hf : ∀ a, (f a).Inv I) : (x >>= f).Inv I := by
  intro p hp
  have h := hx p hp
  rw [Py.bind_eq]
  rcases hxp : x p with ⟨r, q⟩
  rw [hxp] at h
  cases r with
  | error e => exact h
  | ok a => exact hf a q h

theorem Py.Inv.calc {α : Type} {I : Process S K → Prop} (x : Except PyErr α) : (Py.calc x).Inv I :=
  fun _ h => h

theorem Py.Inv.pure {α : Type} {I : Process S K → Prop} (x : α) : Py.Inv I (Pure.pure x) := fun _ h => h

theorem Py.Inv.draw {α : Type} {I : Process S K → Prop} (hI : ∀ p g, I p → I { p with rng := g }) (lost : S)
    (f : S → Except PyErr (α × S)) : (Py.draw lost f).Inv I := by
  intro p h
  unfold Py.draw
  cases f p.rng with
  | error e => exact hI _ _ h
  | ok a => exact hI _ _ h

/-- Memory has only grown and the files are as before. -/
structure Grown (p q : Process S K) : Prop where
  kept : p.store <+: q.store
  closed : Closed q.store
  disk : q.disk = p.disk

theorem Grown.reseed {p q : Process S K} (h : Grown p q) (g : S) : Grown p { q with rng := g } :=
  ⟨h.kept, h.closed, h.disk⟩

theorem Grown.sound {p q : Process S K} (h : Grown p q) (hp : Sound p) : Sound q :=
  ⟨h.closed, by rw [h.disk]; exact hp.files⟩

theorem Exists.grown {p q : Process S K} {sa : SpecArg} (ha : Exists p sa) (h : p.store <+: q.store) :
    Exists q sa := by
  cases sa with
  | path name => trivial
  | obj a => exact lt_of_lt_of_le (show a < p.store.length from ha) h.length_le

theorem readModelParamsInit_inv (I : Process S K → Prop) (fa : FrameArg K) :
    (readModelParamsInit fa : Py S K _).Inv I := by
  unfold readModelParamsInit
  refine .bind ?_ fun _ => .bind (.calc _) fun _ => .pure _
  intro p h
  cases fa with
  | path name =>
    unfold loadFrame
    dsimp only
    cases p.disk.frames name with
    | none => exact h
    | some f => exact h
  | frame f => exact h
  | other => exact h

theorem readShares_inv (I : Process S K → Prop) (name : String) : (readShares name : Py S K _).Inv I := by
  intro p h
  unfold readShares
  cases p.disk.shares name with
  | none => exact h
  | some f => exact h

theorem readModelSpecInit_inv {p0 : Process S K} (hp : Sound p0) {sa : SpecArg} (ha : Exists p0 sa) (nt : Nat) :
    (readModelSpecInit sa nt : Py S K _).Inv (Grown p0) := by
  intro p h
  obtain ⟨-, h2, h3, -, h5⟩ := readModelSpecInit_run (h.sound hp) (Exists.grown ha h.kept) nt
  exact ⟨h.kept.trans h2, h3, h5.trans h.disk⟩

theorem getSimulateFuncP_inv {p0 : Process S K} (hp : Sound p0) (rng : Rng S K)
    (hermite : Nat → List K × List K) (fa : FrameArg K) {sa : SpecArg} (ha : Exists p0 sa) (biased : Bool)
    (lost : S) : (getSimulateFuncP rng hermite fa sa biased lost).Inv (Grown p0) := by
  unfold getSimulateFuncP
  refine .bind (readModelParamsInit_inv _ fa) fun _ => .bind (readModelSpecInit_inv hp ha _) fun spec => ?_
  unfold buildObjects
  exact .bind (readShares_inv _ _) fun _ => .bind (readShares_inv _ _) fun _ => .bind (.calc _) fun _ =>
    .bind (readShares_inv _ _) fun _ => .bind (readShares_inv _ _) fun _ => .bind (.calc _) fun _ =>
    .bind (readShares_inv _ _) fun _ => .bind (.calc _) fun _ => .bind (readShares_inv _ _) fun _ =>
    .bind (.calc _) fun _ => .bind (readShares_inv _ _) fun _ => .bind (.calc _) fun _ =>
    .bind (readShares_inv _ _) fun _ =>
    .bind (.calc _) fun _ => .bind (.calc _) fun _ => .bind (.draw (fun p g h => h.reseed g) _ _) fun _ =>
    .pure _

theorem callSimulateFuncP_inv {p0 : Process S K} (hp : Sound p0) (rng : Rng S K) (c : Cached K)
    (sparse : Bool) (fa : FrameArg K) {sa : SpecArg} (ha : Exists p0 sa) (lost : S) :
    (callSimulateFuncP rng c sparse fa sa lost).Inv (Grown p0) := by
  unfold callSimulateFuncP
  exact .bind (readModelParamsInit_inv _ fa) fun _ => .bind (readModelSpecInit_inv hp ha _) fun spec =>
    .bind (.calc _) fun _ => .draw (fun p g h => h.reseed g) _ _

theorem simulateP_inv {p0 : Process S K} (hp : Sound p0) (rng : Rng S K)
    (hermite : Nat → List K × List K) (fa : FrameArg K) {sa : SpecArg} (ha : Exists p0 sa)
    (biased sparse : Bool) (lost lost' : S) :
    (simulateP rng hermite fa sa biased sparse lost lost').Inv (Grown p0) := by
  unfold simulateP
  exact .bind (getSimulateFuncP_inv hp rng hermite fa ha biased lost) fun _ =>
    callSimulateFuncP_inv hp rng _ sparse fa ha lost'

theorem Grown.refl {p : Process S K} (hp : Sound p) : Grown p p := ⟨List.prefix_rfl, hp.closed, rfl⟩

/-- After any session the objects of the start are unchanged. -/
theorem Acts.kept {rng : Rng S K} {hermite : Nat → List K × List K} {st : Store K}
    {x y : Process S K × List (Cached K)} (h : Acts rng hermite st.length x y) (hx : Sound x.1)
    (hs : st <+: x.1.store) : st <+: y.1.store ∧ Sound y.1 := by
  induction h with
  | none => exact ⟨hs, hx⟩
  | more h c ih =>
    obtain ⟨h1, h2⟩ := ih
    cases c with
    | simulate fa ha biased sparse lost lost' =>
      have := simulateP_inv h2 rng hermite fa ha biased sparse lost lost' _ (Grown.refl h2)
      exact ⟨h1.trans this.kept, this.sound h2⟩
    | getFunc fa ha biased lost _ =>
      have := getSimulateFuncP_inv h2 rng hermite fa ha biased lost _ (Grown.refl h2)
      exact ⟨h1.trans this.kept, this.sound h2⟩
    | getFuncRaises fa ha biased lost _ =>
      have := getSimulateFuncP_inv h2 rng hermite fa ha biased lost _ (Grown.refl h2)
      exact ⟨h1.trans this.kept, this.sound h2⟩
    | callFunc hc fa ha sparse lost =>
      rename_i c _
      have := callSimulateFuncP_inv h2 rng c sparse fa ha lost _ (Grown.refl h2)
      exact ⟨h1.trans this.kept, this.sound h2⟩
    | seedGlobal g => exact ⟨h1, h2.closed, h2.files⟩
    | create objs hcl => exact ⟨h1.trans (List.prefix_append _ _), hcl, h2.files⟩
    | assign x hx o hcl =>
      refine ⟨?_, hcl, h2.files⟩
      rw [List.prefix_iff_getElem?]
      intro i hi
      show (List.set _ _ _)[i]? = _
      rw [List.getElem?_set_ne (by omega)]
      exact List.prefix_iff_getElem?.1 h1 i hi
    | changeFiles d hd => exact ⟨h1, h2.closed, hd⟩

/-! ## Agreement of the entry points -/

/-- The data of `get_simulate_func`, given that all tables are there. -/
theorem buildObjects_fst (rng : Rng S K) (hermite : Nat → List K × List K) (spec : ModelSpec K) (biased : Bool)
    (lost : S) (p : Process S K) (hf : Present p.disk spec.files) :
    (buildObjects rng hermite spec biased lost p).1
      = dataOf (buildCached ⟨rng, hermite, fun n => (p.disk.shares n).getD []⟩ spec biased p.rng) := by
  have hr : ∀ name, name ∈ [spec.files.educ_shares, spec.files.child_age_shares, spec.files.partner_shares,
      spec.files.pt_exp_shares, spec.files.ft_exp_shares, spec.files.child_info,
      spec.files.partner_separation, spec.files.partner_arrival] →
      (readShares name : Py S K _) p = (.ok ((p.disk.shares name).getD []), p) := by
    intro name hn
    obtain ⟨rows, e⟩ := Option.isSome_iff_exists.1 (hf name hn)
    unfold readShares
    simp [e]
  have step : ∀ {α β : Type} (x : Except PyErr α) (f : α → Py S K β) (y : α → Except PyErr β),
      (∀ a, (f a p).1 = y a) → ((Py.calc x >>= f) p).1 = (x >>= y) := by
    intro α β x f y h
    cases x with
    | error e => rfl
    | ok a => exact h a
  have rd : ∀ {β : Type} (name : String) (f : List (Nat × K) → Py S K β), name ∈ [spec.files.educ_shares,
      spec.files.child_age_shares, spec.files.partner_shares, spec.files.pt_exp_shares,
      spec.files.ft_exp_shares, spec.files.child_info, spec.files.partner_separation,
      spec.files.partner_arrival] → ((readShares name >>= f) p) = f ((p.disk.shares name).getD []) p := by
    intro β name f hn
    rw [Py.bind_eq, hr name hn]
  have dmap : ∀ {α β : Type} (x : Except PyErr α) (f : α → Except PyErr (β × S)),
      dataOf (x >>= f) = (x >>= fun a => dataOf (f a)) := by
    intro α β x f
    cases x <;> rfl
  unfold buildObjects buildCached
  dsimp only
  rw [rd _ _ (by simp), rd _ _ (by simp), dmap]
  refine step _ _ _ fun _ => ?_
  rw [rd _ _ (by simp), rd _ _ (by simp), dmap]
  refine step _ _ _ fun _ => ?_
  rw [rd _ _ (by simp), dmap]
  refine step _ _ _ fun _ => ?_
  rw [rd _ _ (by simp), dmap]
  refine step _ _ _ fun pc => ?_
  rw [rd _ _ (by simp), genProbPartner_first, bind_assoc, dmap]
  refine step _ _ _ fun _ => ?_
  rw [rd _ _ (by simp), dmap]
  refine step _ _ _ fun pp => ?_
  rw [dmap]
  refine step _ _ _ fun space => ?_
  rw [Py.bind_eq]
  unfold Py.draw
  cases getSolveFunction rng hermite spec space.states space.covariates space.childStateIndexes pc pp biased
    p.rng with
  | error e => rfl
  | ok x => rfl

/-- What the first argument reads as. -/
def frameData (d : Disk K) : FrameArg K → Except PyErr (Frame K × ModelParams K)
  | .path name => match d.frames name with
    | some f => (readModelParams f).map fun par => (f, par)
    | none => .error (.fileNotFound name)
  | .frame f => (readModelParams f).map fun par => (f, par)
  | .other => .error .notImplemented

theorem frameData_frame (d : Disk K) (f : Frame K) :
    frameData d (.frame f) = (readModelParams f).map fun par => (f, par) := rfl

theorem readModelParamsInit_run (fa : FrameArg K) (p : Process S K) :
    readModelParamsInit fa p = (frameData p.disk fa, p) := by
  have h : ∀ f : Frame K, (do let par ← Py.calc (readModelParams f); pure (f, par) : Py S K _) p
      = ((readModelParams f).map fun par => (f, par), p) := by
    intro f
    rw [Py.bind_eq]
    unfold Py.calc
    cases readModelParams f <;> rfl
  unfold readModelParamsInit frameData
  rw [Py.bind_eq]
  cases fa with
  | path name =>
    unfold loadFrame
    dsimp only
    cases p.disk.frames name with
    | none => rfl
    | some f => exact h f
  | frame f => exact h f
  | other => rfl

theorem buildObjects_disk (rng : Rng S K) (hermite : Nat → List K × List K) (spec : ModelSpec K)
    (biased : Bool) (lost lost' : S) {p q : Process S K} (hp : Sound p) (hq : Sound q)
    (h : p.disk = q.disk) :
    (buildObjects rng hermite spec biased lost p).1 = (buildObjects rng hermite spec biased lost' q).1 :=
  (buildObjects_cong (st := []) rng hermite spec biased lost lost' p q
    ⟨List.nil_prefix, List.nil_prefix, hp, hq, by rw [h], by rw [h], fun _ => by rw [h]⟩).1

theorem getSimulateFuncP_fst (rng : Rng S K) (hermite : Nat → List K × List K) (fa : FrameArg K)
    {sa : SpecArg} (biased : Bool) (lost : S) {p : Process S K} (hp : Sound p) (ha : Exists p sa) :
    (getSimulateFuncP rng hermite fa sa biased lost p).1 = (do
      let fp ← frameData p.disk fa
      let spec ← specData p.disk p.store (specNumTypes fp.1) sa
      (buildObjects rng hermite spec biased lost p).1) := by
  unfold getSimulateFuncP
  rw [Py.bind_eq, readModelParamsInit_run]
  cases frameData p.disk fa with
  | error e => rfl
  | ok fp =>
    obtain ⟨frame, par⟩ := fp
    obtain ⟨h1, h2, h3, h4, h5⟩ := readModelSpecInit_run hp ha (specNumTypes frame)
    rw [ok_bind]
    dsimp only
    rw [Py.bind_eq, ← h1]
    rcases hr : readModelSpecInit sa (specNumTypes frame) p with ⟨r, q⟩
    rw [hr] at h3 h5
    cases r with
    | error e => rfl
    | ok spec =>
      exact buildObjects_disk rng hermite spec biased lost lost ⟨h3, by rw [h5]; exact hp.files⟩ hp h5

theorem callSimulateFuncP_fst (rng : Rng S K) (hermite : Nat → List K × List K) (c : Cached K) (sparse : Bool)
    (fa : FrameArg K) {sa : SpecArg} (lost : S) {p : Process S K} (hp : Sound p) (ha : Exists p sa)
    (disk : String → List (Nat × K)) :
    (callSimulateFuncP rng c sparse fa sa lost p).1 = (do
      let fp ← frameData p.disk fa
      let spec ← specData p.disk p.store (specNumTypes fp.1) sa
      dataOf (runCached ⟨rng, hermite, disk⟩ c fp.2 spec sparse p.rng)) := by
  unfold callSimulateFuncP
  rw [Py.bind_eq, readModelParamsInit_run]
  cases frameData p.disk fa with
  | error e => rfl
  | ok fp =>
    obtain ⟨frame, par⟩ := fp
    obtain ⟨h1, h2, h3, h4, h5⟩ := readModelSpecInit_run hp ha (specNumTypes frame)
    rw [ok_bind]
    dsimp only
    rw [Py.bind_eq, ← h1]
    rcases hr : readModelSpecInit sa (specNumTypes frame) p with ⟨r, q⟩
    cases r with
    | error e => rfl
    | ok spec =>
      rw [ok_bind]
      dsimp only
      rw [Py.bind_eq]
      unfold runCached Py.calc
      cases c.solve par with
      | error e => rfl
      | ok sol =>
        dsimp only
        rw [ok_bind]
        unfold Py.draw
        rw [show q.rng = p.rng by rw [hr] at h4; exact h4]
        cases pythSimulate rng par spec
          { states := c.space.states, indexer := c.space.indexer, covariates := c.space.covariates,
            emaxs := sol.emaxs, nonConsumptionUtilities := sol.nonConsumptionUtilities,
            childAgeUpdateRule := c.space.childAgeUpdateRule, probChild := c.probChild,
            probPartner := c.probPartner } c.probs false sparse p.rng with
        | error e => rfl
        | ok x => rfl

theorem specData_grown {p q : Process S K} (hp : Sound p) (h : Grown p q) {sa : SpecArg} (ha : Exists p sa)
    (nt : Nat) : specData q.disk q.store nt sa = specData p.disk p.store nt sa := by
  cases sa with
  | path name => unfold specData; rw [h.disk]
  | obj a => rw [h.disk, specData_ext hp.closed h.closed h.kept ha]

/-- What `simulate` returns or raises. -/
theorem simulateP_fst (rng : Rng S K) (hermite : Nat → List K × List K) (fa : FrameArg K)
    {sa : SpecArg} (biased sparse : Bool) (lost lost' : S) {p : Process S K} (hp : Sound p) (ha : Exists p sa)
    (disk : String → List (Nat × K)) :
    (simulateP rng hermite fa sa biased sparse lost lost' p).1 = (do
      let fp ← frameData p.disk fa
      let spec ← specData p.disk p.store (specNumTypes fp.1) sa
      let c ← (buildObjects rng hermite spec biased lost p).1
      dataOf (runCached ⟨rng, hermite, disk⟩ c fp.2 spec sparse p.rng)) := by
  have h := getSimulateFuncP_fst rng hermite fa biased lost hp ha
  have hg := getSimulateFuncP_inv hp rng hermite fa ha biased lost p (Grown.refl hp)
  unfold simulateP
  rw [Py.bind_eq]
  rcases hr : getSimulateFuncP rng hermite fa sa biased lost p with ⟨r, q⟩
  rw [hr] at h hg
  dsimp only at h hg
  have hq := callSimulateFuncP_fst rng hermite (p := q) (sparse := sparse) (fa := fa) (lost := lost')
    (hp := hg.sound hp) (ha := Exists.grown ha hg.kept) (disk := disk)
  cases hf : frameData p.disk fa with
  | error e => rw [hf] at h; rw [show r = .error e from h]; rfl
  | ok fp =>
    rw [hf, ok_bind] at h
    rw [ok_bind]
    cases hs : specData p.disk p.store (specNumTypes fp.1) sa with
    | error e => rw [hs] at h; rw [show r = .error e from h]; rfl
    | ok spec =>
      rw [hs, ok_bind] at h
      rw [ok_bind, ← h]
      cases r with
      | error e => rfl
      | ok c =>
        dsimp only
        rw [ok_bind, hq c, hg.disk, hf, ok_bind, ← hg.disk, specData_grown hp hg ha, hs, ok_bind]
        rfl

/-! ## Missing tables -/

theorem Py.bind_fst_ok {α β : Type} {x : Py S K α} {f : α → Py S K β} {p : Process S K} {b : β}
    (h : ((x >>= f) p).1 = .ok b) : ∃ a q, x p = (.ok a, q) ∧ (f a q).1 = .ok b := by
  rw [Py.bind_eq] at h
  rcases hx : x p with ⟨r, q⟩
  rw [hx] at h
  cases r with
  | error e => cases h
  | ok a => exact ⟨a, q, rfl, h⟩

theorem Py.calc_fst_ok {α β : Type} {x : Except PyErr α} {f : α → Py S K β} {p : Process S K} {b : β}
    (h : ((Py.calc x >>= f) p).1 = .ok b) : ∃ a, (f a p).1 = .ok b := by
  obtain ⟨a, q, h1, h2⟩ := Py.bind_fst_ok h
  obtain rfl : p = q := (Prod.mk.inj h1).2
  exact ⟨a, h2⟩

theorem readShares_fst_ok {β : Type} {name : String} {f : List (Nat × K) → Py S K β} {p : Process S K} {b : β}
    (h : ((readShares name >>= f) p).1 = .ok b) : (p.disk.shares name).isSome ∧ ∃ a, (f a p).1 = .ok b := by
  obtain ⟨a, q, h1, h2⟩ := Py.bind_fst_ok h
  unfold readShares at h1
  cases hd : p.disk.shares name with
  | none => rw [hd] at h1; cases h1
  | some rows =>
    rw [hd] at h1
    obtain rfl : p = q := (Prod.mk.inj h1).2
    exact ⟨rfl, a, h2⟩

theorem buildObjects_present {rng : Rng S K} {hermite : Nat → List K × List K} {spec : ModelSpec K}
    {biased : Bool} {lost : S} {p : Process S K} {c : Cached K}
    (h : (buildObjects rng hermite spec biased lost p).1 = .ok c) : Present p.disk spec.files := by
  unfold buildObjects at h
  obtain ⟨k1, _, h⟩ := readShares_fst_ok h
  obtain ⟨k2, _, h⟩ := readShares_fst_ok h
  obtain ⟨_, h⟩ := Py.calc_fst_ok h
  obtain ⟨k3, _, h⟩ := readShares_fst_ok h
  obtain ⟨k4, _, h⟩ := readShares_fst_ok h
  obtain ⟨_, h⟩ := Py.calc_fst_ok h
  obtain ⟨k5, _, h⟩ := readShares_fst_ok h
  obtain ⟨_, h⟩ := Py.calc_fst_ok h
  obtain ⟨k6, _, h⟩ := readShares_fst_ok h
  obtain ⟨_, h⟩ := Py.calc_fst_ok h
  obtain ⟨k7, _, h⟩ := readShares_fst_ok h
  obtain ⟨_, h⟩ := Py.calc_fst_ok h
  obtain ⟨k8, _, h⟩ := readShares_fst_ok h
  intro name hn
  simp only [List.mem_cons, List.not_mem_nil, or_false] at hn
  rcases hn with rfl | rfl | rfl | rfl | rfl | rfl | rfl | rfl <;> assumption

end Soepy
