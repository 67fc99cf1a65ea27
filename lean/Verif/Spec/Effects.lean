import Verif.Model.Effects
import Verif.Spec.Vocabulary

/-! # Sessions in which calls may raise -/

namespace Soepy.Spec
variable {S K : Type} [Field K] [LinearOrder K] [FloorRing K] [Transc K]

/-- The specification argument exists: an object in memory (file names are always allowed, also of files
that do not exist). -/
def Exists (p : Process S K) : SpecArg → Prop
  | .path _ => True
  | .obj a => a < p.store.length

/-- Specification files contain complete objects. -/
def Readable (d : Disk K) : Prop :=
  ∀ name objs root, d.specs name = some (objs, root) → Closed objs ∧ root < objs.length

/-- A process in which no reference dangles. -/
structure Sound (p : Process S K) : Prop where
  closed : Closed p.store
  files : Readable p.disk

/-- One action of the user, who knows the functions `fs` returned by `get_simulate_func` so far.  Calls may
return or raise; the user catches exceptions.  Between calls they may reseed NumPy, create objects, change all
objects except the first `n`, and change files. -/
inductive Act (rng : Rng S K) (hermite : Nat → List K × List K) (n : Nat) :
    Process S K × List (Cached K) → Process S K × List (Cached K) → Prop
  | simulate {p fs} (fa : FrameArg K) {sa} (ha : Exists p sa) (biased sparse lost lost') :
      Act rng hermite n (p, fs) ((simulateP rng hermite fa sa biased sparse lost lost' p).2, fs)
  | getFunc {p fs c} (fa : FrameArg K) {sa} (ha : Exists p sa) (biased lost)
      (h : (getSimulateFuncP rng hermite fa sa biased lost p).1 = .ok c) :
      Act rng hermite n (p, fs) ((getSimulateFuncP rng hermite fa sa biased lost p).2, c :: fs)
  | getFuncRaises {p fs e} (fa : FrameArg K) {sa} (ha : Exists p sa) (biased lost)
      (h : (getSimulateFuncP rng hermite fa sa biased lost p).1 = .error e) :
      Act rng hermite n (p, fs) ((getSimulateFuncP rng hermite fa sa biased lost p).2, fs)
  | callFunc {p fs c} (hc : c ∈ fs) (fa : FrameArg K) {sa} (ha : Exists p sa) (sparse lost) :
      Act rng hermite n (p, fs) ((callSimulateFuncP rng c sparse fa sa lost p).2, fs)
  | seedGlobal {p fs} (g : S) : Act rng hermite n (p, fs) ({ p with rng := g }, fs)
  | create {p fs} (objs : Store K) (h : Closed (p.store ++ objs)) :
      Act rng hermite n (p, fs) ({ p with store := p.store ++ objs }, fs)
  | assign {p fs} (x : Nat) (hx : n ≤ x) (o : Obj K) (h : Closed (p.store.set x o)) :
      Act rng hermite n (p, fs) ({ p with store := p.store.set x o }, fs)
  | changeFiles {p fs} (d : Disk K) (h : Readable d) : Act rng hermite n (p, fs) ({ p with disk := d }, fs)

/-- Any number of actions. -/
inductive Acts (rng : Rng S K) (hermite : Nat → List K × List K) (n : Nat) :
    Process S K × List (Cached K) → Process S K × List (Cached K) → Prop
  | none (x) : Acts rng hermite n x x
  | more {x y z} (h : Acts rng hermite n x y) (c : Act rng hermite n y z) : Acts rng hermite n x z

/-- The eight tables named by a specification are there. -/
def Present (d : Disk K) (names : FileNames) : Prop :=
  ∀ name ∈ [names.educ_shares, names.child_age_shares, names.partner_shares, names.pt_exp_shares,
    names.ft_exp_shares, names.child_info, names.partner_separation, names.partner_arrival],
    (d.shares name).isSome

end Soepy.Spec
