import Verif.Model.Api
import Verif.Spec.Vocabulary

/-! # What may happen before a call -/

namespace Soepy.Spec
variable {S K : Type} [Field K] [LinearOrder K] [FloorRing K] [Transc K]

/-- `w'` is a state of the process in which everything that was in memory in `w` is still there
unchanged, and no reference dangles; NumPy's generator may be in any state. -/
structure Later (w w' : World S K) : Prop where
  kept : w.store <+: w'.store
  closed : Closed w'.store

/-- One successful call of the package by the user, who passes a specification at an address that exists
and knows the functions `fs` returned by `get_simulate_func` so far. -/
inductive Call (env : Env S K) : World S K × List (Cached K) → World S K × List (Cached K) → Prop
  | simulate {frame a biased sparse w w' fs rows} (ha : a < w.store.length)
      (h : simulate env frame a biased sparse w = .ok (rows, w')) : Call env (w, fs) (w', fs)
  | getFunc {frame a biased w w' fs c} (ha : a < w.store.length)
      (h : getSimulateFunc env frame a biased w = .ok (c, w')) : Call env (w, fs) (w', c :: fs)
  | callFunc {frame a sparse w w' fs c rows} (ha : a < w.store.length) (hc : c ∈ fs)
      (h : callSimulateFunc env c sparse frame a w = .ok (rows, w')) : Call env (w, fs) (w', fs)
  | seedGlobal {w fs} (g : S) : Call env (w, fs) ({ w with rng := g }, fs)

/-- Any number of calls, in any order. -/
inductive Calls (env : Env S K) : World S K × List (Cached K) → World S K × List (Cached K) → Prop
  | none (x) : Calls env x x
  | more {x y z} (h : Calls env x y) (c : Call env y z) : Calls env x z

/-- The data frame of a result, or the exception. -/
def dataOf {α β : Type} (r : Except PyErr (α × β)) : Except PyErr α := r.map Prod.fst

end Soepy.Spec
