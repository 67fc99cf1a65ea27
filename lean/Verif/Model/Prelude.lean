import Mathlib.Algebra.Order.Field.Basic
import Mathlib.Algebra.Order.Floor.Ring
import Mathlib.Algebra.BigOperators.Group.List.Basic
import Mathlib.Data.Fin.VecNotation
import Mathlib.Data.Rat.Floor

/-!
# Prelude: the parts of Python, NumPy and JAX the model needs

Nothing here is soepy specific.  Numbers live in an ordered field `K`; floating point rounding, NaN and
infinities are not modelled (see DESIGN.md).
-/

namespace Soepy

/-- Python exceptions that the modelled code can raise.
`nanMarker` is not an exception in Python: it marks places where Python would silently carry a NaN
(a child age outside every bin of `pd.cut`), and the model stops instead. -/
inductive PyErr where
  | keyError (key : String)
  | indexError
  | valueError (msg : String)
  | notImplemented
  | assertionError
  | typeError
  | attributeError
  | zeroDivisionError
  | fileNotFound (name : String)
  | nanMarker
  deriving DecidableEq, Repr

/-- `np.exp`, `np.log`, `**`, `np.sqrt` and `np.pi` on the number type.  No law is assumed here. -/
class Transc (K : Type) where
  exp : K → K
  log : K → K
  pow : K → K → K
  sqrt : K → K
  pi : K

section num
variable {K : Type} [Field K] [LinearOrder K]

/-- A Python/NumPy bool used as a number (`True == 1`, `False == 0`). -/
def ind (b : Bool) : K := if b then 1 else 0

/-- `np.clip(x, lo, hi)` / `jnp.clip`. -/
def clip (x lo hi : K) : K := min (max x lo) hi

end num

/-- NumPy position of a (possibly negative) index on an axis of length `n`; out of range raises
`IndexError`. -/
def npIndex (n : Nat) (i : Int) : Except PyErr Nat :=
  if 0 ≤ i ∧ i < n then .ok i.toNat
  else if -(n : Int) ≤ i ∧ i < 0 then .ok (i + n).toNat
  else .error .indexError

/-- NumPy element access `a[i]`. -/
def npGet {α : Type} (a : List α) (i : Int) : Except PyErr α :=
  match npIndex a.length i with
  | .error e => .error e
  | .ok j => match a[j]? with
    | some x => .ok x
    | none => .error .indexError

/-- JAX position of an index: negative indices wrap once, then the index is clamped into the axis
(JAX never raises for traced indices). -/
def jaxIndex (n : Nat) (i : Int) : Nat :=
  let j := if i < 0 then i + n else i
  (max 0 (min j ((n : Int) - 1))).toNat

/-- JAX element access `a[i]`; `d` is only returned for an empty array. -/
def jget {α : Type} (d : α) (a : List α) (i : Int) : α := a.getD (jaxIndex a.length i) d

/-- `a.reshape(n, m, ...)` of the leading axis: `n` consecutive chunks of length `m`. -/
def reshape {α : Type} (n m : Nat) (a : List α) : List (List α) :=
  (List.range n).map fun i => (a.drop (i * m)).take m

/-- `jax.lax.scan(f, init, xs)`. -/
def jaxScan {C X Y : Type} (f : C → X → C × Y) : C → List X → C × List Y
  | c, [] => (c, [])
  | c, x :: xs =>
    let r := f c x
    let rest := jaxScan f r.1 xs
    (rest.1, r.2 :: rest.2)

/-- A vector with two entries, each of which may raise (evaluated in order). -/
def seqFin2 {α : Type} (g : Fin 2 → Except PyErr α) : Except PyErr (Fin 2 → α) := do
  let a ← g 0
  let b ← g 1
  pure ![a, b]

/-- A vector with three entries, each of which may raise (evaluated in order). -/
def seqFin3 {α : Type} (g : Fin 3 → Except PyErr α) : Except PyErr (Fin 3 → α) := do
  let a ← g 0
  let b ← g 1
  let c ← g 2
  pure ![a, b, c]

/-- `for x in xs: acc = f(acc, x)` where the body may raise. -/
def foldlE {A X : Type} (f : A → X → Except PyErr A) : A → List X → Except PyErr A
  | a, [] => .ok a
  | a, x :: xs => match f a x with
    | .error e => .error e
    | .ok b => foldlE f b xs

/-- `[f(x) for x in xs]` where `f` may raise. -/
def mapE {X Y : Type} (f : X → Except PyErr Y) : List X → Except PyErr (List Y)
  | [] => .ok []
  | x :: xs => match f x with
    | .error e => .error e
    | .ok y => match mapE f xs with
      | .error e => .error e
      | .ok ys => .ok (y :: ys)

/-- Masked assignment `a[mask] = vals` (the `vals` are consumed in order). -/
def scatter {α : Type} : List Bool → List α → List α → List α
  | [], _, old => old
  | _, _, [] => []
  | true :: ms, v :: vs, _ :: os => v :: scatter ms vs os
  | true :: ms, [], o :: os => o :: scatter ms [] os
  | false :: ms, vs, o :: os => o :: scatter ms vs os

end Soepy
