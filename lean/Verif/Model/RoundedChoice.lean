import Verif.Model.RoundedSolve
import Verif.Model.Simulate

/-!
# A decision of the simulator in rounded arithmetic

As in `Model/RoundedSolve` the utilities of today are a parameter: whatever numbers the machine has computed for them
(soepy/simulate/simulate_auxiliary.py:144-226).
-/

namespace Soepy
variable {K : Type} [Field K] [LinearOrder K] [FloorRing K]

/-- What the machine computes for the decision of one agent (soepy/simulate/simulate_auxiliary.py:142, 228-231). -/
structure DecisionR (K : Type) where
  cont : Fin 3 → K
  value : Fin 3 → K
  choice : Fin 3

section functions
variable (r rt : K → K)

/-- soepy/simulate/simulate_auxiliary.py:325-346 `_interp_uniform_grid`, rounded, for a table in a format of its own:
NumPy subtracts two entries of the table (line 346) in the format of the table (`rt`) and does the rest in the format of
the stock (`r`). -/
def interpTableR (values : List K) (stock : K) : Except PyErr K := do
  let (idxLo, idxHi, w) := uniformCellR r values.length stock
  let takeLo ← npGet values idxLo
  let takeHi ← npGet values idxHi
  pure (r (takeLo + r (w * rt (takeHi - takeLo))))

/-- soepy/simulate/simulate_auxiliary.py:116-142 and 228-231 for one agent, rounded: look up the table, discount, add the
utilities of today and take the best choice. -/
def agentChoiceR (delta : K) (ix : Indexer) (emaxs : List (List (Cell K))) (flow : Fin 3 → K) (a : Agent K) :
    Except PyErr (DecisionR K) := do
  let idx ← agentIndex ix a
  let cells ← npGet emaxs idx
  let cont0 ← interpTableR r rt (cells.map fun cell => cell.cont 0) a.stock
  let cont1 ← interpTableR r rt (cells.map fun cell => cell.cont 1) a.stock
  let cont2 ← interpTableR r rt (cells.map fun cell => cell.cont 2) a.stock
  let cont : Fin 3 → K := ![cont0, cont1, cont2]
  let value : Fin 3 → K := fun c => r (flow c + r (delta * cont c))
  pure { cont := cont, value := value, choice := argmax3 value }

end functions

end Soepy
