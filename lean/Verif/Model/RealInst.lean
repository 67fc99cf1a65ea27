import Verif.Model.Prelude
import Mathlib.Analysis.SpecialFunctions.Pow.Real
import Mathlib.Analysis.SpecialFunctions.Log.Basic
import Mathlib.Analysis.SpecialFunctions.Trigonometric.Basic
import Mathlib.Algebra.Order.Archimedean.Real.Basic

/-! The real numbers as number type, with the usual `exp`, `log`, `x ^ y`, `sqrt` and `pi`
(stand-ins for `np.exp`, `np.log`, `**`, `np.sqrt`, `np.pi`; cited where used in the model). -/

namespace Soepy

noncomputable instance : Transc ℝ where
  exp := Real.exp
  log := Real.log
  pow := fun x y => x ^ y
  sqrt := Real.sqrt
  pi := Real.pi

@[simp] theorem transc_exp (x : ℝ) : Transc.exp x = Real.exp x := rfl
@[simp] theorem transc_log (x : ℝ) : Transc.log x = Real.log x := rfl
@[simp] theorem transc_pow (x y : ℝ) : Transc.pow x y = x ^ y := rfl
@[simp] theorem transc_sqrt (x : ℝ) : Transc.sqrt x = Real.sqrt x := rfl
@[simp] theorem transc_pi : (Transc.pi : ℝ) = Real.pi := rfl

end Soepy
