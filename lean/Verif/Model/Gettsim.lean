import Verif.Model.Tax

/-!
# The independent tax function: soepy/test/resources/gettsim_tax_func.py

The repository tests its tax code against this function (copied there from another package).  Numbers
are elements of `K`, so the outer thresholds `-np.inf` and `np.inf` are not listed.
-/

namespace Soepy.Gettsim
variable {K : Type} [Field K] [LinearOrder K]

/-- `pd.cut(x, bins=[-inf, *ts, inf], right=False, include_lowest=True, labels=range(...))` for one
entry, called at soepy/test/resources/gettsim_tax_func.py:42-48: bins that do not increase strictly are
rejected; the label is found with `searchsorted(side="right")`, the number of thresholds not above
`x`. -/
def cutRight (ts : List K) (x : K) : Except PyErr Nat :=
  if ¬ ts.IsChain (· < ·) then .error (.valueError "bins must increase monotonically.")
  else .ok (ts.countP (· ≤ x))

/-- soepy/test/resources/gettsim_tax_func.py:9-67 `piecewise_polynomial` for one entry of `x`.
`ts` are the finite thresholds (line 51 drops the last one, `np.inf`; the first one, `-np.inf`, belongs
to interval zero, whose value is overwritten at line 65); `rates` has one row per degree.  Lookups
outside the tables (which pandas' `replace` would leave unreplaced) give 0. -/
def piecewisePolynomial (x : K) (ts : List K) (rates : List (List K)) (intercepts : List K) :
    Except PyErr K := do
  let binned ← cutRight ts x
  if binned = 0 then return intercepts.getD 0 0
  let increment := x - ts.getD (binned - 1) 0
  let out := intercepts.getD binned 0
  return rates.zipIdx.foldl (fun out (row, k) => out + row.getD binned 0 * increment ^ (k + 1)) out

/-- soepy/test/test_tax_and_transfer.py:27-40 `input_data`: the arguments made from the tax parameters
of the model. -/
def ofTaxParams (tp : TaxParams K) : List K × List (List K) × List K :=
  (List.ofFn tp.thresholds,
    [0 :: List.ofFn tp.linear, 0 :: List.ofFn tp.quad],
    0 :: List.ofFn tp.base)

/-- soepy/test/resources/gettsim_tax_func.py:70-79 `calc_gettsim_sol_individual`: tax with surcharge
and taxable income. -/
def solIndividual (tp : TaxParams K) (d : SscSpec K) (income soli : K) : Except PyErr (K × K) := do
  let deductions := pySscDeductions d income
  let taxable := income - deductions
  let (ts, rates, intercepts) := ofTaxParams tp
  let tax ← piecewisePolynomial taxable ts rates intercepts
  return (tax * soli, taxable)

end Soepy.Gettsim
