import Verif.Spec.Output

/-! # The sparse data frame -/

namespace Soepy.Spec
variable {K : Type}

/-- The number in [-128, 127] that agrees with `x` modulo 256: what is left of `x` in one byte. -/
def asByte (x : Int) : Int := Int.bmod x 256

/-- A row without the columns that only the full frame has. -/
def dropDetail (r : OutRow K) : OutRow K := { r with detail := none }

/-- A row of the sparse frame: seven integer columns in one byte each, the other columns unchanged. -/
def sparseRow (r : OutRow K) : OutRow K :=
  { id := r.id, period := asByte r.period, educ := asByte r.educ, lagged := asByte r.lagged,
    expPT := asByte r.expPT, expFT := asByte r.expFT, stock := r.stock, type := r.type,
    age := asByte r.age, partner := r.partner, choice := asByte r.choice, wage := r.wage, detail := none }

end Soepy.Spec
