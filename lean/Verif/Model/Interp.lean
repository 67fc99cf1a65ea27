import Verif.Model.Types

/-! # soepy/shared/interpolation.py and the interpolation used by the simulator -/

namespace Soepy
variable {K : Type} [Field K] [LinearOrder K]

/-- `jnp.searchsorted(grid, x, side="right")` for an increasing grid: the number of nodes `<= x`. -/
def searchsortedRight (grid : List K) (x : K) : Nat := grid.countP fun g => decide (g ≤ x)

/-- soepy/shared/interpolation.py:13-45 `linear_interp_1d` for one query point. -/
def linearInterp1d (grid values : List K) (x : K) : K :=
  let n : Int := grid.length
  let idxHi : Int := min (max (searchsortedRight grid x : Int) 1) (n - 1)
  let idxLo : Int := idxHi - 1
  let xLo := jget 0 grid idxLo
  let xHi := jget 0 grid idxHi
  let vLo := jget 0 values idxLo
  let vHi := jget 0 values idxHi
  let denom := xHi - xLo
  let weight := if denom > 0 then (x - xLo) / denom else 0
  vLo + weight * (vHi - vLo)

/-- soepy/simulate/simulate_auxiliary.py:325-346 `_interp_uniform_grid` for one agent and one
alternative.  `np.take_along_axis` raises for positions outside the axis. -/
def interpUniformGrid [FloorRing K] (values : List K) (stock : K) : Except PyErr K := do
  let n : Int := values.length
  let u : K := clip stock 0 1 * ((n - 1 : Int) : K)
  let idxLo : Int := ⌊u⌋
  let idxHi : Int := min (idxLo + 1) (n - 1)
  let w : K := u - (idxLo : K)
  let takeLo ← npGet values idxLo
  let takeHi ← npGet values idxHi
  pure (takeLo + w * (takeHi - takeLo))

end Soepy
