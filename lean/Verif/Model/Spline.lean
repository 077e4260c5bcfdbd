import Mathlib.Algebra.Order.Field.Basic
/-!
Interpolation by the routines of scipy that the library calls with degree one:
`scipy.interpolate.RectBivariateSpline` with `kx=1, ky=1` (`/repo/pyTMD/interpolate.py` 120-200,
`/repo/pyTMD/io/IERS.py` 102-112) and `scipy.interpolate.RegularGridInterpolator` with
`method='linear'` (`interpolate.py` 202-276, `IERS.py` 113-120).  scipy is not part of the
repository: that the first is bilinear between the nodes and holds the value of the edge beyond
them, and that the second is bilinear between them, is an assumption.
-/
namespace Verif.Spline

variable {K : Type} [Field K] [LinearOrder K]

/-- The number of the cell of an increasing axis that holds a coordinate: the inner nodes up to
it. -/
def bracket (xs : List K) (q : K) : ℕ := ((xs.drop 1).dropLast.filter fun x => decide (x ≤ q)).length

/-- Linear interpolation in a cell. -/
def lerp (xs vs : List K) (i : ℕ) (q : K) : K :=
  vs.getD i 0 + (q - xs.getD i 0) / (xs.getD (i + 1) 0 - xs.getD i 0) *
    (vs.getD (i + 1) 0 - vs.getD i 0)

/-- The coordinate moved to the nearer end of an axis if it is beyond. -/
def clamp (xs : List K) (q : K) : K := max (xs.headD 0) (min (xs.getLastD 0) q)

/-- Bilinear interpolation between the nodes. -/
def bilinear (xs ys : List K) (rows : List (List K)) (x y : K) : K :=
  lerp ys (rows.map fun r => lerp xs r (bracket xs x) x) (bracket ys y) y

/-- `RectBivariateSpline.ev` with degree one. -/
def spline (xs ys : List K) (rows : List (List K)) (x y : K) : K :=
  bilinear xs ys rows (clamp xs x) (clamp ys y)

/-- `RegularGridInterpolator` with `method='linear'`, NaN (`none`) outside the grid. -/
def linear (xs ys : List K) (rows : List (List K)) (x y : K) : Option K :=
  if clamp xs x = x ∧ clamp ys y = y then some (bilinear xs ys rows x y) else none

end Verif.Spline
