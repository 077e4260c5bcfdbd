import Mathlib.Data.Real.Sqrt
import Verif.Model.Py
/-!
Model of `_distance` (`/repo/pyTMD/interpolate.py` 423-445), with the rounding of every result as an argument:
the identity for exact arithmetic.

Simplifications: sums go from left to right; infinities are left out; `none` is NaN.
-/
namespace Verif.Distance
open Verif

/-- `np.sum` -/
def total (rd : ℝ → ℝ) : List ℝ → ℝ
  | [] => 0
  | x :: xs => xs.foldl (fun s y => rd (s + y)) x

/-- interpolate.py 440 and 442: `np.sum(c**2)` -/
def squares (rd : ℝ → ℝ) (c : List ℝ) : ℝ := total rd (c.map fun x => rd (x * x))

/-- interpolate.py 441: `np.dot` -/
def product (rd : ℝ → ℝ) (a b : List ℝ) : ℝ := total rd (List.zipWith (fun x y => rd (x * y)) a b)

/-- interpolate.py 444: `dx2 - 2.0*dxy + dy2` -/
def square (rd : ℝ → ℝ) (a b : List ℝ) : ℝ :=
  rd (rd (squares rd a - rd (2 * product rd a b)) + squares rd b)

/-- interpolate.py 423-445: the distances of `c1` to the rows of `c2`; numbers of coordinates that differ are a
`ValueError` of `np.dot`. -/
noncomputable def distance (rd : ℝ → ℝ) (c1 : List ℝ) (c2 : List (List ℝ)) : Except PyErr (List (Option ℝ)) :=
  if c2.all fun r => r.length = c1.length then
    .ok (c2.map fun r => if square rd c1 r < 0 then none else some (rd (Real.sqrt (square rd c1 r))))
  else .error .valueError

end Verif.Distance
