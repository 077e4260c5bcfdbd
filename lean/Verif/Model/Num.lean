import Mathlib.Algebra.Order.Floor.Ring
import Mathlib.Algebra.Order.Field.Basic
import Mathlib.Algebra.Order.Field.Rat
import Mathlib.Data.Rat.Floor
/-!
Numpy arithmetic used throughout `/repo/pyTMD`, over an ordered field with a floor function.
Simplification: exact arithmetic instead of float64.
-/
namespace Verif.Num

variable {K : Type*} [Field K] [LinearOrder K] [IsStrictOrderedRing K] [FloorRing K]

/-- Python/numpy floor division `x // y` (e.g. `/repo/pyTMD/ellipse.py` 92). -/
def floorDiv (x y : K) : K := (⌊x / y⌋ : K)

/-- `np.mod(x, y)` (e.g. `/repo/pyTMD/math.py` 68, `/repo/pyTMD/ellipse.py` 95). -/
def fmod (x y : K) : K := x - y * (⌊x / y⌋ : K)

/-- `np.round(x)`: round to nearest, halves to even (`/repo/pyTMD/math.py` 131). -/
def round (x : K) : Int :=
  if x - ⌊x⌋ < 1 / 2 then ⌊x⌋
  else if 1 / 2 < x - ⌊x⌋ then ⌊x⌋ + 1
  else if ⌊x⌋ % 2 = 0 then ⌊x⌋ else ⌊x⌋ + 1

end Verif.Num
