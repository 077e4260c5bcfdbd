import Verif.Model.Grid
import Verif.Model.Spline
import Mathlib.Algebra.Order.Floor.Ring
/-!
Model of the map of ocean pole tide coefficients (`/repo/pyTMD/io/IERS.py` 74-330).

One real component of the map is modelled; the code treats the real and imaginary parts of the
three components alike.  Numbers are in an ordered field.  A line of the file is its longitude, its
latitude and the value of the component.  `scipy.interpolate.RectBivariateSpline` with
`kx=1, ky=1` is taken to be bilinear between the nodes and to hold the value of the edge beyond
them, `RegularGridInterpolator` with `method='linear'` to be bilinear and to give NaN (`none`)
beyond them.
-/
namespace Verif.IERS
open Verif Verif.Spline

variable {K : Type} [Field K] [LinearOrder K] [IsStrictOrderedRing K] [FloorRing K]

/-- One line of the file. -/
structure Line (K : Type) where
  lon : K
  lat : K
  value : K

/-- Python `int(x)`. -/
def pyInt (x : K) : ℤ := if 0 ≤ x then ⌊x⌋ else ⌈x⌉

/-- A numpy index of an axis with `n` elements. -/
def index (n : ℕ) (i : ℤ) : Except PyErr ℕ :=
  if 0 ≤ i ∧ i < n then .ok i.toNat
  else if i < 0 ∧ -(n : ℤ) ≤ i then .ok (i + n).toNat
  else .error .indexError

/-- IERS.py 189-195: one line of the loop; `dlon,dlat = (0.50,0.50)`. -/
def putLine (U : ℕ → ℕ → K) (l : Line K) : Except PyErr (ℕ → ℕ → K) := do
  let i ← index 720 (pyInt (l.lon / (1 / 2)))
  let j ← index 360 (pyInt ((90 - l.lat) / (1 / 2)))
  .ok fun a b => if a = i ∧ b = j then l.value else U a b

/-- IERS.py 183-195: the lines after the header, starting from zeros. -/
def putLines : (ℕ → ℕ → K) → List (Line K) → Except PyErr (ℕ → ℕ → K)
  | U, [] => .ok U
  | U, l :: ls => do
    let U' ← putLine U l
    putLines U' ls

/-- `np.arange(dlon/2.0,360+dlon/2.0,dlon)`, IERS.py 178. -/
def glon : List K := (List.range 720).map fun i : ℕ => 1 / 4 + (i : K) / 2

/-- The latitudes from south to north: `glat[::-1]` with IERS.py 179. -/
def glat : List K := (List.range 360).map fun j : ℕ => -90 + 1 / 4 + (j : K) / 2

/-- IERS.py 196-205: the axis of longitudes, and the map by latitude from south to north
(`val[:,::-1]`, 106-108): each parallel shifted to start at 180 degrees west and extended. -/
def maps (U : ℕ → ℕ → K) : Except PyErr (List K × List (List K)) := do
  let rows ← pyMap (fun j : ℕ => do
    let (r, _) ← Grid.shift 0 ((List.range 720).map fun i : ℕ => U i (359 - j)) (glon (K := K)) 180 360 .west
    Grid.extendRow r) (List.range 360)
  let (_, x) ← Grid.shift 0 (List.replicate 720 (0 : K)) (glon (K := K)) 180 360 .west
  let x' ← Grid.extendArray x (1 / 2)
  .ok (x', rows)

/-- IERS.py 74-122, `extract_coefficients` for one point of one component. -/
def extractSpline (lines : List (Line K)) (lon lat : K) : Except PyErr K := do
  let U ← putLines (fun _ _ => 0) lines
  let (x, rows) ← maps U
  .ok (spline x glat rows lon lat)

/-- The same with `method='linear'`. -/
def extractLinear (lines : List (Line K)) (lon lat : K) : Except PyErr (Option K) := do
  let U ← putLines (fun _ _ => 0) lines
  let (x, rows) ← maps U
  .ok (linear x glat rows lon lat)

end Verif.IERS
