import Verif.Model.Py
import Verif.Model.Num
/-!
Model of `bilinear` and `extrapolate` in `/repo/pyTMD/interpolate.py`, lines 35-118 and
279-420, for one output point (each output point is processed independently by `bilinear`;
`extrapolate` also looks at the whole batch, which is modelled).

Numbers are elements of an ordered field.  A grid value is `none` when it is not finite (NaN),
and carries a mask flag.
-/
namespace Verif.Interp
open Verif

variable {K : Type*} [Field K] [LinearOrder K] [IsStrictOrderedRing K]

/-- A coordinate axis of a grid: `n` nodes `x 0, ..., x (n-1)`. -/
structure Axis (K : Type*) where
  n : ℕ
  x : ℕ → K

/-- The axis as an array. -/
def Axis.toList (a : Axis K) : List K := (List.range a.n).map a.x

/-- An element of a masked array: `val = none` is a non-finite number. -/
structure Cell (K : Type*) where
  val : Option K
  masked : Bool
  deriving DecidableEq

/-- The test `np.isfinite(IM) & (~IM.mask)` of interpolate.py 111. -/
def Cell.valid (c : Cell K) : Bool := c.val.isSome && !c.masked

/-- `np.isclose(a, b)` with its default tolerances. -/
def isclose (a b : K) : Bool := |a - b| ≤ 1 / 10 ^ 8 + 1 / 10 ^ 5 * |b|

/-- interpolate.py 87-88: `np.nonzero((ilon[0:-1] <= q) & (ilon[1:] > q))`. -/
def Axis.find (a : Axis K) (q : K) : List ℕ :=
  (List.range (a.n - 1)).filter (fun i => a.x i ≤ q ∧ q < a.x (i + 1))

/-- interpolate.py 110-115: the weighted mean over the valid corners.  A zero sum of weights
gives `0/0`, i.e. NaN. -/
def weighted (ws : List (K × K)) : Option K :=
  let tot := (ws.map (·.1)).sum
  if tot = 0 then none else some ((ws.map (fun p => p.1 * p.2)).sum / tot)

/-- interpolate.py 110-115: `ii` selects the valid corners and their weights. -/
def validPairs (cs : List (K × Cell K)) : List (K × K) :=
  cs.filterMap (fun p =>
    if p.2.valid then (match p.2.val with | some v => some (p.1, v) | none => none) else none)

/-- interpolate.py 86-115: the body of the loop over valid points for a cell `(iy, ix)`.
The corners are listed in the order of the code, `(iy,ix), (iy,ix+1), (iy+1,ix), (iy+1,ix+1)`,
each with the weight of index `3-j`, the product of the distances to the opposite corner. -/
def cell (ax ay : Axis K) (data : ℕ → ℕ → Cell K) (fill : Option K) (lon lat : K)
    (ix iy : ℕ) : Cell K :=
  let w := fun (XI YI : ℕ) => |lon - ax.x XI| * |lat - ay.x YI|
  let corners : List (K × Cell K) :=
    [(w (ix + 1) (iy + 1), data iy ix), (w ix (iy + 1), data iy (ix + 1)),
     (w (ix + 1) iy, data (iy + 1) ix), (w ix iy, data (iy + 1) (ix + 1))]
  if isclose lat (ay.x iy) && isclose lon (ax.x ix) then data iy ix
  else if isclose lat (ay.x (iy + 1)) && isclose lon (ax.x ix) then data (iy + 1) ix
  else if isclose lat (ay.x iy) && isclose lon (ax.x (ix + 1)) then data iy (ix + 1)
  else if isclose lat (ay.x (iy + 1)) && isclose lon (ax.x (ix + 1)) then data (iy + 1) (ix + 1)
  else if corners.any (fun p => p.2.valid) then
    { val := weighted (validPairs corners), masked := false }
  else { val := fill, masked := true }

/-- interpolate.py 35-118, `bilinear` for one output point.  `ilon.min()` of an empty array
raises `ValueError`; unpacking `IM.data[j], = ...` raises `ValueError` unless exactly one
column and one row were found.  Simplification: for axes that are not monotonic the kind of
exception raised by the broadcast may differ. -/
def bilinear (ax ay : Axis K) (data : ℕ → ℕ → Cell K) (fill : Option K) (lon lat : K) :
    Except PyErr (Cell K) :=
  match ax.toList.min?, ax.toList.max?, ay.toList.min?, ay.toList.max? with
  | some x0, some x1, some y0, some y1 =>
    if x0 ≤ lon ∧ lon ≤ x1 ∧ y0 < lat ∧ lat < y1 then
      match ax.find lon, ay.find lat with
      | [ix], [iy] => .ok (cell ax ay data fill lon lat ix iy)
      | _, _ => .error .valueError
    else .ok { val := fill, masked := true }
  | _, _, _, _ => .error .valueError

end Verif.Interp
