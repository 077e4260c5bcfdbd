import Verif.Model.Rounded
import Verif.Model.Interpolate
/-!
`bilinear` of `/repo/pyTMD/interpolate.py` (35-118) in floating point arithmetic, for one output
point, where every operation is rounded as in `Verif.Model.Rounded`.

Comparisons, absolute values and conversions to double precision are exact.  The constants of tides
are complex numbers: the products with weights and the sums act on both parts alike, so one of them
is modelled, and numpy divides a complex number by a real one by multiplying with the rounded
reciprocal (the algorithm of Smith with a zero imaginary part).  Infinities are left out.
-/
namespace Verif.Rounded
open Verif

/-- `np.abs(a - b)` -/
noncomputable def gap (A : Arith) (a b : ℝ) : ℝ := |A.rd (a - b)|

open Classical in
/-- `np.isclose(a, b)`: `abs(a - b) <= atol + rtol*abs(b)` with the default tolerances. -/
noncomputable def isclose (A : Arith) (a b : ℝ) : Bool :=
  decide (gap A a b ≤ A.rd (A.rd (1 / 10 ^ 8) + A.rd (A.rd (1 / 10 ^ 5) * |b|)))

/-- A quotient of floats, or of a complex number and a float. -/
noncomputable def quotient (A : Arith) (complex : Bool) (s t : ℝ) : ℝ :=
  if complex then A.rd (s * A.rd (1 / t)) else A.rd (s / t)

open Classical in
/-- interpolate.py 114: the weighted mean over the valid corners; `0/0` is NaN. -/
noncomputable def weighted (A : Arith) (complex : Bool) (ws : List (ℝ × ℝ)) : Option ℝ :=
  let tot := A.sum (ws.map (·.1))
  if tot = 0 then none
  else some (quotient A complex (A.sum (ws.map fun p => A.rd (p.1 * p.2))) tot)

/-- interpolate.py 86-115: the body of the loop over valid points; see `Interp.cell`. -/
noncomputable def cell (A : Arith) (complex : Bool) (ax ay : Interp.Axis ℝ)
    (data : ℕ → ℕ → Interp.Cell ℝ) (fill : Option ℝ) (lon lat : ℝ) (ix iy : ℕ) : Interp.Cell ℝ :=
  let w := fun (XI YI : ℕ) => A.rd (gap A lon (ax.x XI) * gap A lat (ay.x YI))
  let corners : List (ℝ × Interp.Cell ℝ) :=
    [(w (ix + 1) (iy + 1), data iy ix), (w ix (iy + 1), data iy (ix + 1)),
     (w (ix + 1) iy, data (iy + 1) ix), (w ix iy, data (iy + 1) (ix + 1))]
  if isclose A lat (ay.x iy) && isclose A lon (ax.x ix) then data iy ix
  else if isclose A lat (ay.x (iy + 1)) && isclose A lon (ax.x ix) then data (iy + 1) ix
  else if isclose A lat (ay.x iy) && isclose A lon (ax.x (ix + 1)) then data iy (ix + 1)
  else if isclose A lat (ay.x (iy + 1)) && isclose A lon (ax.x (ix + 1)) then
    data (iy + 1) (ix + 1)
  else if corners.any (fun p => p.2.valid) then
    { val := weighted A complex (Interp.validPairs corners), masked := false }
  else { val := fill, masked := true }

/-- interpolate.py 35-118, `bilinear` for one output point; see `Interp.bilinear`. -/
noncomputable def bilinear (A : Arith) (complex : Bool) (ax ay : Interp.Axis ℝ)
    (data : ℕ → ℕ → Interp.Cell ℝ) (fill : Option ℝ) (lon lat : ℝ) :
    Except PyErr (Interp.Cell ℝ) :=
  match ax.toList.min?, ax.toList.max?, ay.toList.min?, ay.toList.max? with
  | some x0, some x1, some y0, some y1 =>
    if x0 ≤ lon ∧ lon ≤ x1 ∧ y0 < lat ∧ lat < y1 then
      match ax.find lon, ay.find lat with
      | [ix], [iy] => .ok (cell A complex ax ay data fill lon lat ix iy)
      | _, _ => .error .valueError
    else .ok { val := fill, masked := true }
  | _, _, _, _ => .error .valueError

end Verif.Rounded
