import Verif.Model.Py
import Verif.Model.Num
import Mathlib.Analysis.SpecialFunctions.Trigonometric.Arctan
import Mathlib.Analysis.SpecialFunctions.Complex.Arg
import Mathlib.Analysis.SpecialFunctions.Pow.Real
import Mathlib.Data.Real.Sign

/-!
# Coordinates

Model of the coordinate conversions of /repo/pyTMD/spatial.py (lines 188-221, 1373-1720,
1983-2275).  Floating point numbers become reals, so overflow, rounding and NaN do not occur:
division by zero gives zero.  The functions treat the elements of arrays alike; one point is
modelled, except where a function handles arrays point by point (`convertEllipsoid`) or together
(`toGeodetic`, in `Verif.Model.Geodetic`).
-/

namespace Verif.Spatial

open Verif Real

/-- A point or vector in Cartesian coordinates. -/
@[ext] structure P3 where
  x : ℝ
  y : ℝ
  z : ℝ

/-- `np.arctan2` -/
noncomputable def arctan2 (y x : ℝ) : ℝ := Complex.arg ⟨x, y⟩

/-- `lin_ecc/a_axis` (spatial.py 1662-1663, 1821-1822, 2027) -/
noncomputable def ecc1 (a f : ℝ) : ℝ := sqrt ((2 * f - f ^ 2) * a ^ 2) / a

/-- Prime vertical radius of curvature (spatial.py 1669). -/
noncomputable def primeVertical (a f phi : ℝ) : ℝ := a / sqrt (1 - ecc1 a f ^ 2 * sin phi ^ 2)

/-- spatial.py 1629-1680, `to_cartesian`; longitude, latitude in degrees. -/
noncomputable def toCartesian (lon lat h a f : ℝ) : P3 :=
  let lon' := if lon < 0 then lon + 360 else lon
  let phi := lat * (π / 180)
  let N := primeVertical a f phi
  { x := (N + h) * cos phi * cos (lon' * (π / 180))
    y := (N + h) * cos phi * sin (lon' * (π / 180))
    z := (N * (1 - ecc1 a f ^ 2) + h) * sin phi }

/-- `np.clip` -/
noncomputable def clip (x lo hi : ℝ) : ℝ := min (max x lo) hi

/-- spatial.py 1682-1720, `to_sphere`: longitude, latitude and radius. -/
noncomputable def toSphere (p : P3) : ℝ × ℝ × ℝ :=
  let rad := sqrt (p.x ^ 2 + p.y ^ 2 + p.z ^ 2)
  let phi := arctan2 p.y p.x
  let th := arccos (p.z / rad)
  let lon := 180 * phi / π
  (if lon < 0 then lon + 360 else lon, clip (90 - 180 * th / π) (-90) 90, rad)

/-- The rotation matrix of `to_ENU` (spatial.py 2036-2045) applied to a vector. -/
noncomputable def rotateENU (lon0 lat0 : ℝ) (v : P3) : P3 :=
  let dtr := π / 180
  { x := -sin (dtr * lon0) * v.x + cos (dtr * lon0) * v.y + 0 * v.z
    y := -sin (dtr * lat0) * cos (dtr * lon0) * v.x + -sin (dtr * lat0) * sin (dtr * lon0) * v.y +
      cos (dtr * lat0) * v.z
    z := cos (dtr * lat0) * cos (dtr * lon0) * v.x + cos (dtr * lat0) * sin (dtr * lon0) * v.y +
      sin (dtr * lat0) * v.z }

/-- The rotation matrix of `from_ENU` (spatial.py 2107-2116) applied to a vector. -/
noncomputable def rotateECEF (lon0 lat0 : ℝ) (v : P3) : P3 :=
  let dtr := π / 180
  { x := -sin (dtr * lon0) * v.x + -sin (dtr * lat0) * cos (dtr * lon0) * v.y +
      cos (dtr * lat0) * cos (dtr * lon0) * v.z
    y := cos (dtr * lon0) * v.x + -sin (dtr * lat0) * sin (dtr * lon0) * v.y +
      cos (dtr * lat0) * sin (dtr * lon0) * v.z
    z := 0 * v.x + cos (dtr * lat0) * v.y + sin (dtr * lat0) * v.z }

/-- spatial.py 1983-2052, `to_ENU`: east, north and up as `x`, `y` and `z`. -/
noncomputable def toENU (p : P3) (lon0 lat0 h0 a f : ℝ) : P3 :=
  let o := toCartesian lon0 lat0 h0 a f
  rotateENU lon0 lat0 ⟨p.x - o.x, p.y - o.y, p.z - o.z⟩

/-- spatial.py 2054-2127, `from_ENU`. -/
noncomputable def fromENU (e : P3) (lon0 lat0 h0 a f : ℝ) : P3 :=
  let o := toCartesian lon0 lat0 h0 a f
  let r := rotateECEF lon0 lat0 e
  ⟨r.x + o.x, r.y + o.y, r.z + o.z⟩

/-- spatial.py 2129-2163, `to_horizontal`: altitude, azimuth (degrees) and distance. -/
noncomputable def toHorizontal (e : P3) : ℝ × ℝ × ℝ :=
  let D := sqrt (e.x ^ 2 + e.y ^ 2 + e.z ^ 2)
  (arcsin (e.z / D) * 180 / π, Num.fmod (arctan2 (e.x / D) (e.y / D) * 180 / π) 360, D)

/-- spatial.py 2165-2211, `to_zenith`: zenith angle in degrees. -/
noncomputable def toZenith (p : P3) (lon0 lat0 h0 a f : ℝ) : ℝ :=
  90 - (toHorizontal (toENU p lon0 lat0 h0 a f)).1

/-- spatial.py 1577-1598, `to_dms`. -/
noncomputable def toDms (d : ℝ) : ℝ × ℝ × ℝ :=
  let minute := Num.floorDiv (|d| * 3600) 60
  let second := Num.fmod (|d| * 3600) 60
  (Real.sign d * Num.floorDiv minute 60, Num.fmod minute 60, second)

/-- spatial.py 1600-1624, `from_dms`. -/
noncomputable def fromDms (degree minute second : ℝ) : ℝ :=
  Real.sign degree * (|degree| + minute / 60 + second / 3600)

/-- spatial.py 1564-1575, `wrap_longitudes`. -/
noncomputable def wrapLongitudes (lon : ℝ) : ℝ :=
  arctan2 (sin (lon * π / 180)) (cos (lon * π / 180)) * 180 / π

/-- spatial.py 1522-1562, `compute_delta_h`. -/
noncomputable def computeDeltaH (lat a1 f1 a2 f2 : ℝ) : ℝ :=
  let phi := clip lat (-90) 90 * π / 180
  let b1 := (1 - f1) * a1
  let b2 := (1 - f2) * a2;
  -((a2 - a1) * cos phi ^ 2 + (b2 - b1) * sin phi ^ 2)

/-- spatial.py 1455-1466: Newton's method within 45 degrees of the equator; the first argument is
the number of passes left. -/
noncomputable def newtonLow (k0 k1 k2 eps : ℝ) : ℕ → ℝ → ℝ
  | 0, u => u
  | n + 1, u =>
    let fu := k0 * sin u + k1 * tan u - k2
    let fup := k0 * cos u + k1 / (cos u * cos u)
    if |fup| < eps then u
    else
      let delta := fu / fup
      if |delta| < eps then u - delta else newtonLow k0 k1 k2 eps n (u - delta)

/-- spatial.py 1493-1504: Newton's method beyond 45 degrees. -/
noncomputable def newtonHigh (k0 k1 k2 eps : ℝ) : ℕ → ℝ → ℝ
  | 0, u => u
  | n + 1, u =>
    let fu := k0 * cos u + k1 / tan u - k2
    let fup := -1 * (k0 * sin u + k1 / (sin u * sin u))
    if |fup| < eps then u
    else
      let delta := fu / fup
      if |delta| < eps then u - delta else newtonHigh k0 k1 k2 eps n (u - delta)

/-- spatial.py 1415-1513: the body of the loop of `convert_ellipsoid` for one point; latitude in
degrees and height. -/
noncomputable def convertPoint (phi1 h1 a1 f1 a2 f2 eps : ℝ) (itmax : ℕ) : ℝ × ℝ :=
  let b1 := (1 - f1) * a1
  let b2 := (1 - f2) * a2
  let phi1 := if 90 < |phi1| then Real.sign phi1 * 90 else phi1
  if |phi1| < eps then (phi1, h1 + a1 - a2)
  else if 90 - |phi1| < eps then (phi1, h1 + b1 - b2)
  else
    let phi1r := phi1 * π / 180
    let sinphi1 := sin phi1r
    let cosphi1 := if cos phi1r < eps then eps else cos phi1r
    let tanphi1 := sinphi1 / cosphi1
    let u1 := arctan (b1 / a1 * tanphi1)
    let hpr1sin := b1 * sin u1 + h1 * sinphi1
    let hpr1cos := a1 * cos u1 + h1 * cosphi1
    if |phi1| ≤ 45 then
      let u2 := newtonLow (b2 * b2 - a2 * a2) (a2 * hpr1cos) (b2 * hpr1sin) eps (itmax + 1) u1
      let phi2r := arctan (a2 / b2 * tan u2)
      let phi2 := phi2r * 180 / π
      (if 90 < |phi2| then Real.sign phi2 * 90 else phi2, (hpr1cos - a2 * cos u2) / cos phi2r)
    else
      let u2 := newtonHigh (a2 * a2 - b2 * b2) (b2 * hpr1sin) (a2 * hpr1cos) eps (itmax + 1) u1
      let phi2r := arctan (a2 / b2 * tan u2)
      let phi2 := phi2r * 180 / π
      (if 90 < |phi2| then Real.sign phi2 * 90 else phi2, (hpr1sin - b2 * sin u2) / sin phi2r)

/-- spatial.py 1373-1516, `convert_ellipsoid` on lists of latitudes and heights.  The code also
clamps the caller's latitudes to ±90 in place; that effect is `clampInput`. -/
noncomputable def convertEllipsoid (phi1 h1 : List ℝ) (a1 f1 a2 f2 eps : ℝ) (itmax : ℕ) :
    Except PyErr (List (ℝ × ℝ)) :=
  if phi1.length ≠ h1.length then .error .valueError
  else .ok (List.zipWith (fun p h => convertPoint p h a1 f1 a2 f2 eps itmax) phi1 h1)

/-- spatial.py 1418-1419: what becomes of the caller's latitudes. -/
noncomputable def clampInput (phi1 : List ℝ) : List ℝ :=
  phi1.map fun p => if 90 < |p| then Real.sign p * 90 else p

/-- The ratio `m` (spatial.py 2257, 2261). -/
noncomputable def scaleM (ecc2 theta : ℝ) : ℝ := cos theta / sqrt (1 - ecc2 * sin theta ^ 2)

/-- The ratio `t` (spatial.py 2258-2259, 2262-2263). -/
noncomputable def scaleT (ecc theta : ℝ) : ℝ :=
  tan (π / 4 - theta / 2) / ((1 - ecc * sin theta) / (1 + ecc * sin theta)) ^ (ecc / 2)

/-- `k`, the distance scaling off the pole (spatial.py 2265). -/
noncomputable def scaleK (flat theta thetaRef : ℝ) : ℝ :=
  let ecc2 := 2 * flat - flat ^ 2
  (scaleM ecc2 thetaRef / scaleM ecc2 theta) *
    (scaleT (sqrt ecc2) theta / scaleT (sqrt ecc2) thetaRef)

/-- `kp`, the distance scaling at the pole (spatial.py 2266). -/
noncomputable def scaleKp (flat thetaRef : ℝ) : ℝ :=
  let ecc2 := 2 * flat - flat ^ 2
  let ecc := sqrt ecc2
  0.5 * scaleM ecc2 thetaRef * sqrt ((1 + ecc) ^ (1 + ecc) * (1 - ecc) ^ (1 - ecc)) /
    scaleT ecc thetaRef

/-- `np.isclose(theta, pi/2)` with its default tolerances. -/
def isCloseToPole (theta : ℝ) : Prop := |theta - π / 2| ≤ 1e-8 + 1e-5 * |π / 2|

open Classical in
/-- spatial.py 2218-2275, `scale_factors` for one latitude. -/
noncomputable def scaleFactors (lat flat referenceLatitude : ℝ) (metric : String) :
    Except PyErr ℝ :=
  let theta := |lat| * π / 180
  let thetaRef := |referenceLatitude| * π / 180
  if metric.toLower ∉ ["distance", "area"] then .error .assertionError
  else if metric.toLower = "distance" then
    .ok (if isCloseToPole theta then 1 / scaleKp flat thetaRef else 1 / scaleK flat theta thetaRef)
  else if metric.toLower = "area" then
    .ok (if isCloseToPole theta then 1 / scaleKp flat thetaRef ^ 2
      else 1 / scaleK flat theta thetaRef ^ 2)
  else .error .unbound

/-- spatial.py 188-221, `data_type`, from the numbers of elements and the number of dimensions of
`x`. -/
def dataType (xsize ysize tsize xndim : ℕ) : Except PyErr String :=
  if xsize = 1 ∧ ysize = 1 ∧ 1 ≤ tsize then .ok "time series"
  else if xsize = ysize ∧ xsize = tsize then .ok "drift"
  else if 1 < xndim ∧ xsize = ysize then .ok "grid"
  else if xsize ≠ ysize then .ok "grid"
  else .error .valueError

end Verif.Spatial
