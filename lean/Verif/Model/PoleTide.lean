import Verif.Model.SolidEarth
import Mathlib.LinearAlgebra.Matrix.NonsingularInverse
import Mathlib.LinearAlgebra.Matrix.Notation

/-!
# Pole tides

Model of `load_pole_tide` and `ocean_pole_tide` (/repo/pyTMD/predict.py 1056-1265) and of
`LPT_displacements` and `OPT_displacements` (/repo/pyTMD/compute.py 901-1326).  Reals replace
floating point numbers.  The positions of the mean pole and of the pole come from the package
`timescale`, which is not part of the repository: they are parameters.
-/

namespace Verif.PoleTide

open Verif Real SolidEarth

/-- What `timescale.eop` supplies: the mean or secular pole of a convention as a function of the
Julian day (by way of the decimal year), and the pole as a function of the MJD; arcseconds. -/
structure Poles where
  mean : String → ℝ → ℝ × ℝ
  motion : ℝ → ℝ × ℝ

/-- predict.py 1103-1112, 1122-1130 and 1220-1229, 1243-1251: `mx` and `my` for a time in days
since 1992-01-01 and a time correction. -/
noncomputable def offset (P : Poles) (convention : String) (t : ℝ × ℝ) : ℝ × ℝ :=
  let tt := t.1 + (2400000.5 + 48622) + t.2
  let MJD := tt - 2400000.5
  let mp := P.mean convention tt
  let p := P.motion MJD
  (p.1 - mp.1, -(p.2 - mp.2))

/-- predict.py 1117, 1234; compute.py 1002, 1216: geocentric latitude in radians.  On the axis the
quotient `Z/0` is infinite and its arctangent a right angle; at the centre it is not a number. -/
noncomputable def latitude (X : Vec) : Option ℝ :=
  let rho := sqrt (X 0 ^ 2 + X 1 ^ 2)
  if rho = 0 then
    if 0 < X 2 then some (π / 2) else if X 2 < 0 then some (-(π / 2)) else none
  else some (arctan (X 2 / rho))

/-- The rotation matrix of predict.py 1147-1155 and compute.py 1223-1232: its columns point south,
east and up. -/
noncomputable def columns (theta phi : ℝ) : Matrix (Fin 3) (Fin 3) ℝ :=
  !![cos phi * cos theta, -sin phi, cos phi * sin theta;
     sin phi * cos theta, cos phi, sin phi * sin theta;
     -sin theta, 0, cos theta]

/-- Arcseconds to radians -/
noncomputable def atr : ℝ := π / 648000

/-- One row of the result of `load_pole_tide` (predict.py 1114-1157), for the offset `m` of the
pole in arcseconds. -/
noncomputable def loadRow (gamma omega h2 l2 : ℝ) (m : ℝ × ℝ) (X : Vec) : Option Vec :=
  (latitude X).map fun lat =>
    let theta := π / 2 - lat
    let phi := Spatial.arctan2 (X 1) (X 0)
    let d0 := -l2 * atr * (omega ^ 2 * radius X ^ 2) / gamma
    let d1 := l2 * atr * (omega ^ 2 * radius X ^ 2) / gamma
    let d2 := -h2 * atr * (omega ^ 2 * radius X ^ 2) / (2 * gamma)
    let S : Vec := ![d0 * cos (2 * theta) * (m.1 * cos phi + m.2 * sin phi),
      d1 * cos theta * (m.1 * sin phi - m.2 * cos phi),
      d2 * sin (2 * theta) * (m.1 * cos phi + m.2 * sin phi)]
    fun j => S 0 * columns theta phi j 0 + S 1 * columns theta phi j 1 + S 2 * columns theta phi j 2

/-- predict.py 1056-1161, `load_pole_tide`; the times come with their corrections, the points with
their normal gravity. -/
noncomputable def loadPoleTide (P : Poles) (convention : String) (omega h2 l2 : ℝ)
    (ts : List (ℝ × ℝ)) (pts : List (Vec × ℝ)) : Except PyErr (List (Option Vec)) := do
  let n := max ts.length pts.length
  let m ← rows n (ts.map (offset P convention))
  let X ← rows n pts
  .ok (List.zipWith (fun m x => loadRow x.2 omega h2 l2 m x.1) m X)

/-- predict.py 1253-1255: the factor of the ocean pole tide -/
noncomputable def oceanFactor (gamma a GM omega rho : ℝ) : ℝ :=
  let Hp := sqrt (8 * π / 15) * (omega ^ 2 * a ^ 4) / GM
  4 * π * 6.67430e-11 * rho * Hp * a / (3 * gamma)

/-- One row of the result of `ocean_pole_tide` (predict.py 1260-1264). -/
noncomputable def oceanRow (K : ℝ) (g2 : ℂ) (m : ℝ × ℝ) (U : Fin 3 → ℂ) : Vec := fun i =>
  K * atr * ((m.1 * g2.re + m.2 * g2.im) * (U i).re + (m.2 * g2.re - m.1 * g2.im) * (U i).im)

/-- predict.py 1164-1268, `ocean_pole_tide`; a point is the row of `UXYZ` (`none` is not a
number; the coordinates of the point only serve to count the points). -/
noncomputable def oceanPoleTide (P : Poles) (convention : String) (K : ℝ) (g2 : ℂ)
    (ts : List (ℝ × ℝ)) (pts : List (Option (Fin 3 → ℂ))) : Except PyErr (List (Option Vec)) := do
  let n := max ts.length pts.length
  let m ← rows n (ts.map (offset P convention))
  let U ← rows n pts
  .ok (List.zipWith (fun m u => u.map (oceanRow K g2 m)) m U)

/-- The conventions accepted (`timescale.eop._conventions`, and the docstrings). -/
def conventions : List String := ["2003", "2010", "2015", "2018"]

/-- compute.py 1004-1006, 1218-1220: geocentric colatitude and longitude in radians of a location
given by longitude and latitude in degrees. -/
noncomputable def angles (dm : CRS.Datum) (q : ℝ × ℝ) : Option (ℝ × ℝ) :=
  let dtr := π / 180
  (latitude (place dm q)).map fun lat => (dtr * (90 - lat / dtr), dtr * q.1)

/-- The rotation matrix of compute.py 1013-1021: its rows point south, east and up. -/
noncomputable def lptMatrix (theta phi : ℝ) : Matrix (Fin 3) (Fin 3) ℝ :=
  !![cos phi * cos theta, sin phi * cos theta, -sin theta;
     -sin phi, cos phi, 0;
     cos phi * sin theta, sin phi * sin theta, cos theta]

/-- `np.einsum('ti...,tji...->tj...', dxi, R)[:,2]` for one row -/
noncomputable def third (R : Matrix (Fin 3) (Fin 3) ℝ) (d : Vec) : ℝ :=
  d 0 * R 2 0 + d 1 * R 2 1 + d 2 * R 2 2

/-- The same where rows may be not a number. -/
noncomputable def thirdOrNaN (R : Option (Matrix (Fin 3) (Fin 3) ℝ)) (d : Option Vec) :
    Option ℝ := R.bind fun R => d.map (third R)

/-- A location of LPT: Cartesian coordinates with normal gravity, and rotation matrix.  Where the
latitude is not a number, so is the matrix, and the value taken here for gravity is not used. -/
noncomputable def lptPoint (dm : CRS.Datum) (q : ℝ × ℝ) :
    (Vec × ℝ) × Option (Matrix (Fin 3) (Fin 3) ℝ) :=
  ((place dm q, dm.gamma0 (((angles dm q).map Prod.fst).getD 0)),
    (angles dm q).map fun a => lptMatrix a.1 a.2)

/-- The three branches of compute.py 1024-1093 and 1238-1321 (`run` is the call of the function of
`predict`).  `ny` and `nx` are the shape of `x`. -/
noncomputable def byType {α : Type}
    (run : List (ℝ × ℝ) → List α → Except PyErr (List (Option Vec)))
    (type : String) (ny nx : ℕ) (pts : List (α × Option (Matrix (Fin 3) (Fin 3) ℝ)))
    (times : List (ℝ × ℝ)) : Except PyErr Out :=
  if type = "grid" then do
    let out ← pyMap (fun t => do
      let dxi ← run [t] (pts.map Prod.fst)
      let R ← rows dxi.length (pts.map Prod.snd)
      reshape (ny * nx) (List.zipWith thirdOrNaN R dxi)) times
    .ok (.grid out)
  else if type = "drift" then do
    let dxi ← run times (pts.map Prod.fst)
    let R ← rows dxi.length (pts.map Prod.snd)
    let S ← rows times.length (List.zipWith thirdOrNaN R dxi)
    .ok (.drift S)
  else if type = "time series" then do
    let out ← pyMap (fun q => do
      let dxi ← run times (List.replicate times.length q.1)
      Except.ok (dxi.map (thirdOrNaN q.2))) pts
    .ok (.series out)
  else .error .unbound

/-- compute.py 901-1098, `LPT_displacements` after the projection of the coordinates (`pts` are
longitude and latitude, in the order of `flatten`) and the conversion of times. -/
noncomputable def lptDisplacements (P : Poles) (type ellipsoid convention : String) (ny nx : ℕ)
    (pts times : List (ℝ × ℝ)) : Except PyErr Out :=
  if ellipsoid.toUpper ∉ CRS.ellipsoids then .error .assertionError
  else if convention ∉ conventions then .error .assertionError
  else if type.toLower ∉ ["grid", "drift", "time series"] then .error .assertionError
  else do
    let dm ← CRS.datum ellipsoid "MKS" none none none none
    byType (loadPoleTide P convention dm.omega 0.6207 0.0836) type ny nx (pts.map (lptPoint dm))
      times

/-- compute.py 1222-1236: the coefficients at a location, rotated to Cartesian coordinates, and the
inverse of the rotation matrix.  `coef` is the map of Desai (2002), interpolated: radial, north and
east coefficient at a longitude and a geocentric latitude in degrees. -/
noncomputable def optPoint (coef : ℝ → ℝ → Option (ℂ × ℂ × ℂ)) (dm : CRS.Datum) (q : ℝ × ℝ) :
    Option (Fin 3 → ℂ) × Option (Matrix (Fin 3) (Fin 3) ℝ) :=
  ((angles dm q).bind fun a =>
    (coef q.1 (((latitude (place dm q)).getD 0) / (π / 180))).map fun (ur, un, ue) => fun j =>
      un * (columns a.1 a.2 j 0 : ℂ) + ue * (columns a.1 a.2 j 1 : ℂ) +
        ur * (columns a.1 a.2 j 2 : ℂ),
    (angles dm q).map fun a => (columns a.1 a.2)⁻¹)

/-- compute.py 1101-1326, `OPT_displacements` after the projection of the coordinates and the
conversion of times. -/
noncomputable def optDisplacements (P : Poles) (coef : ℝ → ℝ → Option (ℂ × ℂ × ℂ))
    (type ellipsoid convention method : String) (ny nx : ℕ) (pts times : List (ℝ × ℝ)) :
    Except PyErr Out :=
  if ellipsoid.toUpper ∉ CRS.ellipsoids then .error .assertionError
  else if convention ∉ conventions then .error .assertionError
  else if method.toLower ∉ ["bilinear", "spline", "linear", "nearest"] then .error .assertionError
  else if type.toLower ∉ ["grid", "drift", "time series"] then .error .assertionError
  else do
    let dm ← CRS.datum ellipsoid "MKS" none none none none
    byType (oceanPoleTide P convention (oceanFactor 9.7803278 dm.a dm.GM dm.omega 1025)
      ⟨0.6870, 0.0036⟩) type ny nx (pts.map (optPoint coef dm)) times

end Verif.PoleTide
