import Verif.Model.SolidEarth
/-!
`doodson_arguments` (`/repo/pyTMD/astro.py` 217-298) with all its keywords.  The model of the defaults is in
`Verif.Model.SolidEarth`.  `st` is the mean sidereal time in turns (`ts.st` of the package `timescale`).
-/
namespace Verif.Longitudes
open Verif Real

/-- astro.py 250-286: the angles in degrees, before `normalize_angle`. -/
noncomputable def rawDoodson (equinox correct : Bool) (st MJD : ℝ) : SolidEarth.Doodson :=
  let T := (MJD - 51544.5) / 36525
  let hour := Num.fmod MJD 1 * 24
  let S := Math.polynomialSum [218.3164477, 481267.88123421, -1.5786e-3, 1.855835e-6, -1.53388e-8] T
  let TAU :=
    if equinox then 360 * st + 180 - S
    else hour * 15 - S + Math.polynomialSum [280.4606184, 36000.7700536, 3.8793e-4, -2.58e-8] T
  let PR := Math.polynomialSum [0, 1.396971278, 3.08889e-4, 2.1e-8, 7.0e-9] T
  { tau := TAU
    s := if correct then S + PR else S
    h := Math.polynomialSum [280.46645, 36000.7697489, 3.0322222e-4, 2.0e-8, -6.54e-9] T
    p := Math.polynomialSum [83.3532465, 4069.0137287, -1.032172222e-2, -1.24991e-5, 5.263e-8] T
    np := Math.polynomialSum [234.95544499, 1934.13626197, -2.07561111e-3, -2.13944e-6, 1.65e-8] T
    ps := Math.polynomialSum [282.93734098, 1.71945766667, 4.5688889e-4, -1.778e-8, -3.34e-9] T }

/-- astro.py 217-298, `doodson_arguments` (radians). -/
noncomputable def doodsonArguments (equinox correct : Bool) (st MJD : ℝ) : SolidEarth.Doodson :=
  let r := rawDoodson equinox correct st MJD
  let dtr := π / 180
  { tau := dtr * Math.normalizeAngle r.tau 360
    s := dtr * Math.normalizeAngle r.s 360
    h := dtr * Math.normalizeAngle r.h 360
    p := dtr * Math.normalizeAngle r.p 360
    np := dtr * Math.normalizeAngle r.np 360
    ps := dtr * Math.normalizeAngle r.ps 360 }

/-- astro.py 206-215, `phase_angles` (deprecated): the moon, the sun, the perigee, mean lunar time, the node and the
solar perigee. -/
noncomputable def phaseAngles (st MJD : ℝ) : List ℝ :=
  let d := doodsonArguments false true st MJD
  [d.s, d.h, d.p, d.tau, d.np, d.ps]

end Verif.Longitudes
