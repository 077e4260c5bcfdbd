import Verif.Model.Math
import Verif.Model.Coef
import Verif.Model.Nodal

/-!
# Astronomical longitudes, tidal arguments and frequencies

Model of `mean_longitudes` (/repo/pyTMD/astro.py 108-203) and of `arguments`,
`coefficients_table`, `frequency` and `aliasing_period`
(/repo/pyTMD/arguments.py 111-176, 333-394, 1172-1264).  Floating point numbers become reals; one
time is modelled, the code treats every time alike.
-/

namespace Verif.Astro

open Verif Real

/-- The mean longitudes (degrees): moon, sun, lunar perigee, ascending lunar node, solar
perigee. -/
structure Longitudes where
  s : ℝ
  h : ℝ
  p : ℝ
  n : ℝ
  pp : ℝ

/-- Which formulas `mean_longitudes` uses (keywords `MEEUS` and `ASTRO5`). -/
inductive Mode where
  | meeus | astro5 | cartwright
  deriving DecidableEq

/-- astro.py 140-196: the longitudes before `normalize_angle`. -/
noncomputable def rawLongitudes (mode : Mode) (MJD : ℝ) : Longitudes :=
  match mode with
  | .meeus =>
    let T := MJD - 51544.5
    { s := Math.polynomialSum [218.3164591, 13.17639647754579, -9.9454632e-13, 3.8086292e-20,
        -8.6184958e-27] T
      h := Math.polynomialSum [280.46645, 0.985647360164271, 2.2727347e-13] T
      p := Math.polynomialSum [83.3532430, 0.11140352391786447, -7.7385418e-12, -2.5636086e-19,
        2.95738836e-26] T
      n := Math.polynomialSum [125.0445550, -0.052953762762491446, 1.55628359e-12,
        4.390675353e-20, -9.26940435e-27] T
      pp := 282.94 + (1.7192 * T) / 36525 }
  | .astro5 =>
    let T := (MJD - 51544.5) / 36525
    let lunar := [218.3164477, 481267.88123421, -1.5786e-3, 1.855835e-6, -1.53388e-8]
    let elongation := [297.8501921, 445267.1114034, -1.8819e-3, 1.83195e-6, -8.8445e-9]
    { s := Math.polynomialSum lunar T
      h := Math.polynomialSum (List.zipWith (· - ·) lunar elongation) T
      p := Math.polynomialSum [83.3532465, 4069.0137287, -1.032e-2, -1.249172e-5] T
      n := Math.polynomialSum [125.04452, -1934.136261, 2.0708e-3, 2.22222e-6] T
      pp := 282.94 + 1.7192 * T }
  | .cartwright =>
    let T := MJD - 51544.4993
    { s := 218.3164 + 13.17639648 * T
      h := 280.4661 + 0.98564736 * T
      p := 83.3535 + 0.11140353 * T
      n := 125.0445 - 0.05295377 * T
      pp := 282.8 }

/-- astro.py 108-203, `mean_longitudes`: all but the solar perigee are reduced to [0, 360). -/
noncomputable def meanLongitudes (mode : Mode) (MJD : ℝ) : Longitudes :=
  let r := rawLongitudes mode MJD
  { s := Math.normalizeAngle r.s 360
    h := Math.normalizeAngle r.h 360
    p := Math.normalizeAngle r.p 360
    n := Math.normalizeAngle r.n 360
    pp := r.pp }

/-- `corrections in ('OTIS','ATLAS','TMD3','netcdf')` (arguments.py 150, 375, 518, 1202). -/
def otisType (corrections : String) : Bool :=
  ["OTIS", "ATLAS", "TMD3", "netcdf"].contains corrections

/-- The formulas for the type of corrections (arguments.py 150-153, 1202, 1208). -/
def modeOf (corrections : String) : Mode :=
  if otisType corrections then .cartwright else .astro5

/-- `fargs` (arguments.py 155-166): mean lunar time, the longitudes and 90 degrees.  The
longitudes are taken at `MJD + deltat`, the hour at `MJD`. -/
noncomputable def fargs (corrections : String) (deltat MJD : ℝ) : List ℝ :=
  let l := meanLongitudes (modeOf corrections) (MJD + deltat)
  let hour := 24 * Num.fmod MJD 1
  [15 * hour - l.s + l.h, l.s, l.h, l.p, l.n, l.pp, 90]

/-- `np.dot` of a row of arguments with a column of coefficients. -/
noncomputable def dot (a : List ℝ) (c : List ℤ) : ℝ :=
  (List.zipWith (fun (x : ℝ) (y : ℤ) => x * (y : ℝ)) a c).sum

/-- The coefficients of one constituent; `KeyError` becomes `ValueError`
(arguments.py 386-391). -/
def row (corrections : String) (c : String) : Except PyErr (List ℤ) :=
  match Coef.lookup (otisType corrections) c with
  | some r => .ok r
  | none => .error .valueError

/-- `coefficients_table` (arguments.py 333-394). -/
def coefficients (corrections : String) (cs : List String) : Except PyErr (List (List ℤ)) :=
  pyMap (row corrections) cs

/-- `arguments` (arguments.py 111-176): angle, factor and phase (degrees) for each constituent.
The recursion of `nodal` is given enough fuel. -/
noncomputable def arguments (corrections m1 : String) (deltat MJD : ℝ) (cs : List String) :
    Except PyErr (List (ℝ × ℝ) × List ℝ) := do
  let rows ← coefficients corrections cs
  let G := rows.map (dot (fargs corrections deltat MJD))
  let l := meanLongitudes (modeOf corrections) (MJD + deltat)
  match Nodal.nodal 2 (Nodal.Cfg.ofKwargs corrections m1) l.n l.p cs with
  | some uf => .ok (uf, G)
  | none => .error .exception

/-- `frequency` (arguments.py 1172-1225), radians per second. -/
noncomputable def frequency (corrections : String) (cs : List String) :
    Except PyErr (List ℝ) := do
  let deltat : ℝ := 86400 * (51544.55 - 51544.5)
  let f0 := fargs corrections 0 51544.5
  let f1 := fargs corrections 0 51544.55
  let rates := List.zipWith (fun y x => (y - x) / deltat) f1 f0
  let rows ← coefficients corrections cs
  .ok (rows.map fun r => 2 * π * dot rates r / 360)

/-- `aliasing_period` (arguments.py 1227-1264), seconds. -/
noncomputable def aliasingPeriod (corrections : String) (sampling : ℝ) (cs : List String) :
    Except PyErr (List ℝ) := do
  let omega ← frequency corrections cs
  .ok (omega.map fun w => 1 / Math.aliasing (w / (2 * π)) (1 / sampling))

end Verif.Astro
