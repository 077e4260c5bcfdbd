import Verif.Model.Math
/-!
Model of the approximate positions of sun and moon in `/repo/pyTMD/astro.py`: `solar_ecef` (373-400),
`solar_approximate` (402-447), `lunar_ecef` (493-520), `lunar_approximate` (522-605).

Floats are reals; one time is modelled, the code treats every time alike.  The class `Timescale` of the
package `timescale` is not part of the repository: the centuries since 2000 (`ts.T`) and the Greenwich
hour angle in degrees (`ts.gha`) are inputs, and its constants are `deg2rad = π/180` and
`asec2rad = π/648000`.
-/
namespace Verif.Sky
open Verif Verif.Math Real

noncomputable def deg2rad : ℝ := π / 180
noncomputable def asec2rad : ℝ := π / 648000

/-- Coordinates. -/
@[ext] structure P3 where
  x : ℝ
  y : ℝ
  z : ℝ

/-- astro.py 443-445 and 594-604: a matrix applied to coordinates, row by row. -/
noncomputable def apply (R : Mat3) (p : P3) : P3 where
  x := R 0 0 * p.x + R 0 1 * p.y + R 0 2 * p.z
  y := R 1 0 * p.x + R 1 1 * p.y + R 1 2 * p.z
  z := R 2 0 * p.x + R 2 1 * p.y + R 2 2 * p.z

/-- astro.py 418-447, `solar_approximate`. -/
noncomputable def solarApproximate (T gha : ℝ) : Except PyErr P3 := do
  let PP := deg2rad * (282.94 + 1.7192 * T)
  let M := deg2rad * polynomialSum [357.5256, 35999.049, -1.559e-4, -4.8e-7] T
  let r_sun := 1e9 * (149.619 - 2.499 * cos M - 0.021 * cos (2 * M))
  let lambda_sun := PP + M + asec2rad * (6892 * sin M + 72 * sin (2 * M))
  let epsilon := 23.43929111 * deg2rad
  let x := r_sun * cos lambda_sun
  let y := r_sun * sin lambda_sun * cos epsilon
  let z := r_sun * sin lambda_sun * sin epsilon
  let rot_z ← rotate (gha * deg2rad) "z"
  .ok (apply rot_z ⟨x, y, z⟩)

/-- The mean arguments of astro.py 539-555 (radians): mean longitude of the moon, elongation, argument
of latitude, mean anomalies of the sun and of the moon. -/
structure Means where
  s : ℝ
  D : ℝ
  F : ℝ
  M : ℝ
  l : ℝ

/-- astro.py 539-555. -/
noncomputable def lunarMeans (T : ℝ) : Means :=
  let s := deg2rad * polynomialSum [218.3164477, 481267.88123421, -1.5786e-3, 1.855835e-6, -1.53388e-8] T
  let D := deg2rad * polynomialSum [297.8501921, 445267.1114034, -1.8819e-3, 1.83195e-6, -8.8445e-9] T
  let N := deg2rad * polynomialSum [125.04452, -1934.136261, 2.0708e-3, 2.22222e-6] T
  { s := s
    D := D
    F := s - N
    M := deg2rad * (357.5256 + 35999.049 * T)
    l := deg2rad * (134.96292 + 477198.86753 * T) }

/-- astro.py 556-560: the distance of the moon. -/
noncomputable def lunarRadius (m : Means) : ℝ :=
  1e3 * (385000 - 20905 * cos m.l - 3699 * cos (2 * m.D - m.l) -
    2956 * cos (2 * m.D) - 570 * cos (2 * m.l) +
    246 * cos (2 * m.l - 2 * m.D) - 205 * cos (m.M - 2 * m.D) -
    171 * cos (m.l + 2 * m.D) - 152 * cos (m.l + m.M - 2 * m.D))

/-- astro.py 561-570: the ecliptic longitude of the moon. -/
noncomputable def lunarLongitude (m : Means) : ℝ :=
  m.s + asec2rad * (
    22640 * sin m.l + 769 * sin (2 * m.l) -
    4586 * sin (m.l - 2 * m.D) + 2370 * sin (2 * m.D) -
    668 * sin m.M - 412 * sin (2 * m.F) -
    212 * sin (2 * m.l - 2 * m.D) - 206 * sin (m.l + m.M - 2 * m.D) +
    192 * sin (m.l + 2 * m.D) - 165 * sin (m.M - 2 * m.D) -
    148 * sin (m.l - m.M) - 125 * sin m.D -
    110 * sin (m.l + m.M) - 55 * sin (2 * m.F - 2 * m.D))

/-- astro.py 571-578: the ecliptic latitude of the moon, given its longitude. -/
noncomputable def lunarLatitude (m : Means) (lambda_moon : ℝ) : ℝ :=
  let q := asec2rad * (412 * sin (2 * m.F) + 541 * sin m.M)
  asec2rad * (18520 * sin (m.F + lambda_moon - m.s + q) -
    526 * sin (m.F - 2 * m.D) + 44 * sin (m.l + m.F - 2 * m.D) -
    31 * sin (-m.l + m.F - 2 * m.D) - 25 * sin (-2 * m.l + m.F) -
    23 * sin (m.M + m.F - 2 * m.D) + 21 * sin (-m.l + m.F) +
    11 * sin (-m.M + m.F - 2 * m.D))

/-- astro.py 536-605, `lunar_approximate`. -/
noncomputable def lunarApproximate (T gha : ℝ) : Except PyErr P3 := do
  let m := lunarMeans T
  let r_moon := lunarRadius m
  let lambda_moon := lunarLongitude m
  let beta_moon := lunarLatitude m lambda_moon
  let x := r_moon * cos lambda_moon * cos beta_moon
  let y := r_moon * sin lambda_moon * cos beta_moon
  let z := r_moon * sin beta_moon
  let epsilon := 23.43929111 * deg2rad
  let rot_x ← rotate (-epsilon) "x"
  let rot_z ← rotate (gha * deg2rad) "z"
  .ok (apply rot_z (apply rot_x ⟨x, y, z⟩))

/-- astro.py 396-400 and 516-520, `solar_ecef` and `lunar_ecef`: `None` for a name of ephemerides that
is not known.  `jpl` is the result for kernels of JPL, which are not modelled. -/
def ecef (ephemerides : String) (approximate jpl : Except PyErr P3) : Except PyErr (Option P3) :=
  if ephemerides.toLower = "approximate" then approximate.map some
  else if ephemerides.toUpper = "JPL" then jpl.map some
  else .ok none

end Verif.Sky
