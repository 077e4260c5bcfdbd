import Verif.Model.Py
import Mathlib.Analysis.SpecialFunctions.Pow.Real
import Mathlib.Analysis.SpecialFunctions.Trigonometric.Arctan
import Mathlib.Analysis.SpecialFunctions.Log.Basic

/-!
# Ellipsoids and normal gravity

Model of the class `datum` (/repo/pyTMD/crs.py 249-629).  Reals replace floating point numbers;
the constants are the decimal numbers written in the source.
-/

namespace Verif.CRS

open Verif Real

/-- The attributes set by `datum.__init__` (crs.py 297-423). -/
structure Datum where
  name : String
  units : String
  a : ℝ
  flat : ℝ
  GM : ℝ
  omega : ℝ
  G : ℝ
  gamma : ℝ

/-- crs.py 249-251 -/
def ellipsoids : List String := ["CLK66", "GRS67", "GRS80", "WGS72", "WGS84", "ATS77", "NAD27",
  "NAD83", "INTER", "KRASS", "MAIRY", "HGH80", "TOPEX", "EGM96", "IERS"]

/-- crs.py 252 -/
def unitSystems : List String := ["MKS", "CGS"]

/-- The branches for the named ellipsoids (crs.py 316-390): semi-major axis, inverse flattening,
and gravitational constant and angular velocity where the branch sets them. -/
def constants (name : String) : ℚ × ℚ × Option ℚ × Option ℚ :=
  if name = "CLK66" ∨ name = "NAD27" then (63782064 / 10, 2949786982 / 10 ^ 7, none, none)
  else if name = "GRS80" ∨ name = "NAD83" then
    (6378135, 29826 / 100, some (3986005 * 10 ^ 8), none)
  else if name = "GRS67" then
    (6378160, 298247167427 / 10 ^ 9, some (398603 * 10 ^ 9), some (72921151467 / 10 ^ 15))
  else if name = "WGS72" then (6378135, 29826 / 100, none, none)
  else if name = "WGS84" then (6378137, 298257223563 / 10 ^ 9, none, none)
  else if name = "ATS77" then (6378135, 298257 / 1000, none, none)
  else if name = "KRASS" then (6378245, 2983 / 10, none, none)
  else if name = "INTER" then (6378388, 297, none, none)
  else if name = "MAIRY" then (6377340189 / 1000, 2993249646 / 10 ^ 7, none, none)
  else if name = "HGH80" then (6378273, 298279411123064 / 10 ^ 12, none, none)
  else if name = "TOPEX" then (63781363 / 10, 298257 / 1000, some (3986004415 * 10 ^ 5), none)
  else if name = "EGM96" then
    (63781363 / 10, 298256415099 / 10 ^ 9, some (3986004415 * 10 ^ 5), none)
  else (63781366 / 10, 29825642 / 10 ^ 5, none, none)

/-- The part of `__init__` after the name is known (crs.py 392-423).  `GM?` and `omega?` are the
keyword arguments; `gm` and `om` what the branch of the ellipsoid has set. -/
noncomputable def finish (name units : String) (a flat : ℝ) (gm om GM? omega? : Option ℝ) : Datum :=
  let GM := (GM?.orElse fun _ => gm).getD 3986004418e5
  let omega := (omega?.orElse fun _ => om).getD (7292115 / 10 ^ 11)
  let G := 667430 / 10 ^ 16
  let gamma := 980665 / 10 ^ 5
  if units = "CGS" then ⟨name, units, a * 100, flat, GM * 10 ^ 6, omega, G * 1000, gamma * 100⟩
  else ⟨name, units, a, flat, GM, omega, G, gamma⟩

/-- crs.py 297-423, `datum.__init__`; the optional arguments are the keyword arguments `a_axis`,
`flat`, `GM` and `omega`, absent when `None`.  The guards on `GM` and `omega` (399-407) are the
lists of ellipsoids whose branch sets them, so the defaults apply exactly when nothing is set. -/
noncomputable def datum (ellipsoid units : String) (a? flat? GM? omega? : Option ℝ) :
    Except PyErr Datum :=
  match a?, flat? with
  | some a, some flat =>
    if units.toUpper ∈ unitSystems then
      .ok (finish "user_defined" units.toUpper a flat none none GM? omega?)
    else .error .assertionError
  | _, _ =>
    let name := ellipsoid.toUpper
    if name ∈ ellipsoids ∧ units.toUpper ∈ unitSystems then
      let c := constants name
      .ok (finish name units.toUpper (c.1 : ℝ) (1 / (c.2.1 : ℝ)) (c.2.2.1.map fun q : ℚ => (q : ℝ))
        (c.2.2.2.map fun q : ℚ => (q : ℝ)) GM? omega?)
    else .error .assertionError

namespace Datum

variable (d : Datum)

/-- crs.py 428-431 -/
noncomputable def radE : ℝ := d.a * (1 - d.flat) ^ ((1 : ℝ) / 3)
/-- crs.py 435-438 -/
noncomputable def b : ℝ := (1 - d.flat) * d.a
/-- crs.py 442-445 -/
noncomputable def ratio : ℝ := 1 - d.flat
/-- crs.py 449-452 -/
noncomputable def radP : ℝ := d.a / (1 - d.flat)
/-- crs.py 456-459 -/
noncomputable def ecc : ℝ := sqrt ((2 * d.flat - d.flat ^ 2) * d.a ^ 2)
/-- crs.py 463-466 -/
noncomputable def ecc1 : ℝ := d.ecc / d.a
/-- crs.py 470-473 -/
noncomputable def ecc2 : ℝ := d.ecc / d.b
/-- crs.py 478-481 -/
noncomputable def m : ℝ := d.omega ^ 2 * ((1 - d.flat) * d.a ^ 3) / d.GM
/-- crs.py 486-490 -/
noncomputable def f2 : ℝ := -d.flat + 5 / 2 * d.m + 1 / 2 * d.flat ^ 2 - 26 / 7 * d.flat * d.m +
  15 / 4 * d.m ^ 2
/-- crs.py 495-498 -/
noncomputable def f4 : ℝ := -(1 / 2) * d.flat ^ 2 + 5 / 2 * d.flat * d.m
/-- crs.py 503-506 -/
noncomputable def q : ℝ := 1 / 2 * ((1 + 3 / d.ecc2 ^ 2) * arctan d.ecc2 - 3 / d.ecc2)
/-- crs.py 511-515 -/
noncomputable def q0 : ℝ := 3 * (1 + 1 / d.ecc2 ^ 2) * (1 - 1 / d.ecc2 * arctan d.ecc2) - 1
/-- crs.py 519-522 -/
noncomputable def J2 : ℝ := d.ecc1 ^ 2 * (1 - 2 * d.m * d.ecc2 / (15 * d.q)) / 3
/-- crs.py 527-530 -/
noncomputable def C20 : ℝ := -d.J2 / sqrt 5
/-- crs.py 535-539 -/
noncomputable def gammaA : ℝ := d.GM / (d.a * d.b) *
  (1 - 3 / 2 * d.m - 3 / 14 * d.ecc2 ^ 2 * d.m)
/-- crs.py 544-548 -/
noncomputable def gammaB : ℝ := d.GM / d.a ^ 2 * (1 + d.m + 3 / 7 * d.ecc2 ^ 2 * d.m)
/-- crs.py 552-560 -/
noncomputable def gamma0 (theta : ℝ) : ℝ :=
  d.gammaA * (1 + d.f2 * cos theta ^ 2 + d.f4 * cos theta ^ 4)
/-- crs.py 564-577 -/
noncomputable def gammaH (theta height : ℝ) : ℝ := d.gamma0 theta *
  (1 - 2 / d.a * (1 + d.flat + d.m - 2 * d.flat * cos theta ^ 2) * height +
    3 / d.a ^ 2 * height ^ 2)
/-- crs.py 580-584; the divisor has the gravity at the pole, as the source does. -/
noncomputable def dk : ℝ := d.b * d.gammaB / (d.a * d.gammaB) - 1
/-- crs.py 588-592 -/
noncomputable def U0 : ℝ := d.GM / d.ecc * arctan d.ecc2 + 1 / 3 * d.omega ^ 2 * d.a ^ 2
/-- crs.py 595-601 -/
noncomputable def area : ℝ := π * d.a ^ 2 *
  (2 + (1 - d.ecc1 ^ 2) / d.ecc1 * log ((1 + d.ecc1) / (1 - d.ecc1)))
/-- crs.py 604-608 -/
noncomputable def volume : ℝ := 4 * π / 3 * d.a ^ 3 * (1 - d.ecc1 ^ 2) ^ ((1 : ℝ) / 2)
/-- crs.py 611-615 -/
noncomputable def rhoE : ℝ := d.GM / (d.G * d.volume)

end Datum

end Verif.CRS
