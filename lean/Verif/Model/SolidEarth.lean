import Verif.Model.Py
import Verif.Model.Math
import Verif.Model.Spatial
import Verif.Model.Datum

/-!
# Solid Earth tides

Model of `doodson_arguments` (/repo/pyTMD/astro.py 217-298), of `solid_earth_tide` and its
corrections (/repo/pyTMD/predict.py 1271-1761) and of `SET_displacements`
(/repo/pyTMD/compute.py 1329-1510).

Floating point numbers become reals.  The formulas are given for one row of the arrays; `rows`
describes the broadcasting.  The code repeats each formula for the Sun and the Moon; here it is
written once, as a function of the position of the body.  A row in which some divisor vanishes is
`none`: numpy computes 0/0 there and the row becomes not-a-number.
-/

namespace Verif.SolidEarth

open Verif Real

/-- A row of an array of Cartesian coordinates. -/
abbrev Vec := Fin 3 → ℝ

/-- The six angles of `doodson_arguments`, in radians. -/
structure Doodson where
  tau : ℝ
  s : ℝ
  h : ℝ
  p : ℝ
  np : ℝ
  ps : ℝ

/-- astro.py 250-286: the angles in degrees, before `normalize_angle`, for the default keywords
(`equinox=False`, `apply_correction=True`; nothing in the package passes others). -/
noncomputable def rawDoodson (MJD : ℝ) : Doodson :=
  let T := (MJD - 51544.5) / 36525
  let hour := Num.fmod MJD 1 * 24
  let S := Math.polynomialSum [218.3164477, 481267.88123421, -1.5786e-3, 1.855835e-6,
    -1.53388e-8] T
  let LAMBDA := Math.polynomialSum [280.4606184, 36000.7700536, 3.8793e-4, -2.58e-8] T
  let PR := Math.polynomialSum [0, 1.396971278, 3.08889e-4, 2.1e-8, 7.0e-9] T
  { tau := hour * 15 - S + LAMBDA
    s := S + PR
    h := Math.polynomialSum [280.46645, 36000.7697489, 3.0322222e-4, 2.0e-8, -6.54e-9] T
    p := Math.polynomialSum [83.3532465, 4069.0137287, -1.032172222e-2, -1.24991e-5, 5.263e-8] T
    np := Math.polynomialSum [234.95544499, 1934.13626197, -2.07561111e-3, -2.13944e-6, 1.65e-8] T
    ps := Math.polynomialSum [282.93734098, 1.71945766667, 4.5688889e-4, -1.778e-8, -3.34e-9] T }

/-- astro.py 288-298 -/
noncomputable def doodsonArguments (MJD : ℝ) : Doodson :=
  let r := rawDoodson MJD
  let dtr := π / 180
  { tau := dtr * Math.normalizeAngle r.tau 360
    s := dtr * Math.normalizeAngle r.s 360
    h := dtr * Math.normalizeAngle r.h 360
    p := dtr * Math.normalizeAngle r.p 360
    np := dtr * Math.normalizeAngle r.np 360
    ps := dtr * Math.normalizeAngle r.ps 360 }

/-- `np.sqrt(X[:,0]**2 + X[:,1]**2 + X[:,2]**2)` (predict.py 1319-1321, 1403, 1412-1413, ...). -/
noncomputable def radius (X : Vec) : ℝ := sqrt (X 0 ^ 2 + X 1 ^ 2 + X 2 ^ 2)

/-- The scalar product of the unit vectors (predict.py 1322-1325). -/
noncomputable def scalar (X B : Vec) : ℝ :=
  (X 0 * B 0 + X 1 * B 1 + X 2 * B 2) / (radius X * radius B)

/-- sinphi (predict.py 1404 and the like) -/
noncomputable def sinphi (X : Vec) : ℝ := X 2 / radius X

/-- cosphi (predict.py 1327, 1405 and the like) -/
noncomputable def cosphi (X : Vec) : ℝ := sqrt (X 0 ^ 2 + X 1 ^ 2) / radius X

/-- sinla (predict.py 1407 and the like) -/
noncomputable def sinla (X : Vec) : ℝ := X 1 / cosphi X / radius X

/-- cosla (predict.py 1408 and the like) -/
noncomputable def cosla (X : Vec) : ℝ := X 0 / cosphi X / radius X

/-- The keyword arguments of `solid_earth_tide` (predict.py 1306-1313). -/
structure Keywords where
  h2 : ℝ := 0.6078
  l2 : ℝ := 0.0847
  h3 : ℝ := 0.292
  l3 : ℝ := 0.015
  massRatioSolar : ℝ := 332946.0482
  massRatioLunar : ℝ := 0.0123000371

/-- predict.py 1328 -/
noncomputable def loveH2 (k : Keywords) (X : Vec) : ℝ :=
  k.h2 - 0.0006 * (1 - 3 / 2 * cosphi X ^ 2)

/-- predict.py 1329 -/
noncomputable def shidaL2 (k : Keywords) (X : Vec) : ℝ :=
  k.l2 + 0.0002 * (1 - 3 / 2 * cosphi X ^ 2)

/-- F2 of a body (predict.py 1344-1345) -/
noncomputable def F2 (ratio a : ℝ) (B : Vec) : ℝ := ratio * a * (a / radius B) ^ 3

/-- F3 of a body (predict.py 1346-1347) -/
noncomputable def F3 (ratio a : ℝ) (B : Vec) : ℝ := ratio * a * (a / radius B) ^ 4

/-- Degree 2 displacement by one body (predict.py 1331-1332, 1339-1340, 1351-1352). -/
noncomputable def degree2 (k : Keywords) (ratio a : ℝ) (X B : Vec) : Vec :=
  let s := scalar X B
  let h2 := loveH2 k X
  let l2 := shidaL2 k X
  let P2 := 3 * (h2 / 2 - l2) * s ^ 2 - h2 / 2
  let X2 := 3 * l2 * s
  fun i => F2 ratio a B * (X2 * B i / radius B + P2 * X i / radius X)

/-- Degree 3 displacement by one body (predict.py 1334-1337, 1341-1342, 1353-1354). -/
noncomputable def degree3 (k : Keywords) (ratio a : ℝ) (X B : Vec) : Vec :=
  let s := scalar X B
  let P3 := 5 / 2 * (k.h3 - 3 * k.l3) * s ^ 3 + 3 / 2 * (k.l3 - k.h3) * s
  let X3 := 3 * k.l3 / 2 * (5 * s ^ 2 - 1)
  fun i => F3 ratio a B * (X3 * B i / radius B + P3 * X i / radius X)

/-- predict.py 1348-1355: in-phase displacement by Sun `S` and Moon `L`. -/
noncomputable def inPhase (k : Keywords) (a : ℝ) (X S L : Vec) : Vec := fun i =>
  degree2 k k.massRatioSolar a X S i + degree2 k k.massRatioLunar a X L i +
    degree3 k k.massRatioSolar a X S i + degree3 k k.massRatioLunar a X L i

/-- Offsets by one body of `_out_of_phase_diurnal` (predict.py 1399-1427): radial, north, east. -/
noncomputable def diurnalOffsets (f2 : ℝ) (X B : Vec) : ℝ × ℝ × ℝ :=
  let dhi := -0.0025
  let dli := -0.0007
  let cos2phi := cosphi X ^ 2 - sinphi X ^ 2
  (-3 * dhi * sinphi X * cosphi X * f2 * B 2 * (B 0 * sinla X - B 1 * cosla X) / radius B ^ 2,
   -3 * dli * cos2phi * f2 * B 2 * (B 0 * sinla X - B 1 * cosla X) / radius B ^ 2,
   -3 * dli * sinphi X * f2 * B 2 * (B 0 * cosla X + B 1 * sinla X) / radius B ^ 2)

/-- predict.py 1375-1434, `_out_of_phase_diurnal` -/
noncomputable def outOfPhaseDiurnal (X S L : Vec) (fS fL : ℝ) : Vec :=
  let DR := (diurnalOffsets fS X S).1 + (diurnalOffsets fL X L).1
  let DN := (diurnalOffsets fS X S).2.1 + (diurnalOffsets fL X L).2.1
  let DE := (diurnalOffsets fS X S).2.2 + (diurnalOffsets fL X L).2.2
  ![DR * cosla X * cosphi X - DE * sinla X - DN * cosla X * sinphi X,
    DR * sinla X * cosphi X + DE * cosla X - DN * sinla X * sinphi X,
    DR * sinphi X + DN * cosphi X]

/-- Offsets by one body of `_out_of_phase_semidiurnal` (predict.py 1460-1492): radial, north,
east. -/
noncomputable def semidiurnalOffsets (f2 : ℝ) (X B : Vec) : ℝ × ℝ × ℝ :=
  let dhi := -0.0022
  let dli := -0.0007
  let cos2la := cosla X ^ 2 - sinla X ^ 2
  let sin2la := 2 * cosla X * sinla X
  (-3 / 4 * dhi * cosphi X ^ 2 * f2 *
      ((B 0 ^ 2 - B 1 ^ 2) * sin2la - 2 * B 0 * B 1 * cos2la) / radius B ^ 2,
   3 / 2 * dli * sinphi X * cosphi X * f2 *
      ((B 0 ^ 2 - B 1 ^ 2) * sin2la - 2 * B 0 * B 1 * cos2la) / radius B ^ 2,
   -3 / 2 * dli * cosphi X * f2 *
      ((B 0 ^ 2 - B 1 ^ 2) * cos2la + 2 * B 0 * B 1 * sin2la) / radius B ^ 2)

/-- predict.py 1436-1502, `_out_of_phase_semidiurnal` -/
noncomputable def outOfPhaseSemidiurnal (X S L : Vec) (fS fL : ℝ) : Vec :=
  let DR := (semidiurnalOffsets fS X S).1 + (semidiurnalOffsets fL X L).1
  let DN := (semidiurnalOffsets fS X S).2.1 + (semidiurnalOffsets fL X L).2.1
  let DE := (semidiurnalOffsets fS X S).2.2 + (semidiurnalOffsets fL X L).2.2
  ![DR * cosla X * cosphi X - DE * sinla X - DN * cosla X * sinphi X,
    DR * sinla X * cosphi X + DE * cosla X - DN * sinla X * sinphi X,
    DR * sinphi X + DN * cosphi X]

/-- Offsets by one body of `_latitude_dependence` (predict.py 1528-1561): north and east of the
diurnal band, north and east of the semi-diurnal band. -/
noncomputable def latitudeOffsets (f2 : ℝ) (X B : Vec) : ℝ × ℝ × ℝ × ℝ :=
  let l1d := 0.0012
  let l1sd := 0.0024
  let cos2la := cosla X ^ 2 - sinla X ^ 2
  let sin2la := 2 * cosla X * sinla X
  (-l1d * sinphi X ^ 2 * f2 * B 2 * (B 0 * cosla X + B 1 * sinla X) / radius B ^ 2,
   l1d * sinphi X * (cosphi X ^ 2 - sinphi X ^ 2) * f2 * B 2 *
      (B 0 * sinla X - B 1 * cosla X) / radius B ^ 2,
   -l1sd / 2 * sinphi X * cosphi X * f2 *
      ((B 0 ^ 2 - B 1 ^ 2) * cos2la + 2 * B 0 * B 1 * sin2la) / radius B ^ 2,
   -l1sd / 2 * sinphi X ^ 2 * cosphi X * f2 *
      ((B 0 ^ 2 - B 1 ^ 2) * sin2la - 2 * B 0 * B 1 * cos2la) / radius B ^ 2)

/-- predict.py 1504-1572, `_latitude_dependence` -/
noncomputable def latitudeDependence (X S L : Vec) (fS fL : ℝ) : Vec :=
  let oS := latitudeOffsets fS X S
  let oL := latitudeOffsets fL X L
  let DN := 3 * (oS.1 + oL.1 + oS.2.2.1 + oL.2.2.1)
  let DE := 3 * (oS.2.1 + oL.2.1 + oS.2.2.2 + oL.2.2.2)
  ![-DE * sinla X - DN * cosla X * sinphi X,
    DE * cosla X - DN * sinla X * sinphi X,
    DN * cosphi X]

/-- A row of the tables of frequency dependent corrections: multipliers of S, H, P, N', Ps and
four amplitudes in millimetres. -/
structure Row where
  n : List ℤ
  r5 : ℚ
  r6 : ℚ
  r7 : ℚ
  r8 : ℚ

/-- predict.py 1593-1625 -/
def diurnalTable : List Row := [
  ⟨[-3, 0, 2, 0, 0], -0.01, 0, 0, 0⟩,
  ⟨[-3, 2, 0, 0, 0], -0.01, 0, 0, 0⟩,
  ⟨[-2, 0, 1, -1, 0], -0.02, 0, 0, 0⟩,
  ⟨[-2, 0, 1, 0, 0], -0.08, 0, -0.01, 0.01⟩,
  ⟨[-2, 2, -1, 0, 0], -0.02, 0, 0, 0⟩,
  ⟨[-1, 0, 0, -1, 0], -0.10, 0, 0, 0⟩,
  ⟨[-1, 0, 0, 0, 0], -0.51, 0, -0.02, 0.03⟩,
  ⟨[-1, 2, 0, 0, 0], 0.01, 0, 0, 0⟩,
  ⟨[0, -2, 1, 0, 0], 0.01, 0, 0, 0⟩,
  ⟨[0, 0, -1, 0, 0], 0.02, 0, 0, 0⟩,
  ⟨[0, 0, 1, 0, 0], 0.06, 0, 0, 0⟩,
  ⟨[0, 0, 1, 1, 0], 0.01, 0, 0, 0⟩,
  ⟨[0, 2, -1, 0, 0], 0.01, 0, 0, 0⟩,
  ⟨[1, -3, 0, 0, 1], -0.06, 0, 0, 0⟩,
  ⟨[1, -2, 0, -1, 0], 0.01, 0, 0, 0⟩,
  ⟨[1, -2, 0, 0, 0], -1.23, -0.07, 0.06, 0.01⟩,
  ⟨[1, -1, 0, 0, -1], 0.02, 0, 0, 0⟩,
  ⟨[1, -1, 0, 0, 1], 0.04, 0, 0, 0⟩,
  ⟨[1, 0, 0, -1, 0], -0.22, 0.01, 0.01, 0⟩,
  ⟨[1, 0, 0, 0, 0], 12.00, -0.80, -0.67, -0.03⟩,
  ⟨[1, 0, 0, 1, 0], 1.73, -0.12, -0.10, 0⟩,
  ⟨[1, 0, 0, 2, 0], -0.04, 0, 0, 0⟩,
  ⟨[1, 1, 0, 0, -1], -0.50, -0.01, 0.03, 0⟩,
  ⟨[1, 1, 0, 0, 1], 0.01, 0, 0, 0⟩,
  ⟨[0, 1, 0, 1, -1], -0.01, 0, 0, 0⟩,
  ⟨[1, 2, -2, 0, 0], -0.01, 0, 0, 0⟩,
  ⟨[1, 2, 0, 0, 0], -0.11, 0.01, 0.01, 0⟩,
  ⟨[2, -2, 1, 0, 0], -0.01, 0, 0, 0⟩,
  ⟨[2, 0, -1, 0, 0], -0.02, 0, 0, 0⟩,
  ⟨[3, 0, 0, 0, 0], 0, 0, 0, 0⟩,
  ⟨[3, 0, 0, 1, 0], 0, 0, 0, 0⟩]

/-- predict.py 1675-1681 -/
def longPeriodTable : List Row := [
  ⟨[0, 0, 0, 1, 0], 0.47, 0.23, 0.16, 0.07⟩,
  ⟨[0, 2, 0, 0, 0], -0.20, -0.12, -0.11, -0.05⟩,
  ⟨[1, 0, -1, 0, 0], -0.11, -0.08, -0.09, -0.04⟩,
  ⟨[2, 0, 0, 0, 0], -0.13, -0.11, -0.15, -0.07⟩,
  ⟨[2, 0, 0, 1, 0], -0.05, -0.05, -0.06, -0.03⟩]

/-- `S*row[0] + H*row[1] + P*row[2] + ZNS*row[3] + PS*row[4]` -/
noncomputable def slow (d : Doodson) (n : List ℤ) : ℝ :=
  d.s * (n.getD 0 0 : ℤ) + d.h * (n.getD 1 0 : ℤ) + d.p * (n.getD 2 0 : ℤ) +
    d.np * (n.getD 3 0 : ℤ) + d.ps * (n.getD 4 0 : ℤ)

/-- One pass of the loop of `_frequency_dependence_diurnal` (predict.py 1640-1652). -/
noncomputable def diurnalTerm (X : Vec) (d : Doodson) (row : Row) : Vec :=
  let zla := Spatial.arctan2 (X 1) (X 0)
  let thetaf := d.tau + slow d row.n
  let dr := 2 * (row.r5 : ℝ) * sinphi X * cosphi X * sin (thetaf + zla) +
    2 * row.r6 * sinphi X * cosphi X * cos (thetaf + zla)
  let dn := (row.r7 : ℝ) * (cosphi X ^ 2 - sinphi X ^ 2) * sin (thetaf + zla) +
    row.r8 * (cosphi X ^ 2 - sinphi X ^ 2) * cos (thetaf + zla)
  let de := (row.r7 : ℝ) * sinphi X * cos (thetaf + zla) - row.r8 * sinphi X * sin (thetaf + zla)
  ![1e-3 * (dr * cosla X * cosphi X - de * sinla X - dn * cosla X * sinphi X),
    1e-3 * (dr * sinla X * cosphi X + de * cosla X - dn * sinla X * sinphi X),
    1e-3 * (dr * sinphi X + dn * cosphi X)]

/-- predict.py 1574-1654, `_frequency_dependence_diurnal`, from the Doodson arguments. -/
noncomputable def frequencyDiurnal (X : Vec) (d : Doodson) : Vec :=
  diurnalTable.foldl (fun D row => D + diurnalTerm X d row) 0

/-- One pass of the loop of `_frequency_dependence_long_period` (predict.py 1696-1705). -/
noncomputable def longPeriodTerm (X : Vec) (d : Doodson) (row : Row) : Vec :=
  let thetaf := slow d row.n
  let dr := (row.r5 : ℝ) * (3 * sinphi X ^ 2 - 1) * cos thetaf / 2 +
    row.r7 * (3 * sinphi X ^ 2 - 1) * sin thetaf / 2
  let dn := (row.r6 : ℝ) * (2 * cosphi X * sinphi X) * cos thetaf +
    row.r8 * (2 * cosphi X * sinphi X) * sin thetaf
  let de := (0 : ℝ)
  ![1e-3 * (dr * cosla X * cosphi X - de * sinla X - dn * cosla X * sinphi X),
    1e-3 * (dr * sinla X * cosphi X + de * cosla X - dn * sinla X * sinphi X),
    1e-3 * (dr * sinphi X + dn * cosphi X)]

/-- predict.py 1656-1707, `_frequency_dependence_long_period`, from the Doodson arguments. -/
noncomputable def frequencyLongPeriod (X : Vec) (d : Doodson) : Vec :=
  longPeriodTable.foldl (fun D row => D + longPeriodTerm X d row) 0

/-- predict.py 1709-1761, `_free_to_mean` -/
noncomputable def freeToMean (X : Vec) (h2 l2 : ℝ) : Vec :=
  let H0 := -0.31460
  let dR0 := sqrt (5 / (4 * π)) * h2 * H0
  let dN0 := sqrt (45 / (16 * π)) * l2 * H0
  let dr := dR0 * (3 / 2 * sinphi X ^ 2 - 1 / 2)
  let dn := 2 * dN0 * cosphi X * sinphi X
  ![dr * cosla X * cosphi X - dn * cosla X * sinphi X,
    dr * sinla X * cosphi X - dn * sinla X * sinphi X,
    dr * sinphi X + dn * cosphi X]

/-- The rows of zeros divided by zero: station at the centre or on the axis of the Earth, Sun or
Moon at the centre of the Earth. -/
def Degenerate (X S L : Vec) : Prop := (X 0 = 0 ∧ X 1 = 0) ∨ S = 0 ∨ L = 0

/-- One row of the result of `solid_earth_tide` (predict.py 1317-1371), after the validation of
`tide_system`; `t` in days since 1992-01-01. -/
noncomputable def tideRow (k : Keywords) (a : ℝ) (meanTide : Bool) (t : ℝ) (X S L : Vec) : Vec :=
  let d := doodsonArguments (t + 48622)
  let fS := F2 k.massRatioSolar a S
  let fL := F2 k.massRatioLunar a L
  let dxt := inPhase k a X S L + outOfPhaseDiurnal X S L fS fL + outOfPhaseSemidiurnal X S L fS fL +
    latitudeDependence X S L fS fL + frequencyDiurnal X d + frequencyLongPeriod X d
  if meanTide then dxt + freeToMean X (loveH2 k X) (shidaL2 k X) else dxt

open Classical in
/-- A row that is not a number is `none`. -/
noncomputable def tideOrNaN (k : Keywords) (a : ℝ) (meanTide : Bool) (t : ℝ) (X S L : Vec) :
    Option Vec :=
  if Degenerate X S L then none else some (tideRow k a meanTide t X S L)

/-- Broadcasting of an array of coordinates against `nt` times: an array of one row is repeated,
any other number of rows than `nt` is an error. -/
def rows {α : Type} (nt : ℕ) (l : List α) : Except PyErr (List α) :=
  if l.length = nt then .ok l
  else match l with
    | [x] => .ok (List.replicate nt x)
    | _ => .error .valueError

/-- predict.py 1271-1373, `solid_earth_tide`. -/
noncomputable def solidEarthTide (k : Keywords) (a : ℝ) (system : String) (ts : List ℝ)
    (XYZ SXYZ LXYZ : List Vec) : Except PyErr (List (Option Vec)) :=
  if system.toLower ∉ ["tide_free", "mean_tide"] then .error .assertionError
  else do
    let X ← rows ts.length XYZ
    let S ← rows ts.length SXYZ
    let L ← rows ts.length LXYZ
    .ok ((ts.zip (X.zip (S.zip L))).map fun (t, x, s, l) =>
      tideOrNaN k a (system.toLower == "mean_tide") t x s l)

/-- The row of the rotation matrix that gives the radial component (compute.py 1441-1458; rows 0
and 1 are computed there and not used afterwards).  On the axis the quotient `Z/0` is infinite and
its arctangent a right angle. -/
noncomputable def radialRow (X : Vec) : Vec :=
  let rho := sqrt (X 0 ^ 2 + X 1 ^ 2)
  let lat := if rho = 0 then (if 0 < X 2 then π / 2 else -(π / 2)) else arctan (X 2 / rho)
  let theta := π / 2 - lat
  let phi := Spatial.arctan2 (X 1) (X 0)
  ![cos phi * sin theta, sin phi * sin theta, cos theta]

/-- `np.einsum('ti...,tji...->tj...', dxi, R)[:,2]` for one row. -/
noncomputable def radial (X : Vec) (dxi : Option Vec) : Option ℝ :=
  dxi.map fun d => d 0 * radialRow X 0 + d 1 * radialRow X 1 + d 2 * radialRow X 2

/-- Times given to `SET_displacements`: tide days, TT - UT1, MJD. -/
structure Time where
  tide : ℝ
  ttUt1 : ℝ
  mjd : ℝ

/-- Results: a grid time by time, each time flattened; a track; stations by times. -/
inductive Out where
  | grid (times : List (List (Option ℝ))) | drift (l : List (Option ℝ))
  | series (stations : List (List (Option ℝ)))

/-- compute.py 1427-1428: Cartesian coordinates on the ellipsoid. -/
noncomputable def place (dm : CRS.Datum) (q : ℝ × ℝ) : Vec :=
  let c := Spatial.toCartesian q.1 q.2 0 dm.a dm.flat
  ![c.x, c.y, c.z]

/-- `np.reshape(SE[:,2], (ny,nx))` -/
def reshape (n : ℕ) (l : List (Option ℝ)) : Except PyErr (List (Option ℝ)) :=
  if l.length = n then .ok l else .error .valueError

/-- compute.py 1329-1510, `SET_displacements` after the projection of the coordinates (`pts` are
longitude and latitude, in the order of `flatten`) and the conversion of times.  `sun` and `moon`
are the ephemerides.  `ny` and `nx` are the shape of `x`. -/
noncomputable def setDisplacements (type system ephemerides : String) (dm : CRS.Datum)
    (sun moon : ℝ → Vec) (ny nx : ℕ) (pts : List (ℝ × ℝ)) (times : List Time) :
    Except PyErr Out :=
  if system.toLower ∉ ["mean_tide", "tide_free"] then .error .assertionError
  else if ephemerides.toLower ∉ ["approximate", "jpl"] then .error .assertionError
  else if type.toLower ∉ ["grid", "drift", "time series"] then .error .assertionError
  else
    let XYZ := pts.map (place dm)
    let tideTime := times.map fun t => t.tide + t.ttUt1
    let SXYZ := times.map fun t => sun t.mjd
    let LXYZ := times.map fun t => moon t.mjd
    if type = "grid" then do
      let out ← pyMap (fun t : Time => do
        let dxi ← solidEarthTide {} dm.a system
          ((List.replicate (ny * nx) 1).map fun o => t.tide + t.ttUt1 + o) XYZ
          (List.replicate (ny * nx) (sun t.mjd)) (List.replicate (ny * nx) (moon t.mjd))
        reshape (ny * nx) (List.zipWith radial XYZ dxi)) times
      .ok (.grid out)
    else if type = "drift" then do
      let dxi ← solidEarthTide {} dm.a system tideTime XYZ SXYZ LXYZ
      let X ← rows times.length XYZ
      .ok (.drift (List.zipWith radial X dxi))
    else if type = "time series" then do
      let out ← pyMap (fun X => do
        let dxi ← solidEarthTide {} dm.a system tideTime (List.replicate times.length X) SXYZ LXYZ
        Except.ok (dxi.map (radial X))) XYZ
      .ok (.series out)
    else .error .unbound

end Verif.SolidEarth
