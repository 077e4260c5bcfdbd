import Mathlib.Analysis.SpecialFunctions.Trigonometric.Basic
/-!
Low-precision geocentric coordinates of the sun and moon, as published by Montenbruck and Gill, Satellite
Orbits (2000), section 3.3.2, equations 3.43 to 3.50.  Mean arguments are in radians, coefficients in
arcseconds, millions of kilometres (sun) and kilometres (moon).  A term is an amplitude with the
multiples of the mean anomalies of moon and sun, the argument of latitude and the elongation.
-/
namespace Verif.Spec
open Real

/-- An amplitude and its multiples of `l`, `l'`, `F`, `D`. -/
structure Term where
  amplitude : ℤ
  l : ℤ
  lp : ℤ
  F : ℤ
  D : ℤ

/-- Mean anomalies of moon and sun, argument of latitude, elongation. -/
structure Angles where
  l : ℝ
  lp : ℝ
  F : ℝ
  D : ℝ

/-- The argument of a term. -/
def Term.arg (t : Term) (a : Angles) : ℝ := t.l * a.l + t.lp * a.lp + t.F * a.F + t.D * a.D

/-- Sine and cosine series. -/
noncomputable def sines (ts : List Term) (a : Angles) : ℝ := (ts.map fun t => t.amplitude * sin (t.arg a)).sum
noncomputable def cosines (ts : List Term) (a : Angles) : ℝ := (ts.map fun t => t.amplitude * cos (t.arg a)).sum

/-- Distance of the moon (kilometres). -/
def moonDistance : List Term :=
  [⟨385000, 0, 0, 0, 0⟩, ⟨-20905, 1, 0, 0, 0⟩, ⟨-3699, -1, 0, 0, 2⟩, ⟨-2956, 0, 0, 0, 2⟩,
    ⟨-570, 2, 0, 0, 0⟩, ⟨246, 2, 0, 0, -2⟩, ⟨-205, 0, 1, 0, -2⟩, ⟨-171, 1, 0, 0, 2⟩,
    ⟨-152, 1, 1, 0, -2⟩]

/-- Longitude of the moon minus its mean longitude (arcseconds). -/
def moonLongitude : List Term :=
  [⟨22640, 1, 0, 0, 0⟩, ⟨769, 2, 0, 0, 0⟩, ⟨-4586, 1, 0, 0, -2⟩, ⟨2370, 0, 0, 0, 2⟩, ⟨-668, 0, 1, 0, 0⟩,
    ⟨-412, 0, 0, 2, 0⟩, ⟨-212, 2, 0, 0, -2⟩, ⟨-206, 1, 1, 0, -2⟩, ⟨192, 1, 0, 0, 2⟩,
    ⟨-165, 0, 1, 0, -2⟩, ⟨148, 1, -1, 0, 0⟩, ⟨-125, 0, 0, 0, 1⟩, ⟨-110, 1, 1, 0, 0⟩,
    ⟨-55, 0, 0, 2, -2⟩]

/-- The latitude of the moon without its largest term (arcseconds). -/
def moonLatitude : List Term :=
  [⟨-526, 0, 0, 1, -2⟩, ⟨44, 1, 0, 1, -2⟩, ⟨-31, -1, 0, 1, -2⟩, ⟨-25, -2, 0, 1, 0⟩, ⟨-23, 0, 1, 1, -2⟩,
    ⟨21, -1, 0, 1, 0⟩, ⟨11, 0, -1, 1, -2⟩]

/-- An arcsecond. -/
noncomputable def second : ℝ := π / 648000

/-- Longitude, latitude (radians) and distance (metres). -/
structure Ecliptic where
  longitude : ℝ
  latitude : ℝ
  distance : ℝ

/-- The moon, from its mean longitude and the other mean arguments. -/
noncomputable def moon (L0 : ℝ) (a : Angles) : Ecliptic :=
  let d := sines moonLongitude a * second
  { longitude := L0 + d
    latitude := (18520 * sin (a.F + d + (412 * sin (2 * a.F) + 541 * sin a.lp) * second)
      + sines moonLatitude a) * second
    distance := 1000 * cosines moonDistance a }

/-- The sun, from the longitude of its perigee and its mean anomaly. -/
noncomputable def sun (perigee M : ℝ) : Ecliptic where
  longitude := perigee + M + (6892 * sin M + 72 * sin (2 * M)) * second
  latitude := 0
  distance := 10 ^ 9 * (149.619 - 2.499 * cos M - 0.021 * cos (2 * M))

/-- Coordinates in the equatorial frame of an ecliptic position: the ecliptic is inclined by the angle
`e` to the equator, and crosses it at longitude zero, upwards. -/
noncomputable def equatorial (e : ℝ) (p : Ecliptic) : ℝ × ℝ × ℝ :=
  (p.distance * (cos p.latitude * cos p.longitude),
    p.distance * (cos p.latitude * sin p.longitude * cos e - sin p.latitude * sin e),
    p.distance * (cos p.latitude * sin p.longitude * sin e + sin p.latitude * cos e))

/-- Coordinates in a frame that has turned eastward by the angle `g`. -/
noncomputable def turned (g : ℝ) (p : ℝ × ℝ × ℝ) : ℝ × ℝ × ℝ :=
  (p.1 * cos g + p.2.1 * sin g, p.2.1 * cos g - p.1 * sin g, p.2.2)

end Verif.Spec
