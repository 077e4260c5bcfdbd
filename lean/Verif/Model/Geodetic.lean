import Verif.Model.Spatial

/-!
# Cartesian to geodetic coordinates

Model of `to_geodetic` and its three methods (/repo/pyTMD/spatial.py 1722-1981).  Arrays are lists
of points; the loops of the iterative methods stop for all points together, so they are modelled
on whole lists.  Reals replace floating point numbers: a quotient with denominator zero, which
numpy turns into an infinity or NaN, is zero here.  The theorems therefore keep off the axis
(`x = y = 0`) for the two iterative methods, and off negative radicands for the third.
-/

namespace Verif.Spatial

open Verif Real

/-- Radius of the parallel (spatial.py 1831, 1892, 1953). -/
noncomputable def axisDistance (q : P3) : ℝ := sqrt (q.x ^ 2 + q.y ^ 2)

/-- Longitude (spatial.py 1826, 1890, 1951); unlike `to_sphere` it is left in (-180, 180]. -/
noncomputable def geodeticLon (q : P3) : ℝ := arctan2 q.y q.x / (π / 180)

/-- One pass of the loop of `_moritz_iterative` for one point: latitude (radians) and height from
the previous latitude (spatial.py 1837-1844). -/
noncomputable def moritzStep (a f p z phi : ℝ) : ℝ × ℝ :=
  let N := a / sqrt (1 - ecc1 a f ^ 2 * sin phi ^ 2)
  let h := p / cos phi - N
  (arctan (z / (p * (1 - ecc1 a f ^ 2 * N / (N + h)))), h)

/-- The state of the loop for one point: its coordinates, latitude, height and whether the last
change of the height was above the tolerance (initially true, since `h0` is infinite). -/
structure Moritz where
  q : P3
  phi : ℝ
  h : ℝ
  moving : Bool

open Classical in
/-- One pass for all points. -/
noncomputable def moritzPass (a f eps : ℝ) (s : Moritz) : Moritz :=
  let r := moritzStep a f (axisDistance s.q) s.q.z s.phi
  { q := s.q, phi := r.1, h := r.2, moving := decide (eps < |r.2 - s.h|) }

/-- spatial.py 1835-1846, with the number of passes left. -/
noncomputable def moritzLoop (a f eps : ℝ) : ℕ → List Moritz → List Moritz
  | 0, l => l
  | n + 1, l => if l.any (·.moving) then moritzLoop a f eps n (l.map (moritzPass a f eps)) else l

/-- spatial.py 1826-1833: initial values. -/
noncomputable def moritzInit (a f : ℝ) (q : P3) : Moritz :=
  { q := q, phi := arctan (q.z / (axisDistance q * (1 - ecc1 a f ^ 2))), h := 0, moving := true }

/-- spatial.py 1790-1848, `_moritz_iterative`; `iterations` is not negative. -/
noncomputable def moritz (l : List P3) (a f eps : ℝ) (iterations : ℕ) : List (ℝ × ℝ × ℝ) :=
  (moritzLoop a f eps (iterations + 1) (l.map (moritzInit a f))).map fun s =>
    (geodeticLon s.q, s.phi / (π / 180), s.h)

/-- Squares of the first and second eccentricity (spatial.py 1881-1886). -/
noncomputable def eSq (a f : ℝ) : ℝ := sqrt ((2 * f - f ^ 2) * a ^ 2) ^ 2 / a ^ 2

noncomputable def ePrimeSq (a f : ℝ) : ℝ := sqrt ((2 * f - f ^ 2) * a ^ 2) ^ 2 / ((1 - f) * a) ^ 2

/-- Latitude from the reduced latitude (spatial.py 1896-1897, 1907-1908). -/
noncomputable def bowringLatitude (a f p z u : ℝ) : ℝ :=
  arctan ((z + ePrimeSq a f * ((1 - f) * a) * sin u ^ 3) / (p - eSq a f * a * cos u ^ 3))

/-- One pass of the loop of `_bowring_iterative` (spatial.py 1904-1908). -/
noncomputable def bowringStep (a f p z phi : ℝ) : ℝ :=
  bowringLatitude a f p z (arctan ((1 - f) * a * tan phi / a))

structure Bowring where
  q : P3
  phi : ℝ
  moving : Bool

open Classical in
noncomputable def bowringPass (a f eps : ℝ) (s : Bowring) : Bowring :=
  let phi := bowringStep a f (axisDistance s.q) s.q.z s.phi
  { q := s.q, phi := phi, moving := decide (eps < |phi - s.phi|) }

/-- spatial.py 1900-1910, with the number of passes left. -/
noncomputable def bowringLoop (a f eps : ℝ) : ℕ → List Bowring → List Bowring
  | 0, l => l
  | n + 1, l => if l.any (·.moving) then bowringLoop a f eps n (l.map (bowringPass a f eps)) else l

/-- spatial.py 1893-1898: initial values. -/
noncomputable def bowringInit (a f : ℝ) (q : P3) : Bowring :=
  { q := q
    phi := bowringLatitude a f (axisDistance q) q.z
      (arctan (a * q.z / ((1 - f) * a * axisDistance q)))
    moving := true }

/-- spatial.py 1911-1914: the height for the final latitude. -/
noncomputable def bowringHeight (a f p z phi : ℝ) : ℝ :=
  let N := a / sqrt (1 - eSq a f * sin phi ^ 2)
  p * cos phi + z * sin phi - a ^ 2 / N

/-- spatial.py 1850-1916, `_bowring_iterative`; `iterations` is not negative. -/
noncomputable def bowring (l : List P3) (a f eps : ℝ) (iterations : ℕ) : List (ℝ × ℝ × ℝ) :=
  (bowringLoop a f eps (iterations + 1) (l.map (bowringInit a f))).map fun s =>
    (geodeticLon s.q, s.phi / (π / 180), bowringHeight a f (axisDistance s.q) s.q.z s.phi)

/-- The auxiliary quantities of `_zhu_closed_form` (spatial.py 1968-1972). -/
noncomputable def zhuI (l m n : ℝ) : ℝ := -(2 * l ^ 2 + m + n) / 2
noncomputable def zhuK (l m n : ℝ) : ℝ := (l ^ 2 - m - n) * l ^ 2
noncomputable def zhuQ (l m n : ℝ) : ℝ := (1 / 216) * (m + n - 4 * l ^ 2) ^ 3 + m * n * l ^ 2
noncomputable def zhuD (l m n : ℝ) : ℝ := sqrt ((2 * zhuQ l m n - m * n * l ^ 2) * m * n * l ^ 2)
noncomputable def zhuB (l m n : ℝ) : ℝ :=
  zhuI l m n / 3 - (zhuQ l m n + zhuD l m n) ^ ((1 : ℝ) / 3) -
    (zhuQ l m n - zhuD l m n) ^ ((1 : ℝ) / 3)

/-- spatial.py 1973-1974 -/
noncomputable def zhuT (l m n : ℝ) : ℝ :=
  sqrt (sqrt (zhuB l m n ^ 2 - zhuK l m n) - (zhuB l m n + zhuI l m n) / 2) -
    Real.sign (m - n) * sqrt ((zhuB l m n - zhuI l m n) / 2)

/-- spatial.py 1965-1979: one point off the axis; latitude in degrees and height. -/
noncomputable def zhuPoint (a f w z : ℝ) : ℝ × ℝ :=
  let e12 := eSq a f
  let l := e12 / 2
  let m := (w / a) ^ 2
  let n := ((1 - e12) * z / ((1 - f) * a)) ^ 2
  let t := zhuT l m n
  let wi := w / (t + l)
  let zi := (1 - e12) * z / (t - l)
  (arctan2 zi ((1 - e12) * wi) / (π / 180),
    Real.sign (t - 1 + l) * sqrt ((w - wi) ^ 2 + (z - zi) ^ 2))

open Classical in
/-- spatial.py 1918-1981, `_zhu_closed_form`: when any point lies on the axis only the points on
the axis are computed (1957-1961), and the others keep the zeros they were allocated with. -/
noncomputable def zhu (l : List P3) (a f : ℝ) : List (ℝ × ℝ × ℝ) :=
  if ∃ q ∈ l, axisDistance q = 0 then
    l.map fun q =>
      if axisDistance q = 0 then
        (geodeticLon q, 90 * Real.sign q.z, Real.sign q.z * q.z - (1 - f) * a)
      else (geodeticLon q, 0, 0)
  else l.map fun q =>
    let r := zhuPoint a f (axisDistance q) q.z
    (geodeticLon q, r.1, r.2)

/-- spatial.py 1722-1788, `to_geodetic` on a list of points. -/
noncomputable def toGeodetic (l : List P3) (a f : ℝ) (method : String) (eps : ℝ)
    (iterations : ℕ) : Except PyErr (List (ℝ × ℝ × ℝ)) :=
  if method.toLower = "moritz" then .ok (moritz l a f eps iterations)
  else if method.toLower = "bowring" then .ok (bowring l a f eps iterations)
  else if method.toLower = "zhu" then .ok (zhu l a f)
  else .error .valueError

end Verif.Spatial
