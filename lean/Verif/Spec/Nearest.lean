import Verif.Spec.Chart
import Mathlib.Analysis.SpecialFunctions.Trigonometric.Basic
import Mathlib.Analysis.SpecialFunctions.Sqrt
/-!
The point of a chart with a value that is closest to a place.
-/
namespace Verif.Spec

/-- The square of the eccentricity of the ellipsoid WGS84, whose flattening is 1/298.257223563. -/
noncomputable def eccentric : ℝ := (2 - 1 / 298.257223563) / 298.257223563

/-- The radius of curvature of the ellipsoid WGS84 across the meridian at a latitude, in kilometers. -/
noncomputable def curvature (lat : ℝ) : ℝ :=
  6378.137 / Real.sqrt (1 - eccentric * Real.sin (lat * Real.pi / 180) ^ 2)

/-- The Cartesian coordinates in kilometers of a place on the ellipsoid WGS84, given by its longitude and
latitude in degrees. -/
noncomputable def onEllipsoid (p : ℝ × ℝ) : ℝ × ℝ × ℝ :=
  (curvature p.2 * Real.cos (p.2 * Real.pi / 180) * Real.cos (p.1 * Real.pi / 180),
    curvature p.2 * Real.cos (p.2 * Real.pi / 180) * Real.sin (p.1 * Real.pi / 180),
    curvature p.2 * (1 - eccentric) * Real.sin (p.2 * Real.pi / 180))

/-- The length in kilometers of the straight line between two places. -/
noncomputable def chord (p q : ℝ × ℝ) : ℝ :=
  Real.sqrt (((onEllipsoid p).1 - (onEllipsoid q).1) ^ 2 +
    ((onEllipsoid p).2.1 - (onEllipsoid q).2.1) ^ 2 + ((onEllipsoid p).2.2 - (onEllipsoid q).2.2) ^ 2)

/-- The distance between two places of a projected map, in the units of the map. -/
noncomputable def flat (p q : ℝ × ℝ) : ℝ := Real.sqrt ((p.1 - q.1) ^ 2 + (p.2 - q.2) ^ 2)

/-- A distance is below the cutoff; `none` is no limit. -/
def Below (cutoff : Option ℝ) (d : ℝ) : Prop := ∀ c ∈ cutoff, d < c

variable {K : Type}

/-- `o` is the value at the point of the chart that is closest to the place, among all points that have a
value.  There is none if no such point is closer than the cutoff. -/
def Nearest (C : Chart K) (d : K × K → K × K → ℝ) (cutoff : Option ℝ) (q : K × K) (o : Option (K × K)) : Prop :=
  (∃ k j z, C.cols k ∧ C.rows j ∧ C.value k j = some z ∧ o = some z ∧ Below cutoff (d (C.lon k, C.lat j) q) ∧
    ∀ k' j', C.cols k' → C.rows j' → C.value k' j' ≠ none →
      d (C.lon k, C.lat j) q ≤ d (C.lon k', C.lat j') q) ∨
  (o = none ∧ ∀ k j, C.cols k → C.rows j → C.value k j ≠ none → ¬ Below cutoff (d (C.lon k, C.lat j) q))

end Verif.Spec
