import Mathlib.Analysis.SpecialFunctions.Trigonometric.Deriv
import Mathlib.LinearAlgebra.Matrix.DotProduct
import Verif.Spec.Legendre

/-!
# Specification: displacements of the ground as responses to potentials

Positions are given by distance, geocentric latitude and longitude (radians).  An elastic Earth
answers a potential `V` (divided by gravity, so in metres) with a radial displacement `h V` and a
horizontal displacement `l` times the surface gradient of `V`.
-/

namespace Verif.Spec

open Real

/-- Unit vector away from the centre. -/
noncomputable def up (phi lam : ℝ) : Fin 3 → ℝ := ![cos phi * cos lam, cos phi * sin lam, sin phi]

/-- Unit vector along the meridian towards the north. -/
noncomputable def north (phi lam : ℝ) : Fin 3 → ℝ :=
  ![-(sin phi * cos lam), -(sin phi * sin lam), cos phi]

/-- Unit vector along the parallel towards the east. -/
noncomputable def east (lam : ℝ) : Fin 3 → ℝ := ![-sin lam, cos lam, 0]

/-- The point at distance `r` from the centre. -/
noncomputable def point (r phi lam : ℝ) : Fin 3 → ℝ := r • up phi lam

/-- The vector with the given components. -/
noncomputable def local3 (u n e phi lam : ℝ) : Fin 3 → ℝ :=
  u • up phi lam + n • north phi lam + e • east lam

/-- Displacement by the potential `V` of latitude and longitude, with Love number `h` and Shida
number `l`. -/
noncomputable def response (h l : ℝ) (V : ℝ → ℝ → ℝ) (phi lam : ℝ) : Fin 3 → ℝ :=
  local3 (h * V phi lam) (l * deriv (fun p => V p lam) phi)
    (l * (deriv (fun q => V phi q) lam / cos phi)) phi lam

/-- The potential of degree `n` of a body seen at latitude `Phi` and longitude `Lam`, for the
amplitude `F`: `F P_n(cos ψ)`, where `ψ` is the angle between station and body. -/
noncomputable def tidal (n : ℕ) (F Phi Lam phi lam : ℝ) : ℝ :=
  F * (legendreP n).eval (dotProduct (up phi lam) (up Phi Lam))

/-- The diurnal part of the potential of degree 2. -/
noncomputable def diurnal (F Phi Lam phi lam : ℝ) : ℝ :=
  3 / 4 * F * sin (2 * Phi) * sin (2 * phi) * cos (lam - Lam)

/-- The semi-diurnal part of the potential of degree 2. -/
noncomputable def semidiurnal (F Phi Lam phi lam : ℝ) : ℝ :=
  3 / 4 * F * cos Phi ^ 2 * cos phi ^ 2 * cos (2 * (lam - Lam))

/-- The part of the potential of degree 2 that does not depend on longitude. -/
noncomputable def zonalPart (F Phi phi : ℝ) : ℝ :=
  F * (3 / 2 * sin Phi ^ 2 - 1 / 2) * (3 / 2 * sin phi ^ 2 - 1 / 2)

/-- Rotation about the axis of the Earth, by the angle `x` towards the east. -/
noncomputable def turn (x : ℝ) (v : Fin 3 → ℝ) : Fin 3 → ℝ :=
  ![cos x * v 0 - sin x * v 1, sin x * v 0 + cos x * v 1, v 2]

/-- IERS Conventions (2010), equation 7.8: contribution of `l^(1)` in the diurnal band. -/
noncomputable def latitudeDiurnal (l1 F Phi Lam phi lam : ℝ) : Fin 3 → ℝ :=
  local3 0 (-l1 * sin phi * F * assocP 2 1 (sin Phi) * (sin phi * cos (lam - Lam)))
    (l1 * sin phi * F * assocP 2 1 (sin Phi) * (cos (2 * phi) * sin (lam - Lam))) phi lam

/-- IERS Conventions (2010), equation 7.9: contribution of `l^(1)` in the semi-diurnal band. -/
noncomputable def latitudeSemidiurnal (l1 F Phi Lam phi lam : ℝ) : Fin 3 → ℝ :=
  local3 0 (-(1 / 2) * l1 * sin phi * cos phi * F * assocP 2 2 (sin Phi) * cos (2 * (lam - Lam)))
    (-(1 / 2) * l1 * sin phi * cos phi * F * assocP 2 2 (sin Phi) *
      (sin phi * sin (2 * (lam - Lam)))) phi lam

/-- The displacement of the station at latitude `phi`, longitude `lam` by a body of mass `ratio`
(in masses of the Earth) at distance `R`, latitude `Phi` and longitude `Lam`, for an Earth of
equatorial radius `a`: degrees 2 and 3 with the Love and Shida numbers given; responses of the
anelastic Earth a quarter of a period later, diurnal and semi-diurnal; and the dependence of the
Shida number on latitude. -/
noncomputable def byBody (h2 l2 h3 l3 ratio a R Phi Lam phi lam : ℝ) : Fin 3 → ℝ :=
  let F2 := ratio * a ^ 4 / R ^ 3
  let F3 := ratio * a ^ 5 / R ^ 4
  response h2 l2 (tidal 2 F2 Phi Lam) phi lam + response h3 l3 (tidal 3 F3 Phi Lam) phi lam +
    response (-0.0025) (-0.0007) (diurnal F2 Phi (Lam - π / 2)) phi lam +
    response (-0.0022) (-0.0007) (semidiurnal F2 Phi (Lam - π / 4)) phi lam +
    latitudeDiurnal 0.0012 F2 Phi Lam phi lam + latitudeSemidiurnal 0.0024 F2 Phi Lam phi lam

end Verif.Spec
