import Mathlib.Analysis.Calculus.Deriv.Basic
import Mathlib.Analysis.SpecialFunctions.Trigonometric.Basic
import Mathlib.LinearAlgebra.Matrix.DotProduct
import Mathlib.LinearAlgebra.Matrix.Notation

/-!
# Specification: pole tides

When the axis of rotation of the Earth moves, the centrifugal potential changes, and the elastic
Earth answers the change like it answers a tidal potential.  All is said in Cartesian coordinates,
so nothing is special about the poles.
-/

namespace Verif.Spec

open Real

/-- Euclidean length -/
noncomputable def length3 (X : Fin 3 → ℝ) : ℝ := sqrt (dotProduct X X)

/-- The centrifugal potential at `X` for the vector of rotation `w`. -/
noncomputable def centrifugal (w X : Fin 3 → ℝ) : ℝ :=
  1 / 2 * (dotProduct w w * dotProduct X X - dotProduct w X ^ 2)

/-- The first-order change of the centrifugal potential when the axis moves from the direction
`(0, 0, 1)` to `(m1, m2, 1)`, for the rate of rotation `Omega`. -/
noncomputable def poleChange (Omega m1 m2 : ℝ) (X : Fin 3 → ℝ) : ℝ :=
  deriv (fun s : ℝ => centrifugal (Omega • ![s * m1, s * m2, 1]) X) 0

/-- Partial derivatives -/
noncomputable def grad (V : (Fin 3 → ℝ) → ℝ) (X : Fin 3 → ℝ) : Fin 3 → ℝ :=
  fun i => deriv (fun s : ℝ => V (X + s • Pi.single i 1)) 0

/-- The displacement of the point `X` of the Earth by the potential `V`, for the gravity `g`: `h V/g`
away from the centre, and `l/g` times the distance from the centre times the part of the gradient
of `V` at right angles to the direction of the centre. -/
noncomputable def elastic (h l g : ℝ) (V : (Fin 3 → ℝ) → ℝ) (X : Fin 3 → ℝ) : Fin 3 → ℝ :=
  let e := (length3 X)⁻¹ • X
  (h * V X / g) • e + (l * length3 X / g) • (grad V X - dotProduct (grad V X) e • e)

/-- One second of arc. -/
noncomputable def arcsec : ℝ := π / 180 / 3600

end Verif.Spec
