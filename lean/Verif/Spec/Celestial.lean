import Mathlib.Analysis.SpecialFunctions.Trigonometric.Basic
import Mathlib.Data.Matrix.Mul
/-!
What the IERS conventions (2010, chapter 5) say of the rotation from celestial to terrestrial coordinates,
written without the code.
-/
namespace Verif.Spec
open Real

/-- One row of a table of nutation: amplitudes of sine and cosine, multiples of the arguments. -/
structure IersWave where
  sine : ℝ
  cosine : ℝ
  multiples : ℕ → ℝ

/-- The sum of a table for given arguments (equation 5.35). -/
noncomputable def nutation (table : List IersWave) (args : List ℝ) : ℝ :=
  (table.map fun w =>
    let a := ∑ i : Fin args.length, w.multiples i * args[i]
    w.sine * sin a + w.cosine * cos a).sum

/-- Apparent sidereal time, in turns, from the mean one and the equation of the equinoxes in radians. -/
noncomputable def apparent (mean equinoxes : ℝ) : ℝ := Int.fract (mean + equinoxes / (2 * π))

/-- Celestial to terrestrial: bias, precession, nutation, rotation of the Earth, motion of the pole. -/
def terrestrial {M : Type*} [Mul M] (wobble spin nutation precession bias : M) : M :=
  wobble * spin * nutation * precession * bias

end Verif.Spec
