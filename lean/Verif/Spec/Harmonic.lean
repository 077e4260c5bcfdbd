import Mathlib.Analysis.SpecialFunctions.Trigonometric.Basic
/-!
The height of a tide given by amplitudes and phase lags.
-/
namespace Verif.Spec

/-- A constituent at a time and place: nodal factor, phase (radians), amplitude and phase lag
(degrees). -/
structure Partial where
  factor : ℝ
  phase : ℝ
  amplitude : ℝ
  lag : ℝ

/-- The sum of `f A cos(phase - lag)`. -/
noncomputable def harmonic (l : List Partial) : ℝ :=
  (l.map fun w => w.factor * w.amplitude * Real.cos (w.phase - w.lag * Real.pi / 180)).sum

end Verif.Spec
