import Mathlib.Analysis.SpecialFunctions.Complex.Arg
/-!
The tide predicted from harmonic constants: the sum over constituents of the real part of nodal
factor times complex constant times a unit vector with the phase of the constituent.
-/
namespace Verif.Spec

/-- A constituent at a given time: nodal factor, phase (radians) and complex constant. -/
structure Wave where
  f : ℝ
  theta : ℝ
  h : ℂ

/-- Its contribution. -/
noncomputable def Wave.height (w : Wave) : ℝ :=
  ((w.f : ℂ) * (w.h * Complex.exp ((w.theta : ℂ) * Complex.I))).re

/-- The predicted tide. -/
noncomputable def tide (ws : List Wave) : ℝ := (ws.map Wave.height).sum

end Verif.Spec
