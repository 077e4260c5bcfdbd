import Mathlib.Analysis.SpecialFunctions.Complex.Arg
import Mathlib.Analysis.Complex.Trigonometric

/-!
# Nodal modulation

A lunar constituent with side lines separated from it by multiples of the motion of the node is
one wave times a slowly varying complex number `1 + Σ aₖ exp(i k N)`: its modulus is the nodal
factor and its argument the nodal angle.
-/

namespace Verif.Spec

/-- `1 + Σ aₖ exp(i k N)`, with `N` in degrees. -/
noncomputable def modulation (l : List (ℝ × ℤ)) (N : ℝ) : ℂ :=
  1 + (l.map fun q => (q.1 : ℂ) * Complex.exp (q.2 * (N * Real.pi / 180) * Complex.I)).sum

/-- The side lines of the minor constituents (relative amplitude and multiple of the node), by
number of the constituent; `got`: eps2 and eta2 are modulated as well. -/
noncomputable def sideLines (got : Bool) : ℕ → List (ℝ × ℤ)
  | 0 | 1 | 2 => [(0.189, 1), (-0.0058, 2)]
  | 3 => [(0.185, 1)]
  | 4 => [(0.201, -1)]
  | 5 => [(0.221, -1)]
  | 9 => [(0.198, -1)]
  | 10 => [(0.640, -1), (0.134, -2)]
  | 11 | 12 | 13 | 15 => [(-0.0373, 1)]
  | 16 => [(0.441, -1)]
  | 18 => if got then [(-0.0373, 1)] else []
  | 19 => if got then [(0.436, -1)] else []
  | _ => []

end Verif.Spec
