import Mathlib.Algebra.Polynomial.Derivative
import Mathlib.Analysis.SpecialFunctions.Pow.Real
import Mathlib.Data.Nat.Factorial.Basic
/-!
Specification for C09: Legendre polynomials by Rodrigues' formula and the associated
functions obtained by differentiating them.
-/
namespace Verif.Spec
open Polynomial

/-- Rodrigues: `P_l = (1 / (2^l l!)) d^l/dx^l (x^2 - 1)^l`. -/
noncomputable def legendreP (l : ℕ) : ℝ[X] :=
  C (1 / (2 ^ l * (l.factorial : ℝ))) * derivative^[l] ((X ^ 2 - 1) ^ l)

/-- Associated Legendre function without the Condon-Shortley phase,
`(1 - x^2)^(m/2) d^m P_l / dx^m`. -/
noncomputable def assocP (l m : ℕ) (x : ℝ) : ℝ :=
  Real.sqrt (1 - x ^ 2) ^ m * (derivative^[m] (legendreP l)).eval x

/-- The geodetic ("fully normalised") factor `sqrt((2 - δ_{m0}) (2l+1) (l-m)!/(l+m)!)`. -/
noncomputable def fullNorm (l m : ℕ) : ℝ :=
  Real.sqrt ((if m = 0 then 1 else 2) * (2 * l + 1) * ((l - m).factorial : ℝ)
    / ((l + m).factorial : ℝ))

end Verif.Spec
