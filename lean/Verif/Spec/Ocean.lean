import Verif.Spec.Potential
/-!
# An ocean that follows the tide-generating potential

Small specification for C105: the complex form of the waves of the potential, and the tide of an ocean whose
response is the same for all lines.
-/
namespace Verif.Spec.Potential

/-- The complex wave whose real part is the wave of a line: turned back by a right angle for sines. -/
noncomputable def spin (degree : ℕ) (tau : ℤ) (x : ℝ) : ℂ :=
  if (degree + tau) % 2 = 0 then Complex.exp (x * Complex.I) else -Complex.I * Complex.exp (x * Complex.I)

/-- The complex sum of the lines near `m`, with the sign of tide models. -/
noncomputable def spun (degree : ℕ) (lines : List Line) (m : Line) (x : Sky) : ℂ :=
  sign degree m.tau *
    ((lines.filter (near m)).map fun l => (l.amplitude : ℂ) * spin degree l.tau (phase l x)).sum

/-- The tide of the lines near `m` in an ocean with response `Z`. -/
noncomputable def response (Z : ℂ) (degree : ℕ) (lines : List Line) (m : Line) (x : Sky) : ℝ :=
  (Z * spun degree lines m x).re

/-- The part of the potential that does not depend on the longitude of the place, without its mean. -/
noncomputable def zonalPotential (lines : List Line) (x : Sky) : ℝ :=
  ((lines.filter fun l => l.tau = 0 ∧ ¬ (l.s = 0 ∧ l.h = 0 ∧ l.p = 0 ∧ l.n = 0 ∧ l.pp = 0)).map
    fun l => (l.amplitude : ℝ) * Real.cos (phase l x)).sum

/-- The factor from normalised amplitudes (m) to Doodson's geodetic coefficients, by degree and order. -/
def geodetic : ℕ → ℤ → ℚ
  | 2, 0 => -2.3467
  | 2, 1 => -1.4373
  | 2, 2 => 1.4371
  | 3, 0 => -1.2430
  | 3, 1 => 1.6543
  | 3, 2 => 1.4624
  | 3, 3 => -1.5528
  | _, _ => 0

/-- A digit of a Doodson number: ten and eleven are X and E. -/
def digit (x : ℤ) : Char := ['0', '1', '2', '3', '4', '5', '6', '7', '8', '9', 'X', 'E'].getD x.toNat '?'

/-- The Doodson number: the multiple of tau, then those of s, h, p, N' and p' plus five. -/
def doodsonNumber (tau s h p n pp : ℤ) : List Char :=
  [digit tau, digit (s + 5), digit (h + 5), '.', digit (p + 5), digit (n + 5), digit (pp + 5)]

end Verif.Spec.Potential
