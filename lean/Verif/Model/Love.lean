import Verif.Model.Astro

/-!
# Love numbers of the body tide

Model of `_love_numbers` (/repo/pyTMD/arguments.py 1414-1492).  Decimal literals are exact and the
division in the resonance formula is that of the reals (by zero it gives zero, in floating point an
infinity).
-/

namespace Verif.Love

open Verif

/-- arguments.py 1446-1465: frequency of the free core nutation (cycles per sidereal day) and the
parameters of the resonance formulas of an Earth model. -/
structure Earth where
  fcn : ℝ
  h0 : ℝ
  h1 : ℝ
  k0 : ℝ
  k1 : ℝ
  l0 : ℝ
  l1 : ℝ

/-- arguments.py 1446-1467 -/
noncomputable def earth (model : String) : Except PyErr Earth :=
  if model = "1066A" then .ok ⟨1.0021714, 6.03e-1, -2.46e-3, 2.98e-1, -1.23e-3, 8.42e-2, 7.81e-5⟩
  else if model = "PEM-C" then
    .ok ⟨1.0021771, 6.02e-1, -2.46e-3, 2.98e-1, -1.24e-3, 8.39e-2, 7.69e-5⟩
  else if model = "C2" then
    .ok ⟨1.0021844, 6.02e-1, -2.45e-3, 2.98e-1, -1.23e-3, 8.46e-2, 7.58e-5⟩
  else if model = "PREM" then
    .ok ⟨1.0023214, 5.994e-1, -2.532e-3, 2.962e-1, -1.271e-3, 8.378e-2, 7.932e-5⟩
  else .error .valueError

/-- `omega_o1, = frequency('o1')` (arguments.py 1482): a string is made a list of one constituent
(arguments.py 380-382) and `corrections` has its default value. -/
noncomputable def omegaO1 : Except PyErr ℝ := do
  let w ← Astro.frequency "OTIS" ["o1"]
  match w with
  | [x] => .ok x
  | _ => .error .valueError

/-- arguments.py 1414-1492, `_love_numbers`: the Love numbers `h2`, `k2` and `l2`. -/
noncomputable def loveNumbers (omega : ℝ) (model : String) : Except PyErr (ℝ × ℝ × ℝ) := do
  let e ← earth model
  if 1e-4 < omega then .ok (0.609, 0.302, 0.0852)
  else if omega < 2e-5 then .ok (0.606, 0.299, 0.0840)
  else do
    let o1 ← omegaO1
    let omegaFcn := e.fcn * 7292115e-11
    let ratio := (omega - o1) / (omegaFcn - omega)
    .ok (e.h0 + e.h1 * ratio, e.k0 + e.k1 * ratio, e.l0 + e.l1 * ratio)

end Verif.Love
