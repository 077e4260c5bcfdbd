import Verif.Model.Py
import Verif.Model.Num
import Mathlib.Analysis.SpecialFunctions.Trigonometric.Basic
import Mathlib.Analysis.SpecialFunctions.Complex.Arg
import Mathlib.LinearAlgebra.Matrix.Notation
import Mathlib.LinearAlgebra.Matrix.Determinant.Basic
/-!
Model of `/repo/pyTMD/math.py` and of `/repo/pyTMD/ellipse.py`, plus the rotation matrices
of `/repo/pyTMD/astro.py`.  Numbers are real; each vectorised numpy expression is modelled
for one element.
-/
namespace Verif.Math
open Verif Real

/-- math.py 35-52, `polynomial_sum`: `sum([c * t**i for i, c in enumerate(coefficients)])`. -/
noncomputable def polynomialSum (coefficients : List ℝ) (t : ℝ) : ℝ :=
  (coefficients.zipIdx.map (fun ci => ci.1 * t ^ ci.2)).sum

/-- math.py 54-68, `normalize_angle`. -/
noncomputable def normalizeAngle (theta circle : ℝ) : ℝ := Num.fmod theta circle

abbrev Mat3 := Matrix (Fin 3) (Fin 3) ℝ

/-- math.py 70-110, `rotate`.  `axis.lower()` on one-letter names. -/
noncomputable def rotate (theta : ℝ) (axis : String) : Except PyErr Mat3 :=
  if axis = "x" ∨ axis = "X" then
    .ok !![1, 0, 0; 0, cos theta, sin theta; 0, -sin theta, cos theta]
  else if axis = "y" ∨ axis = "Y" then
    .ok !![cos theta, 0, -sin theta; 0, 1, 0; sin theta, 0, cos theta]
  else if axis = "z" ∨ axis = "Z" then
    .ok !![cos theta, sin theta, 0; -sin theta, cos theta, 0; 0, 0, 1]
  else .error .valueError

/-- math.py 112-132, `aliasing`. -/
noncomputable def aliasing (f fs : ℝ) : ℝ := |f - fs * (Num.round (f / fs) : ℝ)|

/-- math.py 134-191, `legendre`: the 4 by 4 table, entries not assigned stay zero. -/
noncomputable def legendreTable (l m : Nat) (x : ℝ) : ℝ :=
  let u := sqrt (1 - x ^ 2)
  match l, m with
  | 0, 0 => 1
  | 1, 0 => x
  | 1, 1 => u
  | 2, 0 => 0.5 * (3 * x ^ 2 - 1)
  | 2, 1 => 3 * x * u
  | 2, 2 => 3 * u ^ 2
  | 3, 0 => 0.5 * (5 * x ^ 3 - 3 * x)
  | 3, 1 => 1.5 * (5 * x ^ 2 - 1) * u
  | 3, 2 => 15 * x * u ^ 2
  | 3, 3 => 15 * u ^ 3
  | _, _ => 0

/-- math.py 134-191, `legendre` with its two assertions and the factor `(-1)^m`. -/
noncomputable def legendre (l : Int) (x : ℝ) (m : Int) : Except PyErr ℝ :=
  if ¬ (0 ≤ l ∧ l ≤ 3) then .error .assertionError
  else if ¬ (0 ≤ m ∧ m ≤ l) then .error .assertionError
  else .ok ((-1) ^ m.toNat * legendreTable l.toNat m.toNat x)

/-- math.py 193-243, the array filled by `assoc_legendre`: row `l`, column `m`.
The loop over `l` fills row `l` from rows `l-1` and `l-2`. -/
noncomputable def assocRow (x : ℝ) : Nat → Nat → ℝ
  | 0, m => if m = 0 then 1 else 0
  | 1, m => if m = 0 then sqrt 3 * x else if m = 1 then sqrt 3 * sqrt (1 - x ^ 2) else 0
  | l' + 2, m =>
    let l : ℝ := ((l' + 2 : Nat) : ℝ)
    let norm := sqrt (2 * l + 1)
    if m < l' + 2 then
      let a := sqrt ((2 * l - 1) / ((l - m) * (l + m)))
      let b := sqrt ((l + m - 1) * (l - m - 1) / ((l - m) * (l + m) * (2 * l - 3)))
      a * norm * x * assocRow x (l' + 1) m - b * norm * assocRow x l' m
    else if m = l' + 2 then
      sqrt (1 - x ^ 2) * norm * sqrt (1 / (2 * l)) * assocRow x (l' + 1) (l' + 1)
    else 0

/-- math.py 193-243, `assoc_legendre(lmax, x)[l, m]`.  With `lmax = 0` the assignment to
`Plm[1,0,:]` raises `IndexError`; reading outside the array raises `IndexError`. -/
noncomputable def assocLegendre (lmax : Nat) (x : ℝ) (l m : Nat) : Except PyErr ℝ :=
  if lmax = 0 then .error .indexError
  else if l ≤ lmax ∧ m ≤ lmax then .ok (assocRow x l m)
  else .error .indexError

/-- math.py 245-288, `sph_harm` for one point.  Note the factor `sin(theta)` of line 283. -/
noncomputable def sphHarm (l : Int) (theta phi : ℝ) (m : Int) : Except PyErr ℂ :=
  match legendre l (cos theta) m with
  | .error e => .error e
  | .ok p =>
    let norm := sqrt (((l - m).toNat.factorial : ℝ) / ((l + m).toNat.factorial : ℝ))
    let dfactor := sqrt ((2 * l + 1) / (4 * π))
    .ok ((dfactor * (norm * p) * sin theta : ℝ) * Complex.exp (Complex.I * m * phi))

/-- ellipse.py 44-98, `ellipse`: the four parameters (major, minor, inclination, phase). -/
noncomputable def ellipse (u v : ℂ) : ℝ × ℝ × ℝ × ℝ :=
  let wp := (u + Complex.I * v) / 2
  let wm := (starRingEnd ℂ) (u - Complex.I * v) / 2
  let ap := ‖wp‖
  let am := ‖wm‖
  let ep := Complex.arg wp * 180 / π
  let em := Complex.arg wm * 180 / π
  let umajor := ap + am
  let uminor := ap - am
  let uincl := (em + ep) / 2
  let uphase := (em - ep) / 2
  let k := Num.floorDiv uincl 180
  (umajor, uminor, uincl - 180 * k, Num.fmod (uphase + 180 * k) 360)

/-- ellipse.py 100-143, `inverse`. -/
noncomputable def ellipseInverse (umajor uminor uincl uphase : ℝ) : ℂ × ℂ :=
  let incl := uincl * π / 180
  let phase := uphase * π / 180
  let ep := incl - phase
  let em := incl + phase
  let ap := (umajor + uminor) / 2
  let am := (umajor - uminor) / 2
  let wp : ℂ := ap * Complex.exp (Complex.I * ep)
  let wm : ℂ := am * Complex.exp (Complex.I * em)
  (wp + (starRingEnd ℂ) wm, -Complex.I * (wp - (starRingEnd ℂ) wm))

/-- astro.py 835-868, `_nutation_matrix`. -/
noncomputable def nutationMatrix (mean true_ psi : ℝ) : Mat3 :=
  !![cos psi, -sin psi * cos mean, -sin psi * sin mean;
     sin psi * cos true_, cos psi * cos mean * cos true_ + sin mean * sin true_,
       cos psi * sin mean * cos true_ - cos mean * sin true_;
     sin psi * sin true_, cos psi * cos mean * sin true_ - sin mean * cos true_,
       cos psi * sin mean * sin true_ + cos mean * cos true_]

/-- astro.py 870-890, `_polar_motion_matrix`; the pole coordinates `px py` (arcseconds) from
the `timescale` package are parameters. -/
noncomputable def polarMotionMatrix (px py T : ℝ) : Except PyErr Mat3 :=
  let atr := π / 648000
  let sprime := -4.7e-5 * T
  do
    let M1 ← rotate (py * atr) "x"
    let M2 ← rotate (px * atr) "y"
    let M3 ← rotate (-sprime * atr) "z"
    .ok (M1 * M2 * M3)

/-- astro.py 892-944, the matrix assembled by `_precession_matrix` from its four angles. -/
noncomputable def precessionOfAngles (CHI PSI OMEGA EPS : ℝ) : Mat3 :=
  !![cos CHI * cos (-PSI) - sin (-PSI) * sin CHI * cos (-OMEGA),
     cos CHI * sin (-PSI) * cos EPS + sin CHI * cos (-OMEGA) * cos (-PSI) * cos EPS
       - sin EPS * sin CHI * sin (-OMEGA),
     cos CHI * sin (-PSI) * sin EPS + sin CHI * cos (-OMEGA) * cos (-PSI) * sin EPS
       + cos EPS * sin CHI * sin (-OMEGA);
     -sin CHI * cos (-PSI) - sin (-PSI) * cos CHI * cos (-OMEGA),
     -sin CHI * sin (-PSI) * cos EPS + cos CHI * cos (-OMEGA) * cos (-PSI) * cos EPS
       - sin EPS * cos CHI * sin (-OMEGA),
     -sin CHI * sin (-PSI) * sin EPS + cos CHI * cos (-OMEGA) * cos (-PSI) * sin EPS
       + cos EPS * cos CHI * sin (-OMEGA);
     sin (-PSI) * sin (-OMEGA),
     -sin (-OMEGA) * cos (-PSI) * cos EPS - sin EPS * cos (-OMEGA),
     -sin (-OMEGA) * cos (-PSI) * sin EPS + cos (-OMEGA) * cos EPS]

/-- astro.py 892-944, `_precession_matrix`, with the angle polynomials of lines 905-920. -/
noncomputable def precessionMatrix (T : ℝ) : Mat3 :=
  let atr := π / 648000
  let epsilon0 : ℝ := 84381.406
  let EPS := epsilon0 * atr
  let PSI := atr * polynomialSum [0, 5038.481507, -1.0790069, -1.14045e-3, 1.32851e-4, -9.51e-8] T
  let OMEGA := atr * polynomialSum
    [epsilon0, -2.5754e-2, 5.12623e-2, -7.72503e-3, -4.67e-7, 3.337e-7] T
  let CHI := atr * polynomialSum [0, 10.556403, -2.3814292, -1.21197e-3, 1.70663e-4, -5.60e-8] T
  precessionOfAngles CHI PSI OMEGA EPS

/-- astro.py 764-788, `_frame_bias_matrix` from its three small angles. -/
noncomputable def frameBiasOfAngles (xi0 eta0 da0 : ℝ) : Mat3 :=
  !![1 - 0.5 * (da0 ^ 2 + xi0 ^ 2), da0, -xi0;
     -da0, 1 - 0.5 * (da0 ^ 2 + eta0 ^ 2), -eta0;
     xi0, eta0, 1 - 0.5 * (eta0 ^ 2 + xi0 ^ 2)]

/-- astro.py 764-788, `_frame_bias_matrix`. -/
noncomputable def frameBiasMatrix : Mat3 :=
  let atr := π / 648000
  frameBiasOfAngles (-0.0166170 * atr) (-0.0068192 * atr) (-0.01460 * atr)

end Verif.Math
