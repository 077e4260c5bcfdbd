import Verif.Model.Ephemerides
import Verif.Model.NutationTables
/-!
Model of the rotation from celestial to terrestrial coordinates in `/repo/pyTMD/astro.py`:
`delaunay_arguments` (300-353), `mean_obliquity` (355-371), `gast` (643-664), `itrs` (666-708),
`_eqeq_complement` (710-762), `_nutation_angles` (790-833).

Floats are reals; one time is modelled.  From the package `timescale` come, as inputs, the centuries
`ts.T`, the modified Julian day of dynamical time, the mean sidereal time `ts.st` in turns, the
coordinates of the pole and the unit of the tables in radians (`ts.masec2rad`); `ts.tau` is `2π`.
-/
namespace Verif.Sky
open Verif Verif.Math Real

/-- astro.py 328-353, `delaunay_arguments` (radians): `l`, `l'`, `F`, `D`, `N`. -/
noncomputable def delaunayArguments (MJD : ℝ) : List ℝ :=
  let atr := π / 648000
  let T := (MJD - 51544.5) / 36525
  [ atr * normalizeAngle (polynomialSum [485868.249036, 1717915923.2178, 31.8792, 0.051635, -2.447e-04] T) 1296000,
    atr * normalizeAngle (polynomialSum [1287104.79305, 129596581.0481, -0.5532, 1.36e-4, -1.149e-05] T) 1296000,
    atr * normalizeAngle (polynomialSum [335779.526232, 1739527262.8478, -12.7512, -1.037e-3, 4.17e-6] T) 1296000,
    atr * normalizeAngle (polynomialSum [1072260.70369, 1602961601.2090, -6.3706, 6.593e-3, -3.169e-05] T) 1296000,
    atr * normalizeAngle (polynomialSum [450160.398036, -6962890.5431, 7.4722, 7.702e-3, -5.939e-05] T) 1296000 ]

/-- astro.py 363-371, `mean_obliquity` (radians). -/
noncomputable def meanObliquity (MJD : ℝ) : ℝ :=
  π / 648000 * polynomialSum [84381.406, -46.836769, -1.831e-4, 2.00340e-4, -5.76e-07, -4.34e-08]
    ((MJD - 51544.5) / 36525)

/-- astro.py 723-740: the first five rows of `fa`. -/
noncomputable def lunisolarArguments (T : ℝ) : List ℝ :=
  [ asec2rad * polynomialSum [485868.249036, 715923.2178, 31.8792, 0.051635, -2.447e-04] T
      + 2 * π * Num.fmod (1325 * T) 1,
    asec2rad * polynomialSum [1287104.79305, 1292581.0481, -0.5532, 1.36e-4, -1.149e-05] T
      + 2 * π * Num.fmod (99 * T) 1,
    asec2rad * polynomialSum [335779.526232, 295262.8478, -12.7512, -1.037e-3, 4.17e-6] T
      + 2 * π * Num.fmod (1342 * T) 1,
    asec2rad * polynomialSum [1072260.70369, 1105601.2090, -6.3706, 6.593e-3, -3.169e-05] T
      + 2 * π * Num.fmod (1236 * T) 1,
    asec2rad * polynomialSum [450160.398036, -482890.5431, 7.4722, 7.702e-3, -5.939e-05] T
      + 2 * π * Num.fmod (-5 * T) 1 ]

/-- astro.py 741-750: the other rows of `fa`. -/
noncomputable def planetaryArguments (T : ℝ) : List ℝ :=
  [ polynomialSum [4.402608842, 2608.7903141574] T,
    polynomialSum [3.176146697, 1021.3285546211] T,
    polynomialSum [1.753470314, 628.3075849991] T,
    polynomialSum [6.203480913, 334.0612426700] T,
    polynomialSum [0.599546497, 52.9690962641] T,
    polynomialSum [0.874016757, 21.3299104960] T,
    polynomialSum [5.481293872, 7.4781598567] T,
    polynomialSum [5.311886287, 3.8133035638] T,
    polynomialSum [0, 0.024381750, 0.00000538691] T ]

/-- `np.dot` of multiples and arguments; only the first columns are taken if there are fewer arguments. -/
noncomputable def dot (n : List ℤ) (args : List ℝ) : ℝ :=
  (List.zipWith (fun (k : ℤ) (a : ℝ) => (k : ℝ) * a) n args).sum

/-- `np.dot(rows['Cs'], np.sin(arg)) + np.dot(rows['Cc'], np.cos(arg))`, in the unit of the files. -/
noncomputable def series (rows : List Row) (args : List ℝ) : ℝ :=
  (rows.map fun r => (r.s : ℝ) / 100 * sin (dot r.n args) + (r.c : ℝ) / 100 * cos (dot r.n args)).sum

/-- astro.py 710-762, `_eqeq_complement`. -/
noncomputable def eqeqComplement (unit T : ℝ) : ℝ :=
  let fa := (lunisolarArguments T ++ planetaryArguments T).map fun a => Num.fmod a (2 * π)
  unit * (series gst0 fa + T * series gst1 fa)

/-- astro.py 790-833, `_nutation_angles`. -/
noncomputable def nutationAngles (unit T MJD : ℝ) : ℝ × ℝ :=
  let args := delaunayArguments MJD
  (unit * (series psi0 args + T * series psi1 args), unit * (series eps0 args + T * series eps1 args))

/-- astro.py 653-664, `gast`, given the mean sidereal time in turns and the angles in radians. -/
noncomputable def gast (st epsilon dpsi deps c : ℝ) : ℝ :=
  let eqeq := dpsi * cos (epsilon + deps) + c
  Num.fmod (st + eqeq / 24) 1

/-- astro.py 679-708, `itrs`, given the pole and the angles. -/
noncomputable def itrs (T px py st epsilon dpsi deps c : ℝ) : Except PyErr Mat3 := do
  let M1 := precessionMatrix T
  let M2 := nutationMatrix epsilon (epsilon + deps) dpsi
  let M3 := frameBiasMatrix
  let M4 ← polarMotionMatrix px py T
  let M := M1 * M2 * M3 * M4
  let GAST ← rotate (2 * π * gast st epsilon dpsi deps c) "z"
  .ok (GAST * M)

end Verif.Sky
