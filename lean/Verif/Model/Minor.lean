import Verif.Model.Nodal

/-!
# Nodal corrections of the minor constituents

Model of the nodal part of `minor_arguments` (/repo/pyTMD/arguments.py 232-325): the columns of
`u` and `f`, as functions of the number of the column.  One time is modelled; floating point
numbers become reals.
-/

namespace Verif.Nodal

open Real

/-- `u, f` of the column before the overrides for FES and GOT (arguments.py 232-276).  Columns:
0 2q1, 1 sigma1, 2 rho1, 3 m1b, 4 m1a, 5 chi1, 6 pi1, 7 phi1, 8 theta1, 9 j1, 10 oo1, 11 2n2,
12 mu2, 13 nu2, 14 lambda2, 15 l2a, 16 l2b, 17 t2, 18 eps2, 19 eta2. -/
noncomputable def minorBase (n : ℝ) : ℕ → ℝ × ℝ
  | 0 | 1 | 2 => (arctan2 (0.189 * sin (n * dtr) - 0.0058 * sin (2 * n * dtr))
        (1 + 0.189 * cos (n * dtr) - 0.0058 * sin (2 * n * dtr)),
      sqrt ((1 + 0.189 * cos (n * dtr) - 0.0058 * cos (2 * n * dtr)) ^ 2 +
        (0.189 * sin (n * dtr) - 0.0058 * sin (2 * n * dtr)) ^ 2))
  | 3 => (arctan2 (0.185 * sin (n * dtr)) (1 + 0.185 * cos (n * dtr)),
      sqrt ((1 + 0.185 * cos (n * dtr)) ^ 2 + (0.185 * sin (n * dtr)) ^ 2))
  | 4 => (arctan2 (-0.201 * sin (n * dtr)) (1 + 0.201 * cos (n * dtr)),
      sqrt ((1 + 0.201 * cos (n * dtr)) ^ 2 + (0.201 * sin (n * dtr)) ^ 2))
  | 5 => (arctan2 (-0.221 * sin (n * dtr)) (1 + 0.221 * cos (n * dtr)),
      sqrt ((1 + 0.221 * cos (n * dtr)) ^ 2 + (0.221 * sin (n * dtr)) ^ 2))
  | 9 => (arctan2 (-0.198 * sin (n * dtr)) (1 + 0.198 * cos (n * dtr)),
      sqrt ((1 + 0.198 * cos (n * dtr)) ^ 2 + (0.198 * sin (n * dtr)) ^ 2))
  | 10 => (arctan2 (-0.640 * sin (n * dtr) - 0.134 * sin (2 * n * dtr))
        (1 + 0.640 * cos (n * dtr) + 0.134 * cos (2 * n * dtr)),
      sqrt ((1 + 0.640 * cos (n * dtr) + 0.134 * cos (2 * n * dtr)) ^ 2 +
        (0.640 * sin (n * dtr) + 0.134 * sin (2 * n * dtr)) ^ 2))
  | 11 | 12 | 13 | 15 => (arctan2 (-0.0373 * sin (n * dtr)) (1 - 0.0373 * cos (n * dtr)),
      sqrt ((1 - 0.0373 * cos (n * dtr)) ^ 2 + (0.0373 * sin (n * dtr)) ^ 2))
  | 16 => (arctan2 (-0.441 * sin (n * dtr)) (1 + 0.441 * cos (n * dtr)),
      sqrt ((1 + 0.441 * cos (n * dtr)) ^ 2 + (0.441 * sin (n * dtr)) ^ 2))
  | _ => (0, 1)

/-- The overrides for FES models (arguments.py 278-320). -/
noncomputable def minorFes (n p : ℝ) : ℕ → Option (ℝ × ℝ)
  | 0 | 1 | 2 | 3 => some (2 * xi n - nu n, sin (II n) * cos (II n / 2) ^ 2 / 0.38)
  | 4 | 5 | 9 => some (-nu n, sin (2 * II n) / 0.7214)
  | 10 => some (-2 * xi n - nu n, sin (II n) * sin (II n / 2) ^ 2 / 0.01640)
  | 11 | 12 | 13 | 14 | 18 => some (2 * xi n - 2 * nu n, cos (II n / 2) ^ 4 / 0.9154)
  | 15 => some (2 * xi n - 2 * nu n - R n p, cos (II n / 2) ^ 4 / 0.9154 * Ra1 n p)
  | 19 => some (-2 * nu n, sin (II n) ^ 2 / 0.1565)
  | _ => none

/-- The overrides for GOT models (arguments.py 321-325). -/
noncomputable def minorGot (n : ℝ) : ℕ → Option (ℝ × ℝ)
  | 18 => some (minorBase n 11)
  | 19 => some (arctan (-0.436 * sin (n * dtr) / (1 + 0.436 * cos (n * dtr))),
      sqrt ((1 + 0.436 * cos (n * dtr)) ^ 2 + (0.436 * sin (n * dtr)) ^ 2))
  | _ => none

/-- The columns of `u` and `f` of `minor_arguments` (arguments.py 232-328). -/
noncomputable def minor (corrections : String) (n p : ℝ) (i : ℕ) : ℝ × ℝ :=
  if corrections = "FES" then (minorFes n p i).getD (minorBase n i)
  else if corrections = "GOT" then (minorGot n i).getD (minorBase n i)
  else minorBase n i

end Verif.Nodal
