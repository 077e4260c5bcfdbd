import Verif.Model.Astro
/-!
Model of `_arguments_table` (`/repo/pyTMD/arguments.py` 1266-1301).
-/
namespace Verif.Astro

/-- arguments.py 1284-1289: the constituents of the table. -/
def tableNames : List String :=
  ["sa", "ssa", "mm", "msf", "mf", "mt", "alpha1", "2q1", "sigma1",
    "q1", "rho1", "o1", "tau1", "m1", "chi1", "pi1", "p1", "s1", "k1",
    "psi1", "phi1", "theta1", "j1", "oo1", "2n2", "mu2", "n2", "nu2", "m2a",
    "m2", "m2b", "lambda2", "l2", "t2", "s2", "r2", "k2", "eta2", "mns2",
    "2sm2", "m3", "mk3", "s3", "mn4", "m4", "ms4", "mk4", "s4", "s5", "m6",
    "s6", "s7", "s8", "m8", "mks2", "msqm", "mtm", "n4", "eps2", "z0"]

/-- arguments.py 1266-1301, `_arguments_table`: the coefficients, column by column.  The default of the corrections
(line 1281) is `"OTIS"`. -/
def argumentsTable (corrections : Option String) : Except PyErr (List (List ℤ)) :=
  coefficients (corrections.getD "OTIS") tableNames

end Verif.Astro
