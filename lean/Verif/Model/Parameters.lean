import Verif.Model.Py
import Mathlib.Data.Rat.Defs

/-!
# Parameters of constituents

Model of `_constituent_parameters` (/repo/pyTMD/arguments.py 1328-1412).  Decimal literals become
rationals.
-/

namespace Verif.Parameters

open Verif

/-- arguments.py 1396-1410: amplitude (m), phase (rad), frequency (rad/s), load Love number
combination and species of a constituent. -/
structure Params where
  amplitude : ℚ
  phase : ℚ
  omega : ℚ
  alpha : ℚ
  species : ℤ
  deriving DecidableEq

/-- arguments.py 1355-1392: the five arrays, transposed. -/
def table : List (String × Params) := [
  ("m2", ⟨0.2441, 1.731557546, 1.405189e-4, 0.693, 2⟩),
  ("s2", ⟨0.112743, 0.000000000, 1.454441e-4, 0.693, 2⟩),
  ("k1", ⟨0.141565, 0.173003674, 7.292117e-5, 0.736, 1⟩),
  ("o1", ⟨0.100661, 1.558553872, 6.759774e-5, 0.695, 1⟩),
  ("n2", ⟨0.046397, 6.050721243, 1.378797e-4, 0.693, 2⟩),
  ("p1", ⟨0.046848, 6.110181633, 7.252295e-5, 0.706, 1⟩),
  ("k2", ⟨0.030684, 3.487600001, 1.458423e-4, 0.693, 2⟩),
  ("q1", ⟨0.019273, 5.877717569, 6.495854e-5, 0.695, 1⟩),
  ("2n2", ⟨0.006141, 4.086699633, 1.352405e-4, 0.693, 2⟩),
  ("mu2", ⟨0.007408, 3.463115091, 1.355937e-4, 0.693, 2⟩),
  ("nu2", ⟨0.008811, 5.427136701, 1.382329e-4, 0.693, 2⟩),
  ("l2", ⟨0.006931, 0.553986502, 1.431581e-4, 0.693, 2⟩),
  ("t2", ⟨0.006608, 0.050398470, 1.452450e-4, 0.693, 2⟩),
  ("j1", ⟨0.007915, 2.137025284, 7.556036e-5, 0.695, 1⟩),
  ("m1", ⟨0.007915, 2.436575000, 7.025945e-5, 0.695, 1⟩),
  ("oo1", ⟨0.004338, 1.929046130, 7.824458e-5, 0.695, 1⟩),
  ("rho1", ⟨0.003661, 5.254133027, 6.531174e-5, 0.695, 1⟩),
  ("mf", ⟨0.042041, 1.756042456, 0.053234e-4, 0.693, 0⟩),
  ("mm", ⟨0.022191, 1.964021610, 0.026392e-4, 0.693, 0⟩),
  ("ssa", ⟨0.019567, 3.487600001, 0.003982e-4, 0.693, 0⟩),
  ("m4", ⟨0.0, 3.463115091, 2.810377e-4, 0.693, 4⟩),
  ("ms4", ⟨0.0, 1.731557546, 2.859630e-4, 0.693, 4⟩),
  ("mn4", ⟨0.0, 1.499093481, 2.783984e-4, 0.693, 4⟩),
  ("m6", ⟨0.0, 5.194672637, 4.215566e-4, 0.693, 6⟩),
  ("m8", ⟨0.0, 6.926230184, 5.620755e-4, 0.693, 8⟩),
  ("mk3", ⟨0.0, 1.904561220, 2.134402e-4, 0.693, 3⟩),
  ("s6", ⟨0.0, 0.000000000, 4.363323e-4, 0.693, 6⟩),
  ("2sm2", ⟨0.0, 4.551627762, 1.503693e-4, 0.693, 2⟩),
  ("2mk3", ⟨0.0, 3.290111417, 2.081166e-4, 0.693, 3⟩),
  ("msf", ⟨0.003681, 4.551627762, 4.925200e-6, 0.693, 0⟩),
  ("sa", ⟨0.003104, 6.232786837, 1.990970e-7, 0.693, 0⟩),
  ("mt", ⟨0.008044, 3.720064066, 7.962619e-6, 0.693, 0⟩),
  ("2q1", ⟨0.002565, 3.91369596, 6.231934e-5, 0.693, 1⟩)]

/-- arguments.py 1328-1412, `_constituent_parameters`: the lower case name is looked up; an
unsupported name gives zeros unless `raise_error` is set.  (`j` would hold all positions of the
name and the one-element unpacking fail for a repeated name: the names are distinct.) -/
def parameters (c : String) (raiseError : Bool) : Except PyErr Params :=
  match table.lookup c.toLower with
  | some p => .ok p
  | none => if raiseError then .error .valueError else .ok ⟨0, 0, 0, 0, 0⟩

end Verif.Parameters
