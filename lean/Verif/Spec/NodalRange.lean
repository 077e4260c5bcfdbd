import Mathlib.Data.Rat.Defs

/-!
# Ranges of the nodal factors

The nodal factor of a lunar constituent moves around one in the 18.6 years of the lunar node.
The ranges follow the extremes of Schureman's Table 14 (1941), rounded outwards so that the
expansions of Doodson with the terms of the lunar perigee stay inside as well.
-/

namespace Verif.Spec

/-- Constituent, smallest and largest nodal factor. -/
def nodalRanges : List (String × ℚ × ℚ) := [
  ("s2", 0.99, 1.01), ("p1", 0.98, 1.02), ("t2", 1, 1), ("s1", 1, 1), ("sa", 1, 1),
  ("ssa", 1, 1), ("m2", 0.96, 1.04), ("n2", 0.96, 1.04), ("2n2", 0.96, 1.04),
  ("mu2", 0.96, 1.04), ("nu2", 0.96, 1.04), ("o1", 0.79, 1.22), ("q1", 0.79, 1.22),
  ("2q1", 0.79, 1.22), ("k1", 0.86, 1.16), ("j1", 0.77, 1.24), ("k2", 0.67, 1.36),
  ("m3", 0.94, 1.06), ("mm", 0.79, 1.21), ("mf", 0.50, 1.50), ("eta2", 0.56, 1.50),
  ("l2", 0.55, 1.45), ("oo1", 0.07, 1.93), ("m4", 0.92, 1.09), ("m6", 0.88, 1.13),
  ("ms4", 0.96, 1.04), ("mn4", 0.92, 1.09), ("mk3", 0.82, 1.21)]

end Verif.Spec
