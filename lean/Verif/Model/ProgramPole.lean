import Verif.Model.ProgramFiles
import Verif.Model.PoleTide
/-!
Model of the values of the programs for pole tides: compute_LPT_displacements.py 253-346 and
compute_OPT_displacements.py 251-368 of `/repo/scripts`.  They are used as `compute` of the programs in
`Model/ProgramFiles`.

Left out: compute_OPT_displacements.py does not check `TYPE` and ends for other types with a
UnboundLocalError, where the model has the AssertionError of the other programs.
-/
namespace Verif.Program
open Verif Verif.PoleTide

/-- The same values in the type of the results of `Model/Compute`. -/
def laidOut : SolidEarth.Out → Compute.Out
  | .grid l => .grid l
  | .drift l => .drift l
  | .series l => .series l

/-- compute_LPT_displacements.py 253-346: load pole tides at points and times. -/
noncomputable def lptValues (P : Poles) (type ellipsoid convention : String) (ny nx : ℕ)
    (points ts : List (ℝ × ℝ)) : Except PyErr Compute.Out := do
  let dm ← CRS.datum ellipsoid "MKS" none none none none
  let out ← byType (loadPoleTide P convention dm.omega 0.6207 0.0836) type ny nx (points.map (lptPoint dm)) ts
  .ok (laidOut out)

/-- compute_OPT_displacements.py 251-368: ocean pole tides at points and times.  `coef` is the map of
coefficients, interpolated with `METHOD`. -/
noncomputable def optValues (P : Poles) (coef : ℝ → ℝ → Option (ℂ × ℂ × ℂ)) (type ellipsoid convention : String)
    (ny nx : ℕ) (points ts : List (ℝ × ℝ)) : Except PyErr Compute.Out := do
  let dm ← CRS.datum ellipsoid "MKS" none none none none
  let out ← byType (oceanPoleTide P convention (oceanFactor 9.7803278 dm.a dm.GM dm.omega 1025) ⟨0.6870, 0.0036⟩) type ny nx
    (points.map (optPoint coef dm)) ts
  .ok (laidOut out)

end Verif.Program
