import Verif.Model.Astro
import Verif.Model.Minor
import Verif.Model.Infer
import Verif.Model.Parameters

/-!
# Arguments of the minor constituents

Model of `_minor_table` and of `minor_arguments` as a whole (/repo/pyTMD/arguments.py 178-328,
1303-1326), and of what the prediction and the inference of tides get from the arguments.
-/

namespace Verif.Astro

open Real

/-- arguments.py 1321-1323: the constituents of `_minor_table`. -/
def minorNames : List String :=
  ["2q1", "sigma1", "rho1", "m1b", "m1a", "chi1", "pi1", "phi1", "theta1", "j1", "oo1", "2n2",
    "mu2", "nu2", "lambda2", "l2a", "l2b", "t2", "eps2", "eta2"]

/-- arguments.py 1303-1326, `_minor_table`, as called in line 229: without keywords, so that the
corrections are those of OTIS. -/
def minorTable : Except PyErr (List (List ℤ)) := coefficients "OTIS" minorNames

/-- arguments.py 178-328, `minor_arguments`: angle, factor and phase (degrees) for each of the
twenty columns. -/
noncomputable def minorArguments (corrections : String) (deltat MJD : ℝ) :
    Except PyErr (List (ℝ × ℝ) × List ℝ) := do
  let l := meanLongitudes (modeOf corrections) (MJD + deltat)
  let rows ← minorTable
  let G := rows.map (dot (fargs corrections deltat MJD))
  .ok ((List.range 20).map (Nodal.minor corrections l.n l.p), G)

/-- One column of `pu`, `pf` and `G`; zeros outside of them. -/
noncomputable def columnOf (r : Except PyErr (List (ℝ × ℝ) × List ℝ)) (k : ℕ) : Predict.Arg :=
  match r with
  | .ok (uf, G) => ⟨(uf.getD k (0, 0)).1, (uf.getD k (0, 0)).2, G.getD k 0⟩
  | .error _ => ⟨0, 0, 0⟩

/-- What `pyTMD.arguments` provides to the predictions: predict.py 139-142 (and 199-202, 259-262)
for the arguments at `t + _mjd_tide`, with the default of the keyword `M1`; predict.py 153-154 for
the parameters. -/
noncomputable def predictEnv (corrections : String) : Predict.Env where
  known c := (Coef.table.lookup c).isSome
  args t deltat c := columnOf (arguments corrections "perth5" deltat (t + 48622) [c]) 0
  ph c := match Parameters.parameters c false with
    | .ok q => q.phase
    | .error _ => 0
  omega c := match Parameters.parameters c false with
    | .ok q => q.omega
    | .error _ => 0

/-- What `pyTMD.arguments` provides to the inference: predict.py 461-464 for the minor
constituents, 592-595 (and 756-759, 901-904) for the others; frequencies and tilt factors are
inputs here. -/
noncomputable def inferEnv (corrections : String) (freq : String → ℝ) (tilt : ℝ → ℝ) :
    Infer.Env where
  args t c := columnOf (arguments corrections "perth5" t.2 (t.1 + 48622) [c]) 0
  margs t k := columnOf (minorArguments corrections t.2 (t.1 + 48622)) k
  freq := freq
  tilt := tilt

end Verif.Astro
