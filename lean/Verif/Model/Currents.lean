import Verif.Model.Pipeline
import Verif.Model.TideModel
/-!
Model of `compute.tide_currents` (`/repo/pyTMD/compute.py` 556 and 583-662) on a model object, whose
`extract_constants` (`/repo/pyTMD/io/model.py` 970-1054) chooses the files of a component.

Floats are reals.  The projection of the points and the conversion of times are inputs, and so are the
readers of the formats (`TideModel.World`): a column has the constants of one constituent at all points.
`append_node` is left out by this function.
-/
namespace Verif.Flow
open Verif Verif.Compute Verif.Pipeline

/-- The column of constants of a constituent, one for each point. -/
abbrev Column := List (Extract.Out ℝ)

/-- The names that a prediction goes through; `None` has no length (arguments.py, `len(constituents)`). -/
def named : Option (List String) → Except PyErr (List String)
  | some c => .ok c
  | none => .error .typeError

/-- compute.py 586-659: the loop over the components of the model.  `n` is the number of points,
`corrections` and `minor` are attributes of the model.  The dictionary is a list in order of insertion,
for components that are different. -/
noncomputable def components (P : Predict.Env) (I : Infer.Env) (o : Options) (ny nx n : ℕ)
    (W : TideModel.World Column) (corrections : String) (minor : Option (List String))
    (times : List (ℝ × ℝ)) : TideModel.State → List String → Except PyErr (List (String × Compute.Out))
  | _, [] => .ok []
  | s, t :: ts => do
    let r ← TideModel.extract W s t false
    let c ← named r.1.names
    let out ← tideElevations P I o ny nx (table n r.1.columns c corrections minor) times
    let rest ← components P I o ny nx n W corrections minor times r.2 ts
    .ok ((t, out) :: rest)

/-- compute.py 556 and 583-662: `tide_currents`; `types` is `model.type`. -/
noncomputable def tideCurrents (P : Predict.Env) (I : Infer.Env) (o : Options) (ny nx n : ℕ)
    (W : TideModel.World Column) (s : TideModel.State) (types : List String) (corrections : String)
    (minor : Option (List String)) (times : List (ℝ × ℝ)) : Except PyErr (List (String × Compute.Out)) :=
  if o.type.toLower ∉ ["grid", "drift", "time series"] then .error .assertionError
  else components P I o ny nx n W corrections minor times s types

end Verif.Flow
