import Verif.Model.Program
/-!
Model of the program `/repo/scripts/compute_tidal_currents.py`, lines 221-456, for tables of text
(`FORMAT='csv'`), with the simplifications of `Model/Program`.
-/
namespace Verif.Program
open Verif Verif.Csv Verif.Compute

/-- The arguments of the program, and the model it selects.  `extract` and `variableName` of `base` are
not used. -/
structure Currents where
  base : Setup
  /-- `model.type` is a list; else it is a text, and `types` are its letters. -/
  isList : Bool
  types : List String
  /-- `model.extract_constants(…, type=t)` -/
  extract : String → List (ℝ × ℝ) → Except PyErr Extracted

/-- compute_tidal_currents.py 316-384: one component.  The predictions are those of `tide_elevations`
(compute.py 364-439). -/
noncomputable def component (P : Predict.Env) (I : Infer.Env) (s : Currents) (ny nx : Nat)
    (points : List (ℝ × ℝ)) (t : List ℝ) (type : String) : Except PyErr (String × Compute.Out) := do
  let m ← s.extract type points
  let out ← tideElevations P I s.base.options ny nx m (t.map s.base.scale)
  .ok (type, out)

/-- io/model.py 417-451: `model.description` and `model.long_name` have parts `'u'` and `'v'` only if the
type is the list of these; they are a text or `None` otherwise, which have no such parts. -/
def described (s : Currents) : Except PyErr Unit :=
  if s.isList = true ∧ s.types = ["u", "v"] then .ok () else .error .typeError

/-- The numbers of a component beside the list of times, if they are a list. -/
def flat (fill : ℝ) : String × Compute.Out → Except PyErr (Text × List ℝ)
  | (t, .drift l) => .ok (t.toList, l.map fun v => v.getD fill)
  | _ => .error .valueError

/-- compute_tidal_currents.py 248-456 for a table of text: the text of the output file.  All components
are computed before the table is made. -/
noncomputable def currents (P : Predict.Env) (I : Infer.Env) (s : Currents) (file : Text) : Except PyErr Text := do
  let d ← fromAscii s.base.codec s.base.yaml s.base.delimiter (.lines s.base.header) s.base.names file
  if s.base.options.type.toLower ∉ ["grid", "drift", "time series"] then .error .assertionError
  else do
    let w ← place s.base d
    let t ← times s.base d
    match w with
    | none => .error .unbound
    | some (ny, nx, points) => do
      let tides ← pyMap (component P I s ny nx points t) s.types
      described s
      let cols ← pyMap (flat s.base.fill) tides
      toAscii s.base.codec (fun _ => []) [] s.base.delimiter false
        ([("lon".toList, points.map Prod.fst), ("lat".toList, points.map Prod.snd)] ++ cols ++
          [("time".toList, t.map fun u => (s.base.scale u).1)])
        (fun _ => []) ["time".toList, "lat".toList, "lon".toList, "u".toList, "v".toList]

end Verif.Program
