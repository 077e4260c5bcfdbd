import Verif.Model.Csv
import Verif.Model.Compute
/-!
Model of the program `/repo/scripts/compute_tidal_elevations.py`, lines 201-451, for tables of text
(`FORMAT='csv'`).

The tide model is a function from points to constants; the transformation from the projection to
longitude and latitude (`PROJECTION`: a table has no attribute `projection`) and the conversion of
times (`TIME_UNITS` and `TIME_STANDARD`, see lines 274-289) are functions of one point and of one
time.  Numbers are reals, and how they are written and read is an input.  Left out: dates as texts
(`TIME_STANDARD='datetime'`), permissions, logging, and the table without rows.
-/
namespace Verif.Program
open Verif Verif.Csv Verif.Compute

/-- The arguments of the program. -/
structure Setup where
  codec : Codec ℝ
  yaml : Yaml
  delimiter : Text
  /-- `HEADER` -/
  header : Nat
  /-- `VARIABLES` -/
  names : List Text
  /-- `TIME` -/
  time : Option (List ℝ)
  lonLat : ℝ × ℝ → ℝ × ℝ
  /-- `ts.tide` and `ts.tt_ut1` of a time -/
  scale : ℝ → ℝ × ℝ
  extract : List (ℝ × ℝ) → Except PyErr Extracted
  options : Options
  fill : ℝ
  /-- `model.variable` -/
  variableName : Text

/-- `dinput[name]` -/
def field (d : List (Text × List ℝ)) (name : Text) : Except PyErr (List ℝ) :=
  match d.lookup name with
  | some v => .ok v
  | none => .error .keyError

/-- compute_tidal_elevations.py 252-254: `dinput['time'] = np.copy(TIME)`. -/
def times (s : Setup) (d : List (Text × List ℝ)) : Except PyErr (List ℝ) :=
  match s.time with
  | some t => .ok t
  | none => field d "time".toList

/-- compute_tidal_elevations.py 261-271: sizes and points, for a type in these very letters. -/
def place (s : Setup) (d : List (Text × List ℝ)) : Except PyErr (Option (Nat × Nat × List (ℝ × ℝ))) :=
  if s.options.type = "grid" then do
    let y ← field d "y".toList
    let x ← field d "x".toList
    .ok (some (y.length, x.length, (y.flatMap fun v => x.map fun u => (u, v)).map s.lonLat))
  else if s.options.type = "drift" then do
    let x ← field d "x".toList
    let y ← field d "y".toList
    .ok (some (0, 0, (x.zip y).map s.lonLat))
  else if s.options.type = "time series" then do
    let y ← field d "y".toList
    let x ← field d "x".toList
    .ok (some (0, 0, (x.zip y).map s.lonLat))
  else .ok none

/-- compute_tidal_elevations.py 233-448 for a table of text: the text of the output file.  The
predictions of lines 291-365 are those of `tide_elevations` (compute.py 364-439).  Tides by rows and
columns of a grid, or by stations, cannot be stacked with the list of times: `ValueError`. -/
noncomputable def program (P : Predict.Env) (I : Infer.Env) (s : Setup) (file : Text) : Except PyErr Text := do
  let d ← fromAscii s.codec s.yaml s.delimiter (.lines s.header) s.names file
  if s.options.type.toLower ∉ ["grid", "drift", "time series"] then .error .assertionError
  else do
    let w ← place s d
    let t ← times s d
    match w with
    | none => .error .unbound
    | some (ny, nx, points) => do
      let m ← s.extract points
      let out ← tideElevations P I s.options ny nx m (t.map s.scale)
      match out with
      | .drift l =>
        toAscii s.codec (fun _ => []) [] s.delimiter false
          [("lon".toList, points.map Prod.fst), ("lat".toList, points.map Prod.snd),
            (s.variableName, l.map fun v => v.getD s.fill), ("time".toList, t.map fun u => (s.scale u).1)]
          (fun _ => []) ["time".toList, "lat".toList, "lon".toList, s.variableName]
      | _ => .error .valueError

end Verif.Program
