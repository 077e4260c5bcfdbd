import Verif.Model.Store
import Verif.Model.FileNames
import Verif.Model.Compute
/-!
Model of the programs of `/repo/scripts` for netCDF4 and HDF5 files: compute_tidal_elevations.py 201-451,
and with other functions for the values compute_LPET_elevations.py 147-297 and
compute_LPT_displacements.py 169-407; the part of compute_SET_displacements.py 166-380 that differs.

The values are those of a function (`compute`) of the points and times: the programs repeat the lines of
`tide_elevations`, `LPET_elevations` and `LPT_displacements` of `/repo/pyTMD/compute.py`.  The
transformation to longitude and latitude and the conversion of times are functions of one point and of one
time.  Left out: coordinates with more than one axis, projections in the file, dates
(`TIME_STANDARD='datetime'`), permissions and logging.
-/
namespace Verif.Program
open Verif Verif.Listing Verif.Store Verif.Compute

/-- The arguments of a program, and what depends on the program. -/
structure FileSetup where
  /-- the fill value of netCDF4 for variables without one -/
  standard : ℝ
  /-- `VARIABLES` -/
  names : List String
  /-- `TIME` -/
  time : Option (List ℝ)
  lonLat : ℝ × ℝ → ℝ × ℝ
  /-- `ts.tide` and `ts.tt_ut1` of a time in the units of the file (`None`: `TIME_UNITS`) -/
  scale : Option (Value ℝ) → ℝ → ℝ × ℝ
  /-- `TYPE` -/
  type : String
  /-- `FILL_VALUE` -/
  fill : ℝ
  /-- the name and the attributes of the values, without the fill value -/
  variableName : String
  attrs : Dict (Value ℝ)
  /-- whether the values have the attribute `_FillValue` -/
  hasFill : Bool
  /-- the values for a shape, points and times -/
  compute : Nat → Nat → List (ℝ × ℝ) → List (ℝ × ℝ) → Except PyErr Out

/-- compute_tidal_elevations.py 239-241, 244-246: `dinput[name]`, all values. -/
def entry (d : Input ℝ) (name : String) : Except PyErr (List ℝ) :=
  match d.lookup name with
  | some v => .ok (v.1.vals.map Prod.fst)
  | none => .error .keyError

/-- compute_tidal_elevations.py 274-279: `attributes['time']['units']`. -/
def units (d : Input ℝ) : Option (Value ℝ) := (d.lookup "time").bind fun v => v.2.lookup "units"

/-- compute_tidal_elevations.py 393-394 (and compute_LPT_displacements.py 343-344): values with their
mask, `tide.data[tide.mask] = tide.fill_value`. -/
def cell (fill : ℝ) (v : Option ℝ) : ℝ × Bool :=
  match v with
  | some x => (x, false)
  | none => (fill, true)

/-- compute_tidal_elevations.py 339-392: the array of the values.  A grid has one list of all its points
for every time, and the array has the times in its last axis. -/
def arrayOf (fill : ℝ) (ny nx nt : Nat) : Out → Arr ℝ
  | .grid l => ⟨[ny, nx, nt], (List.range (ny * nx)).flatMap fun p =>
      l.map fun row => cell fill (row.getD p none)⟩
  | .drift l => ⟨[l.length], l.map (cell fill)⟩
  | .series l => ⟨[l.length, nt], l.flatMap fun row => row.map (cell fill)⟩

/-- compute_tidal_elevations.py 396-424: the attributes of the output. -/
def attributes (s : FileSetup) : Atts ℝ :=
  [("lat", [("long_name", .text "Latitude"), ("units", .text "Degrees_North")]),
    ("lon", [("long_name", .text "Longitude"), ("units", .text "Degrees_East")]),
    (s.variableName, s.attrs ++ if s.hasFill then [("_FillValue", .num s.fill)] else []),
    ("time", [("long_name", .text "Time"), ("calendar", .text "standard"),
      ("units", .text "days since 1992-01-01T00:00:00")])]

/-- compute_tidal_elevations.py 256-428: the arrays of the output. -/
def outputOf (s : FileSetup) (d : Input ℝ) : Except PyErr (Dict (Arr ℝ)) :=
  if s.type.toLower ∉ ["grid", "drift", "time series"] then .error .assertionError
  else if s.type ∉ ["grid", "drift", "time series"] then .error .unbound
  else do
    let y ← entry d "y"
    let x ← entry d "x"
    let t ← (match s.time with | some t => .ok t | none => entry d "time")
    let ts := t.map (s.scale (units d))
    let points := if s.type = "grid" then (y.flatMap fun v => x.map fun u => (u, v)).map s.lonLat
      else (x.zip y).map s.lonLat
    let shape := if s.type = "grid" then [y.length, x.length] else [points.length]
    let out ← s.compute y.length x.length points ts
    .ok [("lon", ⟨shape, points.map fun p => (p.1, false)⟩),
      ("lat", ⟨shape, points.map fun p => (p.2, false)⟩),
      (s.variableName, arrayOf s.fill y.length x.length ts.length out),
      ("time", ⟨[ts.length], ts.map fun p => (p.1, false)⟩)]

/-- compute_tidal_elevations.py 238-241 and 434-436: the program for netCDF4 files. -/
noncomputable def programNetCDF (s : FileSetup) (file : Dict (Var ℝ)) : Except PyErr (Dict (Var ℝ)) := by
  classical exact do
    let d ← fromNetCDF s.standard (FileNames.defaultMapping s.names) file
    let output ← outputOf s d
    let r ← toNetCDF s.standard s.type output (attributes s)
    .ok r.1

/-- compute_tidal_elevations.py 242-246 and 437-439: the program for HDF5 files. -/
noncomputable def programHDF5 (s : FileSetup) (file : Dict (Var ℝ)) : Except PyErr (Dict (Var ℝ)) := by
  classical exact do
    let d ← fromHDF5 (FileNames.defaultMapping s.names) file
    let output ← outputOf s d
    let r ← toHDF5 0 output (attributes s) []
    .ok r.1

/-- compute_tidal_elevations.py 291-394: the values of the program for tidal elevations are those of
`tide_elevations` with the constants of the model at the points. -/
noncomputable def tides (P : Predict.Env) (I : Infer.Env) (o : Options)
    (extract : List (ℝ × ℝ) → Except PyErr Extracted) (ny nx : Nat) (points ts : List (ℝ × ℝ)) :
    Except PyErr Out := do
  let m ← extract points
  tideElevations P I o ny nx m ts

/-- numpy: an array of a shape can be assigned to one of another shape when, from the last axis on, each of
its axes is as long or has length one, and all its further axes have length one. -/
def assignable (value target : List Nat) : Bool :=
  ((value.reverse.zip target.reverse).all fun p => p.1 = p.2 || p.1 = 1) &&
    (value.reverse.drop target.length).all fun n => n = 1

/-- compute_SET_displacements.py 213-219 and 247-271: the coordinates of a grid keep their two axes, and
`R[:,0,0] = np.cos(phi)*np.cos(theta)` assigns them to as many matrices as there are rows
(`npts = len(latitude_geocentric)`).  `values` stands for the rest of the program (lines 273-316). -/
def rotated (type : String) (values : Nat → Nat → List (ℝ × ℝ) → List (ℝ × ℝ) → Except PyErr Out)
    (ny nx : Nat) (points ts : List (ℝ × ℝ)) : Except PyErr Out :=
  let shape := if type = "grid" then [ny, nx] else [points.length]
  let npts := shape.headD 0
  if assignable shape [npts] then values ny nx points ts else .error .valueError

end Verif.Program
