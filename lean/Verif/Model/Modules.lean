import Verif.Model.Py
/-!
Model of the functions that pyTMD keeps under old names, and of the Python modules they are in:
`/repo/pyTMD/time.py` (56, 96-338, 341, 343-354), `/repo/pyTMD/eop.py` (31-32, 50-240),
`/repo/pyTMD/check_points.py` (82-119), `/repo/pyTMD/compute_tide_corrections.py` (109-174) and the
imports of `/repo/pyTMD/__init__.py` (14-44).

A module is the table of its global names.  Its statements fill the table in their order: `import a.b.c` binds
`a` to the package, with `b` an attribute of it and `c` one of `b`; `def` and `class` bind what they
define.  The names in the body of a function are looked up when it is called, in the table of its
module as it is by then.

Simplifications: the warnings given are not modelled; of the packages used (`timescale`, and the modules of
pyTMD that are not listed here) only the names they define are known; constants of modules are opaque values;
the modules listed here are run one after the other, where Python runs one when it is first imported: none
of them looks up, while it is being run, a name which another of them defines.
-/
namespace Verif.Modules
open Verif

/-- What a name stands for: a module, a function, a class made from another one, or anything else. -/
inductive Value where
  | module (path : List String)
  | function (home : List String) (name : String)
  | subclass (home : List String) (name : String) (base : Value)
  | other (name : String)
  deriving DecidableEq

/-- The global names of each module. -/
abbrev World := List String → String → Option Value

/-- A name is bound. -/
def World.bind (w : World) (m : List String) (name : String) (v : Value) : World :=
  fun m' name' => if m' = m ∧ name' = name then some v else w m' name'

/-- `value.name`: the names of a module; for a class its own names (none is used here), then those of the
class it is made from, which are those of a name of the package where it comes from.  Functions have none. -/
def attrOf (w : World) : Value → String → Option Value
  | .module path, name => w path name
  | .function _ _, _ => none
  | .subclass _ _ base, name => attrOf w base name
  | .other c, name => w ["class", c] name

/-- `a.b.c` in a module: the first name is a global one. -/
def resolve (w : World) (m : List String) : List String → Except PyErr Value
  | [] => .error .typeError
  | a :: path =>
    match w m a with
    | none => .error .exception
    | some v => path.foldlM (fun v name =>
        match attrOf w v name with
        | some u => .ok u
        | none => .error .attributeError) v

/-- Statements of a module. -/
inductive Stmt where
  /-- `import a.b.c` -/
  | imports (path : List String)
  /-- `from a.b.c import x, y` -/
  | importFrom (path : List String) (names : List String)
  /-- `def name(...)` -/
  | defines (name : String)
  /-- `class name(a.b.c)` -/
  | subclass (name : String) (base : List String)
  /-- `name = ...` -/
  | assigns (name : String)

/-- The submodules on the way to `path` become attributes of their packages. -/
def attach (w : World) : List String → List String → World
  | _, [] => w
  | done, name :: rest =>
    attach (if done = [] then w else w.bind done name (.module (done ++ [name]))) (done ++ [name]) rest

/-- A statement of module `m`. -/
def Stmt.run (m : List String) (w : World) : Stmt → Except PyErr World
  | .imports path =>
    match path with
    | [] => .ok w
    | a :: _ => .ok ((attach w [] path).bind m a (.module [a]))
  | .importFrom path names =>
    let w := attach w [] path
    names.foldlM (fun w' name =>
      match w path name with
      | some v => .ok (w'.bind m name v)
      | none => .error .exception) w
  | .defines name => .ok (w.bind m name (.function m name))
  | .subclass name base => do
    let b ← resolve w m base
    .ok (w.bind m name (.subclass m name b))
  | .assigns name => .ok (w.bind m name (.other name))

/-- A module is run. -/
def runModule (w : World) (m : List String) (l : List Stmt) : Except PyErr World :=
  l.foldlM (fun w s => s.run m w) w

/-- What the body of a function does: a call of a dotted name with the arguments given, the result of which is
returned or not; or a choice among calls by an argument. -/
inductive Body where
  | returns (path : List String)
  | calls (path : List String)
  | chooses (choice : String → Option (List String))

/-- time.py 110-112, 134-136, 148-150, 167-169, 191-193, 212-214, 232-234, 266-268, 298-300, 336-338;
eop.py 68-70, 93-95, 120-122, 149-151 (without `return`), 187-189, 211-213, 238-240; check_points.py 117-119;
compute_tide_corrections.py 143-158 (`lower`, `upper` given by the argument) and 160-174. -/
def body : List String → String → Option Body
  | ["pyTMD", "time"], "parse" => some (.returns ["timescale", "time", "parse"])
  | ["pyTMD", "time"], "parse_date_string" => some (.returns ["timescale", "time", "parse_date_string"])
  | ["pyTMD", "time"], "split_date_string" => some (.returns ["timescale", "time", "split_date_string"])
  | ["pyTMD", "time"], "datetime_to_list" => some (.returns ["timescale", "time", "datetime_to_list"])
  | ["pyTMD", "time"], "calendar_days" => some (.returns ["timescale", "time", "calendar_days"])
  | ["pyTMD", "time"], "convert_datetime" => some (.returns ["timescale", "time", "convert_datetime"])
  | ["pyTMD", "time"], "convert_delta_time" => some (.returns ["timescale", "time", "convert_delta_time"])
  | ["pyTMD", "time"], "convert_calendar_dates" => some (.returns ["timescale", "time", "convert_calendar_dates"])
  | ["pyTMD", "time"], "convert_calendar_decimal" =>
    some (.returns ["timescale", "time", "convert_calendar_decimal"])
  | ["pyTMD", "time"], "convert_julian" => some (.returns ["timescale", "time", "convert_julian"])
  | ["pyTMD", "eop"], "update_mean_pole" => some (.calls ["timescale", "eop", "update_mean_pole"])
  | ["pyTMD", "eop"], "calculate_mean_pole" => some (.calls ["timescale", "eop", "calculate_mean_pole"])
  | ["pyTMD", "eop"], "pull_pole_coordinates" => some (.calls ["timescale", "eop", "pull_pole_coordinates"])
  | ["pyTMD", "eop"], "update_finals_file" => some (.calls ["timescale", "eop", "update_finals_file"])
  | ["pyTMD", "eop"], "iers_mean_pole" => some (.returns ["timescale", "eop", "iers_mean_pole"])
  | ["pyTMD", "eop"], "iers_daily_EOP" => some (.returns ["timescale", "eop", "iers_daily_EOP"])
  | ["pyTMD", "eop"], "iers_polar_motion" => some (.returns ["timescale", "eop", "iers_polar_motion"])
  | ["pyTMD", "check_points"], "check_points" => some (.returns ["pyTMD", "compute", "tide_masks"])
  | ["pyTMD", "compute_tide_corrections"], "compute_corrections" => some (.chooses fun c =>
      if c.toLower ∈ ["ocean", "load"] then some ["pyTMD", "compute", "tide_elevations"]
      else if c.toUpper = "LPET" then some ["pyTMD", "compute", "LPET_elevations"]
      else if c.toUpper = "LPT" then some ["pyTMD", "compute", "LPT_displacements"]
      else if c.toUpper = "OPT" then some ["pyTMD", "compute", "OPT_displacements"]
      else if c.toUpper = "SET" then some ["pyTMD", "compute", "SET_displacements"]
      else none)
  | ["pyTMD", "compute_tide_corrections"], "compute_tide_corrections" =>
    some (.returns ["pyTMD", "compute", "tide_elevations"])
  | ["pyTMD", "compute_tide_corrections"], "compute_LPET_corrections" =>
    some (.returns ["pyTMD", "compute", "LPET_elevations"])
  | ["pyTMD", "compute_tide_corrections"], "compute_LPT_corrections" =>
    some (.returns ["pyTMD", "compute", "LPT_displacements"])
  | ["pyTMD", "compute_tide_corrections"], "compute_OPT_corrections" =>
    some (.returns ["pyTMD", "compute", "OPT_displacements"])
  | ["pyTMD", "compute_tide_corrections"], "compute_SET_corrections" =>
    some (.returns ["pyTMD", "compute", "SET_displacements"])
  | _, _ => none

/-- time.py 53-343. -/
def timeModule : List Stmt :=
  [.imports ["logging"], .imports ["warnings"], .imports ["numpy"], .imports ["timescale", "time"],
    .assigns "_to_sec", .assigns "_mjd_epoch", .assigns "_ntp_epoch", .assigns "_unix_epoch",
    .assigns "_gps_epoch", .assigns "_tide_epoch", .assigns "_j2000_epoch", .assigns "_atlas_sdp_epoch",
    .defines "parse", .defines "parse_date_string", .defines "split_date_string", .defines "datetime_to_list",
    .assigns "_dpm_leap", .assigns "_dpm_stnd", .defines "calendar_days", .defines "convert_datetime",
    .defines "convert_delta_time", .defines "convert_calendar_dates", .defines "convert_calendar_decimal",
    .defines "convert_julian", .assigns "_delta_file", .subclass "timescale" ["timescale", "time", "Timescale"]]

/-- eop.py 29-215. -/
def eopModule : List Stmt :=
  [.imports ["warnings"], .imports ["logging"], .imports ["timescale", "eop"], .imports ["timescale", "utilities"],
    .assigns "_mean_pole_file", .assigns "_finals_file", .defines "update_mean_pole",
    .defines "calculate_mean_pole", .defines "pull_pole_coordinates", .defines "update_finals_file",
    .assigns "_conventions", .defines "iers_mean_pole", .defines "iers_daily_EOP", .defines "iers_polar_motion"]

/-- check_points.py 80-85. -/
def checkModule : List Stmt :=
  [.imports ["pathlib"], .imports ["warnings"], .imports ["pyTMD", "compute"], .defines "check_points"]

/-- compute_tide_corrections.py 108-173. -/
def correctionsModule : List Stmt :=
  [.imports ["warnings"], .imports ["numpy"], .imports ["pyTMD", "compute"], .defines "compute_corrections",
    .defines "compute_tide_corrections", .defines "compute_LPET_corrections", .defines "compute_LPT_corrections",
    .defines "compute_OPT_corrections", .defines "compute_SET_corrections"]

/-- `__init__.py` 14-44. -/
def package : List Stmt :=
  [.imports ["pyTMD", "arguments"], .imports ["pyTMD", "astro"], .imports ["pyTMD", "compute"],
    .imports ["pyTMD", "ellipse"], .imports ["pyTMD", "interpolate"], .imports ["pyTMD", "math"],
    .imports ["pyTMD", "predict"], .imports ["pyTMD", "spatial"], .imports ["pyTMD", "tools"],
    .imports ["pyTMD", "utilities"], .imports ["pyTMD", "version"],
    .importFrom ["pyTMD", "check_points"] ["check_points"],
    .importFrom ["pyTMD", "compute_tide_corrections"] ["compute_corrections", "compute_tide_corrections",
      "compute_LPET_corrections", "compute_LPT_corrections", "compute_OPT_corrections",
      "compute_SET_corrections"],
    .imports ["pyTMD", "eop"], .imports ["pyTMD", "time"]]

/-- `import pyTMD`: `w` is what the other modules define. -/
def importPackage (w : World) : Except PyErr World := do
  let w ← runModule w ["pyTMD", "time"] timeModule
  let w ← runModule w ["pyTMD", "eop"] eopModule
  let w ← runModule w ["pyTMD", "check_points"] checkModule
  let w ← runModule w ["pyTMD", "compute_tide_corrections"] correctionsModule
  runModule w ["pyTMD"] package

variable {A R : Type}

/-- A call of a value with arguments; `choice` reads the argument `CORRECTION`, `rest` are the others, `given` are the functions of
other modules, which may change what is outside (`S`); `none` is returned without `return`. -/
def call {S : Type} (w : World) (given : Value → A → S → Except PyErr R × S) (choice : A → String) (rest : A → A) (none : R)
    (v : Value) (a : A) (s : S) : Except PyErr R × S :=
  match v with
  | .function home name =>
    match body home name with
    | some (.returns path) =>
      match resolve w home path with
      | .ok u => given u a s
      | .error e => (.error e, s)
    | some (.calls path) =>
      match resolve w home path with
      | .ok u =>
        match given u a s with
        | (.ok _, s') => (.ok none, s')
        | (.error e, s') => (.error e, s')
      | .error e => (.error e, s)
    | some (.chooses f) =>
      match f (choice a) with
      | some path =>
        match resolve w home path with
        | .ok u => given u (rest a) s
        | .error e => (.error e, s)
      | Option.none => (.error .valueError, s)
    | Option.none => given v a s
  | _ => given v a s

end Verif.Modules
