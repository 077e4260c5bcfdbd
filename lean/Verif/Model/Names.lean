import Verif.Model.Definition
/-!
Model of the names and descriptions of what a model gives (`/repo/pyTMD/io/model.py` 326-451): the variables
of the products of ICESat and ICESat-2 and the attributes of files.
-/
namespace Verif.Names
open Verif Verif.Definition

variable {P : Type}

/-- `x == v` for a string `v`. -/
def isStr (v : String) : Val P → Bool
  | .str s => s = v
  | _ => false

/-- `(self.type == 'z') and (self.variable == v)` -/
def gives (s : Attrs P) (v : String) : Bool := isZ (s "type") && isStr v (s "variable")

/-- The chain of tests of each of the properties of a product. -/
def choose (ocean load lpe : String) (s : Attrs P) : Option String :=
  if gives s "tide_ocean" then some ocean
  else if gives s "tide_load" then some load
  else if gives s "tide_lpe" then some lpe
  else none

/-- model.py 326-337 -/
def atl03 : Attrs P → Option String := choose "tide_ocean" "tide_load" "tide_equilibrium"
/-- model.py 339-350 -/
def atl06 : Attrs P → Option String := choose "tide_ocean" "tide_load" "tide_equilibrium"
/-- model.py 352-363 -/
def atl07 : Attrs P → Option String :=
  choose "height_segment_ocean" "height_segment_load" "height_segment_lpe"
/-- model.py 365-376 -/
def atl10 : Attrs P → Option String :=
  choose "height_segment_ocean" "height_segment_load" "height_segment_lpe"
/-- model.py 378-389 -/
def atl11 : Attrs P → Option String := choose "tide_ocean" "tide_load" "tide_equilibrium"
/-- model.py 391-402 -/
def atl12 : Attrs P → Option String := choose "tide_ocean_seg" "tide_load_seg" "tide_equilibrium_seg"
/-- model.py 404-415 -/
def gla12 : Attrs P → Option String := choose "d_ocElv" "d_ldElv" "d_eqElv"

/-- A text or one each for the two components of currents. -/
inductive Text where
  | one (s : String)
  | two (u v : String)
deriving DecidableEq

/-- The chain of tests of `long_name` and `description`. -/
def describe (ocean load lpe u v : String) (s : Attrs P) : Option Text :=
  if gives s "tide_ocean" then some (.one ocean)
  else if gives s "tide_load" then some (.one load)
  else if gives s "tide_lpe" then some (.one lpe)
  else if isUV (s "type") then some (.two u v)
  else none

/-- model.py 417-430 -/
def longName : Attrs P → Option Text :=
  describe "ocean_tide_elevation" "load_tide_elevation" "equilibrium_tide_elevation" "zonal_tidal_current"
    "meridional_tidal_current"

/-- model.py 432-451 -/
def description : Attrs P → Option Text :=
  describe "Ocean tidal elevations derived from harmonic constants"
    "Local displacement due to ocean tidal loading derived from harmonic constants"
    "Long-period equilibrium tide elevations"
    "Depth-averaged tidal zonal current derived from harmonic constants"
    "Depth-averaged tidal meridional current derived from harmonic constants"

/-- The properties by name, as `getattr(model, name)` finds them. -/
def product (name : String) (s : Attrs P) : Option String :=
  match name with
  | "atl03" => atl03 s
  | "atl06" => atl06 s
  | "atl07" => atl07 s
  | "atl10" => atl10 s
  | "atl11" => atl11 s
  | "atl12" => atl12 s
  | "gla12" => gla12 s
  | _ => none

end Verif.Names
