import Verif.Model.Py
import Mathlib.Algebra.Field.Defs
/-!
Model of files in the netCDF format of ATLAS models (`/repo/pyTMD/io/ATLAS.py` 689-1205):
bathymetry, elevations and transports.

A masked array is its shape and its cells; a masked cell is `none`.  A file is its dimensions, its
coordinates, its variables and the letters of its constituent.  The netCDF library is taken to
store the fill value, zero, for masked cells, to return the numbers and letters that were written,
and to refuse an array of another shape (it broadcasts dimensions of length one, which is left
out).  Attributes, types of numbers and compression are left out.
-/
namespace Verif.AtlasFile
open Verif

/-- An array of `ny` rows and `nx` columns. -/
structure Arr (C : Type) where
  ny : Nat
  nx : Nat
  cell : Nat → Nat → Option C

/-- A variable with dimensions `('nx','ny')`, without a mask: zero is the fill value. -/
structure Var (K : Type) where
  d0 : Nat
  d1 : Nat
  val : Nat → Nat → K

structure File (K : Type) where
  nx : Nat
  ny : Nat
  coords : List (String × List K)
  vars : List (String × Var K)
  con : List Char

variable {K : Type} [Zero K]

/-- `nc[key][:] = a[:].T` with `fill_value=0` (ATLAS.py 990-992, 1047-1048, 1147-1150). -/
def store {C : Type} (nx ny : Nat) (part : C → K) (a : Arr C) : Except PyErr (Var K) :=
  if a.nx = nx ∧ a.ny = ny then
    .ok ⟨nx, ny, fun j i => match a.cell i j with
      | some z => part z
      | none => 0⟩
  else .error .indexError

/-- `nc[key][:] = x[:]` for a coordinate. -/
def storeCoord (n : Nat) (x : List K) : Except PyErr (List K) :=
  if x.length = n then .ok x else .error .indexError

/-- `[char.encode('utf8') for char in constituent.ljust(4)]` to a variable of four letters
(ATLAS.py 1073-1075, 1180-1182). -/
def storeName (constituent : String) : Except PyErr (List Char) :=
  let l := constituent.toList ++ List.replicate (4 - constituent.length) ' '
  if l.length = 4 then .ok l else .error .indexError

/-- `output_netcdf_grid`, ATLAS.py 956-1015. -/
def writeGrid (hz hu hv : Arr K) (lonZ latZ lonU latU lonV latV : List K) : Except PyErr (File K) := do
  let x1 ← storeCoord hz.nx lonZ
  let y1 ← storeCoord hz.ny latZ
  let x2 ← storeCoord hz.nx lonU
  let y2 ← storeCoord hz.ny latU
  let x3 ← storeCoord hz.nx lonV
  let y3 ← storeCoord hz.ny latV
  let z ← store hz.nx hz.ny id hz
  let u ← store hz.nx hz.ny id hu
  let v ← store hz.nx hz.ny id hv
  .ok ⟨hz.nx, hz.ny, [("lon_z", x1), ("lat_z", y1), ("lon_u", x2), ("lat_u", y2), ("lon_v", x3),
    ("lat_v", y3)], [("hz", z), ("hu", u), ("hv", v)], []⟩

/-- `output_netcdf_elevation`, ATLAS.py 1040-1090.  A complex number is a pair. -/
def writeElevation (h : Arr (K × K)) (lon lat : List K) (constituent : String) :
    Except PyErr (File K) := do
  let x ← storeCoord h.nx lon
  let y ← storeCoord h.ny lat
  let re ← store h.nx h.ny Prod.fst h
  let im ← store h.nx h.ny Prod.snd h
  let con ← storeName constituent
  .ok ⟨h.nx, h.ny, [("lon_z", x), ("lat_z", y)], [("hRe", re), ("hIm", im)], con⟩

/-- `output_netcdf_transport`, ATLAS.py 1121-1195. -/
def writeTransport (u v : Arr (K × K)) (lonU latU lonV latV : List K) (constituent : String) :
    Except PyErr (File K) := do
  let x1 ← storeCoord u.nx lonU
  let y1 ← storeCoord u.ny latU
  let x2 ← storeCoord u.nx lonV
  let y2 ← storeCoord u.ny latV
  let ure ← store u.nx u.ny Prod.fst u
  let uim ← store u.nx u.ny Prod.snd u
  let vre ← store u.nx u.ny Prod.fst v
  let vim ← store u.nx u.ny Prod.snd v
  let con ← storeName constituent
  .ok ⟨u.nx, u.ny, [("lon_u", x1), ("lat_u", y1), ("lon_v", x2), ("lat_v", y2)],
    [("uRe", ure), ("uIm", uim), ("vRe", vre), ("vIm", vim)], con⟩

/-- `fileID.variables[key]` -/
def getVar (f : File K) (key : String) : Except PyErr (Var K) :=
  match f.vars.lookup key with
  | some v => .ok v
  | none => .error .keyError

/-- `fileID.variables[key]` for a coordinate -/
def getCoord (f : File K) (key : String) : Except PyErr (List K) :=
  match f.coords.lookup key with
  | some v => .ok v
  | none => .error .keyError

/-- Assignment of a variable, transposed, to an array of `ny` rows and `nx` columns. -/
def fits (f : File K) (v : Var K) : Except PyErr (Nat → Nat → K) :=
  if v.d0 = f.nx ∧ v.d1 = f.ny then .ok fun i j => v.val j i else .error .valueError

/-- The letters of the names of variables for a type of bathymetry (ATLAS.py 740-758). -/
def gridLetter (type : String) : Option String :=
  if type = "z" then some "z"
  else if type = "U" ∨ type = "u" then some "u"
  else if type = "V" ∨ type = "v" then some "v"
  else none

/-- `read_netcdf_grid`, ATLAS.py 721-763: coordinates and bathymetry; another type leaves the
coordinates unbound. -/
def readGrid [DecidableEq K] (f : File K) (type : String) : Except PyErr (List K × List K × Arr K) :=
  match gridLetter type with
  | none => .error .unbound
  | some t => do
    let v ← getVar f ("h" ++ t)
    let b ← fits f v
    let lon ← getCoord f ("lon_" ++ t)
    let lat ← getCoord f ("lat_" ++ t)
    .ok (lon, lat, ⟨f.ny, f.nx, fun i j => if b i j = 0 then none else some (b i j)⟩)

/-- `con.strip()` for names padded with blanks. -/
def trim (l : List Char) : String :=
  String.ofList ((l.dropWhile (· = ' ')).reverse.dropWhile (· = ' ')).reverse

/-- The two parts of a constituent (ATLAS.py 838-841, 894-902); no cell is masked. -/
def readParts (f : File K) (re im : String) : Except PyErr (Arr (K × K) × String) := do
  let r ← getVar f re
  let a ← fits f r
  let i ← getVar f im
  let b ← fits f i
  .ok (⟨f.ny, f.nx, fun i j => some (a i j, b i j)⟩, trim f.con)

/-- `read_netcdf_file` with `read_netcdf_elevation` and `read_netcdf_transport`, ATLAS.py 766-910;
another type returns `None`. -/
def readFile (f : File K) (type : String) : Except PyErr (Option (Arr (K × K) × String)) :=
  if type = "z" then (readParts f "hRe" "hIm").map some
  else if type = "U" ∨ type = "u" then (readParts f "uRe" "uIm").map some
  else if type = "V" ∨ type = "v" then (readParts f "vRe" "vIm").map some
  else .ok none

/-- `hc.mask[:] |= bathymetry.mask[:]` (ATLAS.py 333, 481). -/
def maskBy {C : Type} (hc : Arr C) (bathymetry : Arr K) : Arr C where
  ny := hc.ny
  nx := hc.nx
  cell := fun i j => if (bathymetry.cell i j).isNone then none else hc.cell i j

end Verif.AtlasFile
