import Verif.Model.ExtractOTIS
import Verif.Model.OTIS
/-!
Model of reading consolidated netCDF files of TMD3 (`/repo/pyTMD/io/OTIS.py` 1079-1121, 1153-1158, 1692-1743) and of
extracting constants from them (276-279, 404-450).

A file is given by its variables and the attribute with the names of the constituents (ASCII).  Numbers are exact, no
element of a variable is masked when it is read, and the variables have the shape of the dimensions.  The depths are a
masked array here; its mask is where they are 0, which the code masks again, so it is left out.
-/
namespace Verif.TMD3
open Verif Verif.Extract Verif.Staggered

variable {K : Type} [Field K] [LinearOrder K] [IsStrictOrderedRing K]

/-- A file: coordinates, water column thickness, mask, flexure in percent, the attribute `constituent_order`, and the
arrays of the constants by constituent, row and column. -/
structure File (K : Type) where
  x : List K
  y : List K
  wct : List (List K)
  mask : List (List ℤ)
  flexure : List (List K)
  order : List UInt8
  vars : List (String × List (List (List K)))

/-- OTIS.py 1105-1113, `read_netcdf_grid`: the rows are read from the last to the first.  The mask is not 0 at points
of the sea. -/
def site (f : File K) : Site K :=
  ⟨f.x, f.y.reverse, f.wct.reverse, f.mask.reverse.map fun r => r.map fun v => decide (v ≠ 0)⟩

/-- OTIS.py 1115-1118: the scale factor; it is masked where it is 0. -/
def scale (f : File K) : List (List K) := f.flexure.reverse.map fun r => r.map fun v => v / 100

/-- OTIS.py 1157: `constituent_order.split()`. -/
def names (f : File K) : List (List UInt8) := OTIS.splitWords [] f.order

/-- `fileID.variables[name][ic,::-1,:]`. -/
def slab (f : File K) (name : String) (ic : ℕ) : Except PyErr (List (List K)) :=
  match f.vars.lookup name with
  | none => .error .keyError
  | some v => match v[ic]? with
    | none => .error .indexError
    | some m => .ok m.reverse

/-- The names of the variables, OTIS.py 1729-1738. -/
def letter : Node → String
  | .z => "h"
  | .u => "U"
  | .v => "V"

/-- OTIS.py 1692-1743, `read_netcdf_file`. -/
def field (f : File K) (node : Node) (ic : ℕ) : Except PyErr (List (List (Fld K))) := do
  let re ← slab f (letter node ++ "Re") ic
  let im ← slab f (letter node ++ "Im") ic
  .ok (zipMatrix (fun a b => ⟨a, -b, false⟩) re im)

/-- `hc *= sf` (OTIS.py 417-418, 686-687): where the factor is masked the product is masked and the number kept. -/
def flexed (sf : List (List K)) (hc : List (List (Fld K))) : List (List (Fld K)) :=
  zipMatrix (fun c s => if s = 0 then ⟨c.re, c.im, true⟩ else ⟨c.re * s, c.im * s, c.masked⟩) hc sf

/-- OTIS.py 401-450: the constants of one constituent; flexure applies to elevations. -/
def constants (g f : File K) (node : Node) (flexure : Bool) (ic : ℕ) : Except PyErr (List (List (Fld K))) := do
  let hc ← field f node ic
  .ok (if node = .z ∧ flexure = true then flexed (scale g) hc else hc)

/-- OTIS.py 172-520, `extract_constants` with `grid='TMD3'`: names of the constituents, depths and constants.  `g` is
the grid file and `f` the model file. -/
def extract (r : Ask K) (flexure : Bool) (g f : File K) (pts : List (K × K)) :
    Except PyErr (List (List UInt8) × List (Option K) × List (List (Out K))) := do
  let hcs ← pyMap (constants g f r.quantity.node flexure) (List.range (names f).length)
  let (d, outs) ← Staggered.extract r (site g) hcs pts
  .ok (names f, d, outs)

end Verif.TMD3
