import Verif.Model.Py
import Verif.Model.Database
/-!
Model of the database of tide models and of the lists of models: `/repo/pyTMD/io/model.py` lines
85-131 (`DataBase`, `load_database`), 243-249 and 276-282 (the look-up in `elevation` and `current`)
and 454-596 (`formats`, `ocean_elevation`, ..., `FES`).

A JSON file is an object of sections, each an object of models; objects are association lists with
distinct keys.  Simplification: a section is always an object of models, and files are readable.
-/
namespace Verif.Listing
open Verif

variable {E : Type}

/-- An object: keys with values in order. -/
abbrev Dict (V : Type) := List (String × V)

/-- `d[k] = v`: a key that is present keeps its place, a new key goes to the end. -/
def put {V : Type} (k : String) (v : V) : Dict V → Dict V
  | [] => [(k, v)]
  | p :: d => if p.1 = k then (k, v) :: d else p :: put k v d

/-- `d.update(other)`. -/
def update {V : Type} (d other : Dict V) : Dict V := other.foldl (fun d p => put p.1 p.2 d) d

/-- model.py 85-89, the class `DataBase`: its two sections. -/
structure DataBase (E : Type) where
  current : Dict E
  elevation : Dict E

/-- `DataBase(**parameters)`: exactly the keywords `current` and `elevation`. -/
def build (d : Dict (Dict E)) : Except PyErr (DataBase E) :=
  if d.all (fun p => p.1 = "current" ∨ p.1 = "elevation") then
    match d.lookup "current", d.lookup "elevation" with
    | some c, some e => .ok ⟨c, e⟩
    | _, _ => .error .typeError
  else .error .typeError

/-- model.py 107-131, `load_database`: the database of the package and the additional ones. -/
def load (package : Dict (Dict E)) (extra : List (Dict (Dict E))) : Except PyErr (DataBase E) :=
  build (extra.foldl update package)

/-- model.py 243-249 and 276-282: the entry of a model for elevations or currents. -/
def select (package : Dict (Dict E)) (extra : List (Dict (Dict E))) (currents : Bool) (m : String) :
    Except PyErr E := do
  let d ← load package extra
  match (if currents then d.current else d.elevation).lookup m with
  | some e => .ok e
  | none => .error .valueError

/-- What the lists look at in an entry: the types, the format and the variable if there is one.
`z = true` is `val['type'] == 'z'`. -/
structure Info where
  format : String
  z : Bool
  var : Option String

/-- `sorted(set(l))`. -/
def sortedSet (l : List String) : List String :=
  l.foldr (fun a acc => if a ∈ acc then acc else
    acc.takeWhile (fun b => b < a) ++ a :: acc.dropWhile (fun b => b < a)) []

/-- model.py 454-466, `formats`. -/
def formats (d : DataBase Info) : List String :=
  sortedSet ((d.current ++ d.elevation).map (fun p => p.2.format))

/-- `(val['type'] == 'z') and (val['variable'] == v)`; without a variable a `KeyError`. -/
def hasVariable (v : String) (i : Info) : Except PyErr Bool :=
  if i.z then
    match i.var with
    | some w => .ok (w = v)
    | none => .error .keyError
  else .ok false

/-- model.py 475-481: the names kept by a loop. -/
def keepNames (test : Info → Except PyErr Bool) : Dict Info → Except PyErr (List String)
  | [] => .ok []
  | p :: d => do
    let b ← test p.2
    let l ← keepNames test d
    .ok (if b then p.1 :: l else l)

/-- model.py 468-483, `ocean_elevation`. -/
def oceanElevation (d : DataBase Info) : Except PyErr (List String) := do
  let l ← keepNames (fun i => do
    if (← hasVariable "tide_ocean" i) then .ok true else hasVariable "tide_lpe" i) d.elevation
  .ok (sortedSet l)

/-- model.py 485-498, `load_elevation`. -/
def loadElevation (d : DataBase Info) : Except PyErr (List String) := do
  let l ← keepNames (hasVariable "tide_load") d.elevation
  .ok (sortedSet l)

/-- model.py 500-512, `ocean_current`. -/
def oceanCurrent (d : DataBase Info) : List String := sortedSet (d.current.map Prod.fst)

/-- model.py 514-596, the lists by format. -/
def byFormat (fs : List String) (d : DataBase Info) : List String :=
  sortedSet ((d.elevation.filter (fun p => p.2.format ∈ fs)).map Prod.fst)

/-- model.py 514-527 -/
def listOTIS : DataBase Info → List String := byFormat ["OTIS"]
/-- model.py 529-542 -/
def listATLASCompact : DataBase Info → List String := byFormat ["ATLAS-compact"]
/-- model.py 544-557 -/
def listTMD3 : DataBase Info → List String := byFormat ["TMD3"]
/-- model.py 559-572 -/
def listATLAS : DataBase Info → List String := byFormat ["ATLAS-netcdf"]
/-- model.py 574-587 -/
def listGOT : DataBase Info → List String := byFormat ["GOT-ascii", "GOT-netcdf"]
/-- model.py 589-602 -/
def listFES : DataBase Info → List String := byFormat ["FES-ascii", "FES-netcdf"]

/-- The elevation models of `database.json` whose variable is not `tide_ocean`. -/
def others : List (String × String) := [
  ("CATS2008_load", "tide_load"), ("EOT20_load", "tide_load"), ("FES2014_load", "tide_load"),
  ("FES2022_load", "tide_load"), ("GOT4.10_load", "tide_load"), ("GOT4.7_load", "tide_load"),
  ("GOT4.8_load", "tide_load"), ("GOT5.5_load", "tide_load"), ("RE14", "tide_lpe"),
  ("TPXO7.2_load", "tide_load")]

/-- `database.json` as the lists see it: `variable` is in the entries of elevations only. -/
def shipped : DataBase Info where
  current := Database.current.map fun e => (e.key, ⟨e.format, e.types == ["z"], none⟩)
  elevation := Database.elevation.map fun e =>
    (e.key, ⟨e.format, e.types == ["z"], some ((others.lookup e.key).getD "tide_ocean")⟩)

end Verif.Listing
