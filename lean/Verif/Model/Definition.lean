import Verif.Model.Py
import Verif.Model.Parse
/-!
Model of the definition of a tide model (`/repo/pyTMD/io/model.py`): selecting a model of the
database (229-294, 604-628), dictionaries of attributes (850-912) and definition files (630-848,
914-934).

The attributes of the object are a function from names to values (`None` where an attribute is not
set).  Paths are an abstract type with the operations of `pathlib` that are used.  Reading and
writing JSON keeps every value that has no path in it; the definition does not set `directory`.
-/
namespace Verif.Definition
open Verif

/-- The Python values of attributes. -/
inductive Val (P : Type) where
  | null
  | bool (b : Bool)
  | num (text : String)
  | str (s : String)
  | path (p : P)
  | list (l : List (Val P))
  | dict (d : List (String × Val P))

variable {P : Type}

/-- The operations on paths: `str(p)`, `pathlib.Path(s)`, `p.expanduser()`,
`d.joinpath(s)`, `p.resolve()`, `p.name`, `p.exists()`, `list(d.glob(s))`, and `str` of any value. -/
structure Sys (P : Type) where
  toStr : P → String
  ofStr : String → P
  expand : P → P
  join : P → P → P
  resolve : P → P
  base : P → String
  exists_ : P → Bool
  glob : P → String → List P
  pyStr : Val P → String

/-- The attributes of the object. -/
abbrev Attrs (P : Type) := String → Val P

/-- model.py 203-227: a new object, its `directory` apart. -/
def fresh (compressed : Bool) : Attrs P := fun k =>
  if k = "compressed" then .bool compressed
  else if k = "flexure" then .bool false
  else if k = "verify" then .bool true
  else .null

def set (s : Attrs P) (k : String) (v : Val P) : Attrs P := fun k' => if k' = k then v else s k'

/-- model.py 850-862, `from_dict` -/
def fromDict (s : Attrs P) (d : List (String × Val P)) : Attrs P :=
  d.foldl (fun s kv => set s kv.1 kv.2) s

/-- Truth of a value. -/
def truthy : Val P → Bool
  | .null => false
  | .bool b => b
  | .num t => t ≠ "0" ∧ t ≠ "0.0"
  | .str s => s ≠ ""
  | .path _ => true
  | .list l => !l.isEmpty
  | .dict d => !d.isEmpty

def isNull : Val P → Bool
  | .null => true
  | _ => false

/-- `x == 'z'` -/
def isZ : Val P → Bool
  | .str s => s = "z"
  | _ => false

/-- `x == ['u','v']` -/
def isUV : Val P → Bool
  | .list [.str a, .str b] => a = "u" ∧ b = "v"
  | _ => false

/-- model.py 864-891, `to_dict` without serialisation: the fields that are set, in order.  The
default is the list of 875-876. -/
def toDict (s : Attrs P) (fields : List String) : List (String × Val P) :=
  (fields.filter fun k => !isNull (s k)).map fun k => (k, s k)

def defaultFields : List String :=
  ["name", "format", "type", "grid_file", "model_file", "projection", "variable", "scale",
    "constituents", "version", "reference"]

mutual
/-- model.py 903-910, one value of `serialize` -/
def serializeVal (S : Sys P) : Val P → Except PyErr (Val P)
  | .path p => .ok (.str (S.toStr p))
  | .list [] => .error .indexError
  | .list (.path p :: t) =>
    .ok (.list (.str (S.toStr p) :: t.map fun v => match v with
      | .path q => .str (S.toStr q)
      | .str s => .str s
      | v => .str (S.pyStr v)))
  | .dict d => do
    let d' ← serialize S d
    .ok (.dict d')
  | v => .ok v
/-- model.py 893-912, `serialize` -/
def serialize (S : Sys P) : List (String × Val P) → Except PyErr (List (String × Val P))
  | [] => .ok []
  | (k, v) :: t => do
    let v' ← serializeVal S v
    let t' ← serialize S t
    .ok ((k, v') :: t')
end

mutual
/-- A value that JSON can hold. -/
def jsonable : Val P → Bool
  | .path _ => false
  | .list l => jsonables l
  | .dict d => jsonDict d
  | _ => true
def jsonables : List (Val P) → Bool
  | [] => true
  | v :: t => jsonable v && jsonables t
def jsonDict : List (String × Val P) → Bool
  | [] => true
  | (_, v) :: t => jsonable v && jsonDict t
end

/-- model.py 837-848, `validate_format`: the short names are replaced one after the other;
`formats` (454-466) are those that occur in the database. -/
def validateFormat (formats : List String) (format : Val P) : Except PyErr String :=
  match format with
  | .str f =>
    let f' := [("ATLAS", "ATLAS-compact"), ("netcdf", "ATLAS-netcdf"), ("FES", "FES-netcdf"),
      ("GOT", "GOT-ascii")].foldl (fun f m => if f = m.1 then m.2 else f) f
    if f' ∈ formats then .ok f' else .error .assertionError
  | _ => .error .assertionError

/-- `f.partition('-')`: what comes before the first hyphen, and what comes after it. -/
def partition : List Char → List Char × List Char
  | [] => ([], [])
  | c :: t => if c = '-' then ([], t) else (c :: (partition t).1, (partition t).2)

/-- model.py 302-311, `corrections` -/
def corrections (format : String) : String :=
  if format = "GOT-ascii" then "perth3" else String.ofList (partition format.toList).1

/-- model.py 313-324, `file_format`; the first test is whether the format is a part of the text. -/
def fileFormat (format : String) : String :=
  if Parse.occurs format.toList "ATLAS-compact".toList then
    String.ofList (partition format.toList).1
  else if '-' ∈ format.toList then String.ofList (partition format.toList).2
  else format

/-- `pathlib.Path(v)` -/
def toPath (S : Sys P) : Val P → Except PyErr P
  | .str s => .ok (S.ofStr s)
  | .path p => .ok p
  | _ => .error .typeError

/-- `for f in v` -/
def iterate : Val P → Except PyErr (List (Val P))
  | .str s => .ok (s.toList.map fun c => .str (String.singleton c))
  | .list l => .ok l
  | .dict d => .ok (d.map fun kv => .str kv.1)
  | _ => .error .typeError

/-- `pathlib.Path(f).expanduser()` -/
def expanded (S : Sys P) (v : Val P) : Except PyErr (Val P) := do
  let p ← toPath S v
  .ok (.path (S.expand p))

/-- `[pathlib.Path(f).expanduser() for f in v]` -/
def expandedList (S : Sys P) (v : Val P) : Except PyErr (Val P) := do
  let l ← iterate v
  let ps ← pyMap (expanded S) l
  .ok (.list ps)

/-- model.py 712-720: glob strings; what is neither a string nor iterable is left. -/
def globbed (S : Sys P) (dir : P) (v : Val P) : Except PyErr (Val P) :=
  match v with
  | .str s => .ok (.list ((S.glob dir s).map .path))
  | .list l => do
    let ps ← pyMap (fun w => match w with
      | .str s => .ok (S.glob dir s)
      | _ => .error .typeError) l
    .ok (.list (ps.flatten.map .path))
  | .dict d => .ok (.list ((d.map fun kv => S.glob dir kv.1).flatten.map .path))
  | v => .ok v

/-- `for key, val in v.items(): v[key] = f(val)` -/
def mapItems (f : Val P → Except PyErr (Val P)) : Val P → Except PyErr (Val P)
  | .dict d => do
    let l ← pyMap (fun kv => do
      let v ← f kv.2
      .ok (kv.1, v)) d
    .ok (.dict l)
  | _ => .error .attributeError

/-- model.py 700-704, the grid file -/
def gridPath (S : Sys P) (dir : Option P) (v : Val P) : Except PyErr (Val P) := do
  if !truthy v then .error .assertionError
  else
    let p ← toPath S v
    match dir with
    | some d => .ok (.path (S.resolve (S.join d p)))
    | none => .ok (.path (S.expand p))

def otisFormats : List String := ["OTIS", "ATLAS-compact", "TMD3"]
def otherFormats : List String := ["FES-ascii", "FES-netcdf", "GOT-ascii", "GOT-netcdf"]
def fesFormats : List String := ["FES-ascii", "FES-netcdf"]

/-- `self.format in ('FES-ascii','FES-netcdf',)` -/
def isFes : Val P → Bool
  | .str f => f ∈ fesFormats
  | _ => false

/-- model.py 706-812, the model files -/
def modelPaths (S : Sys P) (dir : Option P) (format : String) (type v : Val P) :
    Except PyErr (Val P) :=
  match dir with
  | some d =>
    if isUV type then mapItems (globbed S d) v
    else if isZ type then globbed S d v
    else if format ∈ otisFormats then expanded S v
    else .ok v
  | none =>
    if format ∈ otisFormats then
      match v with
      | .dict _ => if isUV type then mapItems (expandedList S) v else expanded S v
      | .list _ => if isZ type then expandedList S v else expanded S v
      | v => expanded S v
    else if isUV type then mapItems (expandedList S) v
    else if isZ type then expandedList S v
    else .ok v

/-- model.py 960-968, `parse_file` of one file -/
def constituentOf (S : Sys P) (v : Val P) : Except PyErr (Val P) := do
  let p ← toPath S v
  match Parse.parse (S.base p) with
  | .ok c => .ok (.str c)
  | .error _ => .ok .null

/-- model.py 914-934, `parse_constituents`: the new list of constituents -/
def parseConstituents (S : Sys P) (model old : Val P) : Except PyErr (Val P) :=
  let ofFiles (v : Val P) (other : Except PyErr (Val P)) : Except PyErr (Val P) :=
    match v with
    | .str _ => do
      let c ← constituentOf S v
      .ok (.list [c])
    | .path _ => do
      let c ← constituentOf S v
      .ok (.list [c])
    | .list l => do
      let cs ← pyMap (constituentOf S) l
      .ok (.list cs)
    | _ => other
  match model with
  | .dict d =>
    match d.find? (fun kv => kv.1 = "u") with
    | some kv => ofFiles kv.2 (.ok old)
    | none => .error .keyError
  | v => ofFiles v (.ok old)

/-- What is worked out for an object: format, grid file, model files and constituents. -/
structure Found (P : Type) where
  format : String
  grid : Val P
  model : Val P
  constituents : Val P

/-- The object with them. -/
def update (s : Attrs P) (x : Found P) : Attrs P :=
  set (set (set (set s "format" (.str x.format)) "grid_file" x.grid) "model_file" x.model)
    "constituents" x.constituents

/-- model.py 693-833: the assertions and paths of a definition. -/
def definitionFound (S : Sys P) (formats : List String) (dir : Option P) (s : Attrs P) :
    Except PyErr (Found P) :=
  if truthy (s "name") = false then .error .assertionError
  else do
    let f ← validateFormat formats (s "format")
    if truthy (s "type") = false ∨ truthy (s "model_file") = false then .error .assertionError
    else do
      let g ← (if f ∈ otisFormats ∨ f = "ATLAS-netcdf" then gridPath S dir (s "grid_file")
        else .ok (s "grid_file"))
      let m ← (if f ∈ otisFormats ∨ f = "ATLAS-netcdf" ∨ f ∈ otherFormats then
          modelPaths S dir f (s "type") (s "model_file")
        else .ok (s "model_file"))
      if f ∈ otisFormats ∧ truthy (s "projection") = false then .error .assertionError
      else if (f = "ATLAS-netcdf" ∨ f ∈ otherFormats) ∧ truthy (s "scale") = false then
        .error .assertionError
      else if f ∈ fesFormats ∧ truthy (s "version") = false then .error .assertionError
      else do
        let c ← (if f ∈ fesFormats ∧ isNull (s "constituents") = true then
            parseConstituents S m (s "constituents")
          else .ok (s "constituents"))
        .ok ⟨f, g, m, c⟩

/-- model.py 679-835, `_parse_json`: the object after a definition is read. -/
def parseDefinition (S : Sys P) (formats : List String) (dir : Option P) (s0 : Attrs P)
    (d : List (String × Val P)) : Except PyErr (Attrs P) := do
  let x ← definitionFound S formats dir (fromDict s0 d)
  .ok (update (fromDict s0 d) x)

/-- model.py 616-620: one file.  Of a value that is no string the variable `valid` is not bound. -/
def oneFile (S : Sys P) (dir : P) (compressed verify : Bool) (v : Val P) : Except PyErr (Val P) :=
  match v with
  | .str f =>
    let p := S.join dir (S.ofStr (f ++ if compressed then ".gz" else ""))
    if verify = true ∧ S.exists_ p = false then .error .fileNotFound else .ok (.path p)
  | _ => .error .unbound

/-- model.py 604-628, `pathfinder`: of a string or a list of strings. -/
def pathfinder (S : Sys P) (dir : P) (compressed verify : Bool) (v : Val P) :
    Except PyErr (Val P) :=
  match v with
  | .list l => do
    let ps ← pyMap (oneFile S dir compressed verify) l
    .ok (.list ps)
  | v => oneFile S dir compressed verify v

/-- model.py 246-258 and 279-292: the paths and constituents of a selected model. -/
def selectFound (S : Sys P) (formats : List String) (dir : P) (currents : Bool) (s : Attrs P) :
    Except PyErr (Found P) := do
  let find := pathfinder S dir (truthy (s "compressed")) (truthy (s "verify"))
  let g ← (if truthy (s "grid_file") = true then find (s "grid_file") else .ok (s "grid_file"))
  let m ← (if currents = true then mapItems find (s "model_file") else find (s "model_file"))
  let c ← (if isFes (s "format") = true then parseConstituents S m (s "constituents")
    else .ok (s "constituents"))
  let f ← validateFormat formats (s "format")
  .ok ⟨f, g, m, c⟩

/-- model.py 229-294, `elevation` (`currents := false`) and `current`, after the entry of the
database is found; the working directory is set. -/
def select (S : Sys P) (formats : List String) (dir : P) (currents : Bool) (s0 : Attrs P)
    (entry : List (String × Val P)) : Except PyErr (Attrs P) := do
  let x ← selectFound S formats dir currents (fromDict s0 entry)
  .ok (update (fromDict s0 entry) x)

end Verif.Definition
