import Verif.Model.Py
/-!
Model of the methods of `pyTMD.io.model` that work on an object
(`/repo/pyTMD/io/model.py` 303-324, 837-848, 970-1175).

The readers of the file formats are inputs (`World`); their own models are in `Verif.Model.OTIS`
and others.  Points, and the options of interpolation, are fixed.  A column is what a reader
returns for one constituent.
-/
namespace Verif.TideModel
open Verif

/-- One file, or a list of files. -/
inductive Paths where
  | one (p : String) | many (ps : List String)
  deriving DecidableEq, Repr

/-- `model_file`: files, or a dictionary of files for each component of a current. -/
inductive ModelFile where
  | paths (p : Paths) | dict (d : List (String × Paths))
  deriving DecidableEq, Repr

/-- The attributes that are used here; `constituents` is `None` until set. -/
structure State where
  format : String
  file : ModelFile
  constituents : Option (List String)
  deriving DecidableEq

/-- The files and their readers.  The readers of the formats other than FES return names with
their columns. -/
structure World (C : Type) where
  present : String → Bool
  otis : Paths → String → Except PyErr (List (String × C))
  atlas : Paths → String → Except PyErr (List (String × C))
  got : ModelFile → String → Except PyErr (List (String × C))
  fes : String → String → Except PyErr C
  /-- `node_equilibrium` -/
  node : C

/-- `format in ('OTIS', 'ATLAS-compact', 'TMD3')` -/
def isOtis (f : String) : Bool := f ∈ ["OTIS", "ATLAS-compact", "TMD3"]
/-- `format in ('GOT-ascii', 'GOT-netcdf')` -/
def isGot (f : String) : Bool := f ∈ ["GOT-ascii", "GOT-netcdf"]
/-- `format in ('FES-ascii', 'FES-netcdf')` -/
def isFes (f : String) : Bool := f ∈ ["FES-ascii", "FES-netcdf"]

/-- `d[key]` -/
def item (d : List (String × Paths)) (key : String) : Except PyErr Paths :=
  match d.lookup key with
  | some p => .ok p
  | none => .error .keyError

/-- model.py 1007-1012 (and 1076-1080) -/
def otisFiles (s : State) : Except PyErr Paths :=
  match s.file with
  | .dict d => item d "u"
  | .paths p => .ok p

/-- model.py 1017-1023 (and 1085-1091, 1096-1102; 1034-1038): the files of a component -/
def componentFiles (s : State) (type : String) : Except PyErr Paths :=
  match s.file with
  | .dict d => item d type.toLower
  | .paths p => .ok p

/-- FES.py 220-224 and 245: the files of a loop `for i, model_file in enumerate(model_files)`; a
dictionary is iterated by its keys. -/
def iterated : ModelFile → List String
  | .paths (.one p) => [p]
  | .paths (.many ps) => ps
  | .dict d => d.map Prod.fst

/-- FES.py 136-345, `extract_constants`: a column for each file.  -/
def fesExtract {C : Type} (W : World C) (f : ModelFile) (type : String) : Except PyErr (List C) :=
  pyMap (fun p => if W.present p then W.fes p type else .error .fileNotFound) (iterated f)

/-- What `extract_constants` returns: columns, and names (`c` may be `None` for FES). -/
structure Result (C : Type) where
  columns : List C
  names : Option (List String)

/-- model.py 1045-1053: the node tide.  The list of names is the one that is extended. -/
def appendNode {C : Type} (W : World C) (append : Bool) (columns : List C)
    (names : Option (List String)) : Except PyErr (Result C) :=
  if append then
    match names with
    | none => .error .typeError
    | some c => if "node" ∈ c then .ok ⟨columns, names⟩
        else .ok ⟨columns ++ [W.node], some (c ++ ["node"])⟩
  else .ok ⟨columns, names⟩

/-- model.py 970-1054, `extract_constants`: the result and the object afterwards.  For FES the list
that is returned and extended is the attribute `constituents` itself; line 1040 passes
`self.model_file`. -/
def extract {C : Type} (W : World C) (s : State) (type : String) (append : Bool) :
    Except PyErr (Result C × State) :=
  if isOtis s.format then do
    let f ← otisFiles s
    let l ← W.otis f type
    let r ← appendNode W append (l.map Prod.snd) (some (l.map Prod.fst))
    .ok (r, s)
  else if s.format = "ATLAS-netcdf" then do
    let f ← componentFiles s type
    let l ← W.atlas f type
    let r ← appendNode W append (l.map Prod.snd) (some (l.map Prod.fst))
    .ok (r, s)
  else if isGot s.format then do
    let l ← W.got s.file type
    let r ← appendNode W append (l.map Prod.snd) (some (l.map Prod.fst))
    .ok (r, s)
  else if isFes s.format then do
    let _ ← componentFiles s type
    let l ← fesExtract W s.file type
    let r ← appendNode W append l s.constituents
    .ok (r, { s with constituents := r.names })
  else .error .unbound

/-- A call of `extract_constants`. -/
structure Call where
  type : String
  append : Bool

/-- A sequence of calls on one object.  A call that raises leaves the object as it was. -/
def run {C : Type} (W : World C) : State → List Call → List (Except PyErr (Result C)) × State
  | s, [] => ([], s)
  | s, c :: cs =>
    match extract W s c.type c.append with
    | .ok (r, s') =>
      let rest := run W s' cs
      (.ok r :: rest.1, rest.2)
    | .error e =>
      let rest := run W s cs
      (.error e :: rest.1, rest.2)

/-- model.py 1056-1105: the files that `read_constants` hands to the reader. -/
def readFiles (s : State) (type : String) : Except PyErr ModelFile :=
  if isOtis s.format then (otisFiles s).map .paths
  else if s.format = "ATLAS-netcdf" then (componentFiles s type).map .paths
  else if isGot s.format then .ok s.file
  else if isFes s.format then (componentFiles s type).map .paths
  else .error .unbound

/-- model.py 1007-1041: the files that `extract_constants` hands to the reader. -/
def extractFiles (s : State) (type : String) : Except PyErr ModelFile :=
  if isOtis s.format then (otisFiles s).map .paths
  else if s.format = "ATLAS-netcdf" then (componentFiles s type).map .paths
  else if isGot s.format then .ok s.file
  else if isFes s.format then (componentFiles s type).map fun _ => s.file
  else .error .unbound

/-- model.py 1155-1157: the constants that `interpolate_constants` interpolates, as the type they
were read for; `cache` is the attribute `_constituents`. -/
def interpolateType (cache : Option String) (type : String) : String × Option String :=
  match cache with
  | some t => (t, cache)
  | none => (type, some type)

end Verif.TideModel
