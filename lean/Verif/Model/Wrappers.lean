import Verif.Model.TideModel
/-!
Model of the keyword arguments of the methods `extract_constants`, `read_constants` and
`interpolate_constants` of `pyTMD.io.model` and of the functions of these names
(`/repo/pyTMD/io/model.py` 1000-1003, 1069-1071, 1154-1160, 1224-1307).

Simplifications: points and options of interpolation are fixed; what the readers of a format do with a type that
is a string is an input (`Readers`), and what they do with a list is modelled as the exception that they end in,
for files that can be read.
-/
namespace Verif.Wrappers
open Verif Verif.TideModel

/-- The value of `type`: a string, or the list of the components of a current. -/
inductive Kind where
  | one (t : String)
  | list (ts : List String)
deriving DecidableEq

/-- What the readers do: extracting, reading into memory and interpolating. -/
structure Readers (C D O : Type) where
  world : World C
  read : ModelFile → String → Bool → Except PyErr D
  interpolate : D → String → Except PyErr O

/-- The object: attributes, `type`, and `_constituents` after reading. -/
structure Model (D : Type) where
  state : State
  type : Kind
  cache : Option D

/-- The keyword arguments `type` and `append_node`, as far as they are given. -/
structure Keywords where
  type : Option Kind
  append : Option Bool
deriving DecidableEq

/-- A list in place of a type: no branch of OTIS.py 331-366 and 624-660 and of ATLAS.py 739-756 is for it, so that
the bathymetry is not assigned; a list has no `lower` (model.py 1018, 1034, 1086, 1101); a list is no key of a
dictionary (FES.py 733-744).  Nothing in GOT.py, and nothing in FES.py for ascii files, looks at the type.
`f` goes on with the files of these formats. -/
def listed {α : Type} (s : State) (present : String → Bool) (f : ModelFile → Except PyErr α) : Except PyErr α :=
  if isOtis s.format then (otisFiles s).bind fun _ => .error .unbound
  else if s.format = "ATLAS-netcdf" then
    match s.file with
    | .dict _ => .error .attributeError
    | .paths _ => .error .unbound
  else if isGot s.format then f s.file
  else if isFes s.format then
    match s.file with
    | .dict _ => .error .attributeError
    | .paths p =>
      if s.format = "FES-ascii" then f s.file
      else match iterated (.paths p) with
        | [] => f s.file
        | p :: _ => if present p then .error .typeError else .error .fileNotFound
  else .error .unbound

/-- model.py 1004-1054 for a value of `type`. -/
def extractKind {C : Type} (W : World C) (s : State) (k : Kind) (append : Bool) : Except PyErr (Result C × State) :=
  match k with
  | .one t => TideModel.extract W s t append
  | .list _ => listed s W.present fun _ => TideModel.extract W s "z" append

/-- model.py 1072-1126 for a value of `type`. -/
def readKind {C D O : Type} (R : Readers C D O) (s : State) (k : Kind) (append : Bool) : Except PyErr D :=
  match k with
  | .one t => (readFiles s t).bind fun f => R.read f t append
  | .list _ => listed s R.world.present fun f => R.read f "z" append

/-- model.py 1161-1173; OTIS.py 829-834 and ATLAS.py 605-610 assign no unit for a list. -/
def interpolateKind {C D O : Type} (R : Readers C D O) (s : State) (c : D) (k : Kind) : Except PyErr O :=
  match k with
  | .one t => R.interpolate c t
  | .list _ => if isOtis s.format || s.format = "ATLAS-netcdf" then .error .unbound else R.interpolate c "z"

/-- model.py 970-1054: the method, with the object afterwards. -/
def extractMethod {C D O : Type} (R : Readers C D O) (m : Model D) (kw : Keywords) :
    Except PyErr (Result C × Model D) :=
  match extractKind R.world m.state (kw.type.getD m.type) (kw.append.getD false) with
  | .ok (r, s) => .ok (r, { m with state := s })
  | .error e => .error e

/-- model.py 1056-1126: the method, with the object afterwards. -/
def readMethod {C D O : Type} (R : Readers C D O) (m : Model D) (kw : Keywords) : Except PyErr (D × Model D) :=
  match readKind R m.state (kw.type.getD m.type) (kw.append.getD false) with
  | .ok c => .ok (c, { m with cache := some c })
  | .error e => .error e

/-- model.py 1157-1160: the constants are read if they have not been. -/
def ensure {C D O : Type} (R : Readers C D O) (m : Model D) (kw : Keywords) : Except PyErr (D × Model D) :=
  match m.cache with
  | some c => .ok (c, m)
  | none => readMethod R m kw

/-- model.py 1128-1175: the method, with the object afterwards; reading gets the same keywords, with the default. -/
def interpolateMethod {C D O : Type} (R : Readers C D O) (m : Model D) (kw : Keywords) : Except PyErr (O × Model D) :=
  match ensure R m { kw with type := some (kw.type.getD m.type) } with
  | .ok (c, m') =>
    match interpolateKind R m'.state c (kw.type.getD m.type) with
    | .ok o => .ok (o, m')
    | .error e => .error e
  | .error e => .error e

/-- model.py 1224-1255: the function; `none` is an object of another class. -/
def extractFunction {C D O : Type} (R : Readers C D O) (m : Option (Model D)) (kw : Keywords) :
    Except PyErr (Result C × Model D) :=
  match m with
  | none => .error .assertionError
  | some m => extractMethod R m { kw with type := some (kw.type.getD m.type) }

/-- model.py 1257-1280: the function returns the attribute. -/
def readFunction {C D O : Type} (R : Readers C D O) (m : Option (Model D)) (kw : Keywords) : Except PyErr (D × Model D) :=
  match m with
  | none => .error .assertionError
  | some m =>
    match readMethod R m { kw with type := some (kw.type.getD m.type) } with
    | .ok (_, m') =>
      match m'.cache with
      | some c => .ok (c, m')
      | none => .error .attributeError
    | .error e => .error e

/-- model.py 1282-1307: the function; an object without the method is an `AttributeError`. -/
def interpolateFunction {C D O : Type} (R : Readers C D O) (m : Option (Model D)) (kw : Keywords) :
    Except PyErr (O × Model D) :=
  match m with
  | none => .error .attributeError
  | some m => interpolateMethod R m kw

end Verif.Wrappers
