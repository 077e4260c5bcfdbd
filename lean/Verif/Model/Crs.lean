import Verif.Model.Py
/-!
Model of the class `crs`, `/repo/pyTMD/crs.py` lines 70-247: an object with a coordinate reference
system and a direction, and its methods `convert`, `get`, `transform`, `from_input` and `direction`.

`pyproj` is a parameter: what its three constructors accept, and its transformation of points from a
system to another, forward and inverse.  Points are a type `P` (the arrays of x and of y).  Inputs are
texts or dictionaries; `int(text)` is a parameter.  The attributes `name` and `transformer` are left
out: no method reads them except `__str__`.
-/
namespace Verif.Crs
open Verif

/-- What `pyproj` does.  `none` is `CRSError`. -/
structure Pyproj (C D P : Type) where
  fromText : String → Option C
  fromDict : D → Option C
  fromEpsg : Int → Option C
  fromString : String → Option C
  forward : C → C → P → P
  inverse : C → C → P → P

/-- What a user passes as a projection. -/
inductive Input (D : Type) where
  | text (s : String)
  | number (n : Int)
  | dict (d : D)

variable {C D P : Type}

/-- `int(s)` of a text, a number or a dictionary: `none` is `ValueError`, a dictionary is a
`TypeError`. -/
def toInt (int : String → Option Int) : Input D → Except PyErr (Option Int)
  | .text s => .ok (int s)
  | .number n => .ok (some n)
  | .dict _ => .error .typeError

/-- `pyproj.CRS.from_user_input`. -/
def userInput (j : Pyproj C D P) : Input D → Option C
  | .text s => j.fromText s
  | .number n => j.fromEpsg n
  | .dict d => j.fromDict d

/-- `pyproj.CRS.from_string`; anything but a text is a `CRSError`. -/
def fromText (j : Pyproj C D P) : Input D → Option C
  | .text s => j.fromString s
  | _ => none

/-- crs.py 185-217, `from_input`: the first of three attempts that succeeds; `CRSError` is
`exception`. -/
def fromInput (j : Pyproj C D P) (int : String → Option Int) (p : Input D) : Except PyErr C :=
  match userInput j p with
  | some c => .ok c
  | none => do
    match (← toInt int p).bind j.fromEpsg with
    | some c => .ok c
    | none =>
      match fromText j p with
      | some c => .ok c
      | none => .error .exception

/-- The attributes `crs` (not there before the first `get`) and `_direction`. -/
structure Obj (C : Type) where
  crs : Option C
  direction : Option Char

/-- crs.py 80-83, `__init__`. -/
def new : Obj C := ⟨none, none⟩

/-- crs.py 123-142, `get`: every exception becomes `CRSError`. -/
def get (j : Pyproj C D P) (int : String → Option Int) (o : Obj C) (p : Input D) : Obj C × Except PyErr Unit :=
  match fromInput j int p with
  | .ok c => ({ o with crs := some c }, .ok ())
  | .error _ => (o, .error .exception)

/-- Directions of `pyproj`. -/
inductive Dir where
  | forward
  | inverse
  deriving DecidableEq

/-- crs.py 219-229, `direction`; `None` if there is no such direction. -/
def dirOf (o : Obj C) : Option Dir :=
  match o.direction with
  | none => some .forward
  | some c => if c.toUpper = 'F' then some .forward else if c.toUpper = 'B' then some .inverse else none

/-- crs.py 144-182, `transform`.  `None` is no direction for `pyproj`: `ValueError`.  Without a system
there is an `AttributeError`. -/
def transform (j : Pyproj C D P) (int : String → Option Int) (o : Obj C) (q : P) (epsg : Input D) :
    Except PyErr P := do
  let source ← fromInput j int epsg
  match o.crs with
  | none => .error .attributeError
  | some c =>
    match dirOf o with
    | some .forward => .ok (j.forward source c q)
    | some .inverse => .ok (j.inverse source c q)
    | none => .error .valueError

/-- crs.py 85-121, `convert`. -/
def convert (j : Pyproj C D P) (int : String → Option Int) (o : Obj C) (q : P) (p : Input D) (bf : String)
    (epsg : Input D) : Obj C × Except PyErr P :=
  match get j int o p with
  | (o, .error e) => (o, .error e)
  | (o, .ok ()) =>
    match bf.toList with
    | [] => (o, .error .indexError)
    | c :: _ =>
      let o := { o with direction := some c.toUpper }
      (o, transform j int o q epsg)

/-- What a program does with one object. -/
inductive Use (D P : Type) where
  | get (p : Input D)
  | convert (q : P) (p : Input D) (bf : String) (epsg : Input D)
  | transform (q : P) (epsg : Input D)

/-- The object after a use. -/
def after (j : Pyproj C D P) (int : String → Option Int) (o : Obj C) : Use D P → Obj C
  | .get p => (get j int o p).1
  | .convert q p bf epsg => (convert j int o q p bf epsg).1
  | .transform _ _ => o

/-- The object after a history. -/
def history (j : Pyproj C D P) (int : String → Option Int) (l : List (Use D P)) : Obj C :=
  l.foldl (after j int) new

end Verif.Crs
