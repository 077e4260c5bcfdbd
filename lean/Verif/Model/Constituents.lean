import Verif.Model.Py
/-!
Model of the container class in `/repo/pyTMD/io/constituents.py`, lines 37-104, 106-122
and 283-310.

The Python object keeps a list `fields` of constituent names and stores each field as an
attribute of the same name.  The attribute store is modelled as a partial map from names
to values.  Simplification: names that clash with the attributes of the class itself
(`append`, `fields`, `shape`, ...) are outside the model; values are immutable, so
`copy.copy` is the identity.
-/
namespace Verif.Constituents
open Verif

variable {V : Type}

/-- constituents.py 46-52: the state after `__init__` with no keyword arguments is
`fields = []`, no attributes and cursor 0. -/
structure State (V : Type) where
  fields : List String
  attrs : String → Option V
  cursor : Nat

/-- constituents.py 46-52, `__init__()`. -/
def State.init : State V := { fields := [], attrs := fun _ => none, cursor := 0 }

/-- `setattr(self, name, value)`. -/
def State.setattr (s : State V) (n : String) (v : V) : State V :=
  { s with attrs := fun k => if k = n then some v else s.attrs k }

/-- `delattr(self, name)` for an attribute that exists. -/
def State.delattr (s : State V) (n : String) : State V :=
  { s with attrs := fun k => if k = n then none else s.attrs k }

/-- `getattr(self, name)`. -/
def State.getattr (s : State V) (n : String) : Except PyErr V :=
  match s.attrs n with
  | some v => .ok v
  | none => .error .attributeError

/-- constituents.py 54-68, `append`: no check that the name is new. -/
def State.append (s : State V) (n : String) (v : V) : State V :=
  { s with fields := s.fields ++ [n] }.setattr n v

/-- constituents.py 106-122, `update`: only requires that some attribute of that name exists. -/
def State.update (s : State V) (n : String) (v : V) : Except PyErr (State V) :=
  match s.attrs n with
  | none => .error .keyError
  | some _ => .ok (s.setattr n v)

/-- constituents.py 87-104, `pop`: `list.remove` drops the first occurrence and raises
`ValueError` if there is none; then the attribute is read and deleted.  When the
attribute is missing the name has already been removed. -/
def State.pop (s : State V) (n : String) : Except PyErr V × State V :=
  if n ∈ s.fields then
    let s' := { s with fields := s.fields.erase n }
    match s'.attrs n with
    | none => (.error .attributeError, s')
    | some v => (.ok v, s'.delattr n)
  else (.error .valueError, s)

/-- constituents.py 288-292, `__iter__`: resets the cursor kept on the object and
returns the object itself. -/
def State.iter (s : State V) : State V := { s with cursor := 0 }

/-- constituents.py 294-304, `__next__`. -/
def State.next (s : State V) : Except PyErr (String × V) × State V :=
  match s.fields[s.cursor]? with
  | none => (.error .stopIteration, s)
  | some f =>
    match s.attrs f with
    | none => (.error .attributeError, s)
    | some v => (.ok (f, v), { s with cursor := s.cursor + 1 })

/-- `list(c)` from the current cursor: call `__next__` until `StopIteration`; `fuel`
bounds the number of calls and is always instantiated with `len(fields) + 1`. -/
def State.drain : Nat → State V → Except PyErr (List (String × V)) × State V
  | 0, s => (.ok [], s)
  | fuel + 1, s =>
    match s.next with
    | (.error .stopIteration, s') => (.ok [], s')
    | (.error e, s') => (.error e, s')
    | (.ok p, s') =>
      match State.drain fuel s' with
      | (.error e, s'') => (.error e, s'')
      | (.ok ps, s'') => (.ok (p :: ps), s'')

/-- `list(iter(c))`: `__iter__` then `__next__` until exhaustion. -/
def State.items (s : State V) : Except PyErr (List (String × V)) × State V :=
  State.drain (s.fields.length + 1) s.iter

/-- The operations of the public interface. -/
inductive Op (V : Type) where
  | append (n : String) (v : V)
  | update (n : String) (v : V)
  | pop (n : String)
  | get (n : String)
  | len
  | names
  | items

/-- What an operation returns or raises. -/
inductive Out (V : Type) where
  | done
  | value (v : V)
  | count (k : Nat)
  | list (ns : List String)
  | pairs (ps : List (String × V))
  | raised (e : PyErr)
  deriving DecidableEq

/-- One method call on the object: `__len__` is lines 283-286, `names` reads `fields`. -/
def State.step (s : State V) : Op V → Out V × State V
  | .append n v => (.done, s.append n v)
  | .update n v =>
    match s.update n v with
    | .ok s' => (.done, s')
    | .error e => (.raised e, s)
  | .pop n =>
    match s.pop n with
    | (.ok v, s') => (.value v, s')
    | (.error e, s') => (.raised e, s')
  | .get n =>
    match s.getattr n with
    | .ok v => (.value v, s)
    | .error e => (.raised e, s)
  | .len => (.count s.fields.length, s)
  | .names => (.list s.fields, s)
  | .items =>
    match s.items with
    | (.ok ps, s') => (.pairs ps, s')
    | (.error e, s') => (.raised e, s')

/-- A history of method calls. -/
def State.run (s : State V) : List (Op V) → List (Out V) × State V
  | [] => ([], s)
  | op :: ops =>
    let (o, s') := s.step op
    let (os, s'') := State.run s' ops
    (o :: os, s'')

/-- The two nested loops `for a in c: for b in c: ...` on one object.  Returns the number of
times the inner body runs; `fuel` bounds the outer loop.  Both loops share the cursor. -/
def State.nestedCount : Nat → State V → Nat
  | 0, _ => 0
  | fuel + 1, s =>
    match s.next with
    | (.ok _, s') =>
      match s'.items with
      | (.ok ps, s'') => ps.length + State.nestedCount fuel s''
      | (.error _, _) => 0
    | (.error _, _) => 0

end Verif.Constituents
