import Verif.Model.Constituents
/-!
Model of access to the container of constituents by item and of its text
(`/repo/pyTMD/io/constituents.py` 275-281 and 306-310), with the simplifications of the model of its methods.
-/
namespace Verif.Constituents
open Verif

variable {V : Type}

/-- All operations: calls of methods, `c[n]`, `c[n] = v` and `str(c)`. -/
inductive Call (V : Type) where
  | op (o : Op V)
  | item (n : String)
  | setItem (n : String) (v : V)
  | text

/-- What they return or raise. -/
inductive Result (V : Type) where
  | out (o : Out V)
  | text (s : String)
  deriving DecidableEq

/-- constituents.py 275-281, `__str__` -/
def State.text (s : State V) : String :=
  "\n".intercalate ["pyTMD.constituents", "    constituents: " ++ ", ".intercalate s.fields]

/-- One operation: `__getitem__` (306-307) is `getattr` and `__setitem__` (309-310) is `setattr`, whatever the name. -/
def State.call (s : State V) : Call V → Result V × State V
  | .op o => (.out (s.step o).1, (s.step o).2)
  | .item n =>
    match s.getattr n with
    | .ok v => (.out (.value v), s)
    | .error e => (.out (.raised e), s)
  | .setItem n v => (.out .done, s.setattr n v)
  | .text => (.text s.text, s)

/-- A history of operations. -/
def State.calls (s : State V) : List (Call V) → List (Result V) × State V
  | [] => ([], s)
  | c :: cs => ((s.call c).1 :: ((s.call c).2.calls cs).1, ((s.call c).2.calls cs).2)

end Verif.Constituents
