import Verif.Model.Verify
import Verif.Spec.Arctic
/-!
What it means that a file is that of the server.
-/
namespace Verif.Spec.Verify
open Verif Verif.Mirror Verif.Verify

/-- The items that are compared: files whose name begins with `grid` or `h`, or with `u` if there are
currents. -/
def Compared (currents : Bool) (e : Entry) : Prop :=
  e.isFile = true ∧ (("grid".toList <+: e.name ∨ "h".toList <+: e.name) ∨ currents = true ∧ "u".toList <+: e.name)

/-- A name of a file in a directory. -/
def Simple (n : List Char) : Prop := '/' ∉ n ∧ n ≠ [] ∧ n ≠ ['.'] ∧ n ≠ ['.', '.']

/-- The file is on the disk, with the digest that the server says. -/
def Same (digest : List UInt8 → String) (d : Disk (List (List Char))) (dir : List (List Char)) (e : Entry) : Prop :=
  ∃ f, d (dir ++ [e.name]) = some f ∧ digest f.content = e.sha1

end Verif.Spec.Verify
