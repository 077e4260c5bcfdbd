import Verif.Model.Arctic
import Mathlib.Data.List.Infix
/-!
What it means that the files of an archive are in a directory.
-/
namespace Verif.Spec.Arctic
open Verif Verif.Mirror Verif.Arctic

/-- A file with given bytes is at a place. -/
def HasFile (d : Disk (List (List Char))) (p : List (List Char)) (content : List UInt8) : Prop :=
  ∃ f, d p = some f ∧ f.content = content

/-- Two disks have the same files, if times are not looked at. -/
def SameFiles (d d' : Disk (List (List Char))) : Prop :=
  ∀ p, (d p).map File.content = (d' p).map File.content

/-- The last part of a name. -/
def Leaf (name leaf : List Char) : Prop := '/' ∉ leaf ∧ (name = leaf ∨ ∃ s, name = s ++ '/' :: leaf)

/-- A name of a file of a model: it has `grid_`, `h_`, `h0_`, `UV_`, `UV0_`, `Model_` or `xy_` in it. -/
def Wanted (name : List Char) : Prop :=
  ∃ s ∈ ["grid_", "h_", "h0_", "UV_", "UV0_", "Model_", "xy_"], s.toList <:+: name

/-- A leaf that can be the name of a file. -/
def Proper (leaf : List Char) : Prop := leaf ≠ [] ∧ leaf ≠ ['.'] ∧ leaf ≠ ['.', '.']

/-- All wanted members of an archive have names of files. -/
def Sound (l : List Zipped) : Prop := ∀ m ∈ l, Wanted m.name → ∀ n, Leaf m.name n → Proper n

/-- A member is the last one of an archive with its leaf that is wanted. -/
def LastNamed (l : List Zipped) (m : Zipped) (n : List Char) : Prop :=
  ∃ a b, l = a ++ m :: b ∧ ∀ m' ∈ b, Wanted m'.name → ¬ Leaf m'.name n

end Verif.Spec.Arctic
