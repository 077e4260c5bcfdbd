import Verif.Model.Mirror
/-!
What it means that files on the disk are those of an archive.
-/
namespace Verif.Spec.Mirror
open Verif Verif.Mirror

variable {P : Type}

/-- The bytes of a file that is to be on the disk. -/
def bytes (i : Item P) : List UInt8 := i.pieces.flatten

/-- The file that is to be on the disk. -/
def file (i : Item P) : File := ⟨bytes i, i.mtime⟩

/-- The disk has all files of an archive, with their bytes and times. -/
def Holds (d : Disk P) (l : List (Item P)) : Prop := ∀ i ∈ l, d i.path = some (file i)

/-- Times are compared by the intervals of two seconds in which they are. -/
def slot (t : ℚ) : ℤ := ⌊t / 2⌋

/-- A later version of an archive: a file that differs from the one it had at the same place is later by at
least one interval. -/
def Follows (l m : List (Item P)) : Prop :=
  ∀ i ∈ l, ∀ j ∈ m, i.path = j.path → file i = file j ∨ slot i.mtime < slot j.mtime

/-- No two files of an archive have the same place. -/
def Distinct (l : List (Item P)) : Prop := l.Pairwise fun i j => i.path ≠ j.path

/-- A place inside a directory. -/
def Inside (dir p : List (List Char)) : Prop := ∃ c s, p = dir ++ c :: s

end Verif.Spec.Mirror
