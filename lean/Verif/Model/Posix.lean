import Verif.Model.Py
/-!
Model of the functions of Python's `posixpath` and `pathlib` that the programs for downloading use on
names: `posixpath.split`, `posixpath.basename`, `posixpath.splitext` and `Path.joinpath`.  Names are lists
of characters.
-/
namespace Verif.Posix
open Verif

abbrev Name := List Char

/-- The part of a name up to and with its last `/`. -/
def before (p : Name) : Name := (p.reverse.dropWhile (· ≠ '/')).reverse

/-- `posixpath.basename`: the part of a name after its last `/`. -/
def basename (p : Name) : Name := (p.reverse.takeWhile (· ≠ '/')).reverse

/-- `s.rstrip('/')` -/
def rstrip (p : Name) : Name := (p.reverse.dropWhile (· = '/')).reverse

/-- The first part of `posixpath.split`: slashes at the end go unless there is nothing else. -/
def head (p : Name) : Name :=
  if (before p).all (· = '/') then before p else rstrip (before p)

/-- `posixpath.split` -/
def split (p : Name) : Name × Name := (head p, basename p)

/-- The characters of a name after its last dot. -/
def afterDot (t : Name) : Name := (t.reverse.takeWhile (· ≠ '.')).reverse

/-- The characters of a name up to and with its last dot. -/
def toDot (t : Name) : Name := (t.reverse.dropWhile (· ≠ '.')).reverse

/-- `posixpath.splitext(p)[1]`: the last dot of the last part and what follows it, if not only dots are
before it. -/
def suffix (p : Name) : Name :=
  let t := basename p
  if (toDot t).any (· ≠ '.') then '.' :: afterDot t else []

/-- `posixpath.splitext(p)[0]`: the rest. -/
def stem (p : Name) : Name := p.take (p.length - (suffix p).length)

/-- The parts of a name between slashes. -/
def pieces : Name → List Name
  | [] => [[]]
  | c :: s =>
    if c = '/' then [] :: pieces s
    else match pieces s with
      | [] => [[c]]
      | h :: t => (c :: h) :: t

/-- The parts of a path: `pathlib` drops empty parts and dots. -/
def parts (p : Name) : List Name := (pieces p).filter fun c => c ≠ [] ∧ c ≠ ['.']

/-- A place in the file system: the names of directories from the root and the name of the file. -/
abbrev Place := List Name

/-- The place a path leads to from a directory: `..` goes to the parent (that of the root is the root).
Simplification: there are no symbolic links. -/
def walk (dir : Place) (l : List Name) : Place :=
  l.foldl (fun acc c => if c = ['.', '.'] then acc.dropLast else acc ++ [c]) dir

/-- `dir.joinpath(p)`, as the place it leads to: an absolute path replaces the directory. -/
def joinpath (dir : Place) (p : Name) : Place :=
  walk (if p.head? = some '/' then [] else dir) (parts p)

/-- `dir.joinpath(*posixpath.split(p))` -/
def joinSplit (dir : Place) (p : Name) : Place :=
  joinpath (joinpath dir (split p).1) (split p).2

end Verif.Posix
