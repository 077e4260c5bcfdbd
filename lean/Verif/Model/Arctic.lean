import Verif.Model.Mirror
/-!
Model of the program that fetches Arctic tide models, `/repo/scripts/arcticdata_tides.py` (57-107 and
139-152), with the writes to the disk one by one as in `Model/Mirror.lean`.

Simplifications: the archive that the server sends (a zip file) is a list of members given from outside, the
server is reached and the archive is sound; directories exist as soon as a file in them is written and are
never in the place of a file; permissions are left out; the times of the files are those of the clock.
-/
namespace Verif.Arctic
open Verif Verif.Posix Verif.Mirror

/-- arcticdata_tides.py 72-78: the subdirectory for each model. -/
def subdirectories : List (String × String) :=
  [("AODTM-5", "aodtm5_tmd"), ("AOTIM-5", "aotim5_tmd"), ("AOTIM-5-2018", "Arc5km2018"),
    ("Arc2kmTM", "Arc2kmTM"), ("Gr1kmTM", "Gr1kmTM")]

/-- A member of a `zip` archive: its name and its bytes.  The name of a directory ends with a slash. -/
structure Zipped where
  name : Name
  content : List UInt8

/-- Whether a string is somewhere in another. -/
def search (p : Name) : Name → Bool
  | [] => p.isEmpty
  | c :: s => p.isPrefixOf (c :: s) || search p s

/-- arcticdata_tides.py 94: the strings that `(grid|h[0]?|UV[0]?|Model|xy)_(.*?)` finds; the last group
always matches the empty string. -/
def stems : List Name :=
  [ext "grid_", ext "h_", ext "h0_", ext "UV_", ext "UV0_", ext "Model_", ext "xy_"]

/-- arcticdata_tides.py 95: whether a member is extracted.  The whole name is searched. -/
def chosen (m : Zipped) : Bool := stems.any fun p => search p m.name

/-- `ZipFile.extract` (called in 103) for a name without slashes: parts that are empty or dots are dropped, so
that these names lead to the directory itself, which cannot be opened for writing. -/
def target (dir : Place) (n : Name) : Except PyErr Place :=
  if n = [] ∨ n = ['.'] ∨ n = ['.', '.'] then .error .ioError else .ok (dir ++ [n])

/-- What a program writes before it ends or an exception stops it: the places and bytes, in order. -/
abbrev Plan := List (Place × List UInt8) × Option PyErr

/-- arcticdata_tides.py 97-105: the loop over the members that are extracted. -/
def extract (dir : Place) : List Zipped → Plan
  | [] => ([], none)
  | m :: l =>
    match target dir (basename m.name) with
    | .error x => ([], some x)
    | .ok p => ((p, m.content) :: (extract dir l).1, (extract dir l).2)

/-- arcticdata_tides.py 57-107 -/
def arcticdata (archive : String → List Zipped) (parent : Place) (model : String) : Plan :=
  match subdirectories.lookup model with
  | none => ([], some .keyError)
  | some s => extract (parent ++ [s.toList]) ((archive model).filter chosen)

/-- arcticdata_tides.py 146-150: the loop over the models. -/
def main (archive : String → List Zipped) (parent : Place) : List String → Plan
  | [] => ([], none)
  | t :: l =>
    match arcticdata archive parent t with
    | (w, some x) => (w, some x)
    | (w, none) => (w ++ (main archive parent l).1, (main archive parent l).2)

/-- The steps on the disk: every file is opened for writing, which empties it, and its bytes are written in
pieces.  `now k` is the time of the clock at step `k`. -/
def steps (e : Env) (now : ℕ → ℚ) : ℕ → List (Place × List UInt8) → List (Op Place)
  | _, [] => []
  | k, w :: l =>
    .truncate w.1 (now k) :: (pieceOps now w.1 (k + 1) (e.chunks w.2) ++
      steps e now (k + 1 + (e.chunks w.2).length) l)

/-- The disk after the program. -/
def run (e : Env) (now : ℕ → ℚ) (d : Disk Place) (p : Plan) : Disk Place := exec d (steps e now 0 p.1)

/-- The disk when the program is cut off after `n` steps. -/
def crash (e : Env) (now : ℕ → ℚ) (n : ℕ) (d : Disk Place) (p : Plan) : Disk Place :=
  exec d ((steps e now 0 p.1).take n)

end Verif.Arctic
