import Verif.Model.Store
/-!
Model of finding input files and variables (`/repo/pyTMD/spatial.py` 166-186, 424-431, 539-546 and
1332-1371).

Names of files are lists of characters.  In a regular expression a full stop stands for any
character; other characters of names stand for themselves here (names with characters that have
another meaning, such as `+` or brackets, are left out).
-/
namespace Verif.FileNames
open Verif Verif.Listing Verif.Store

/-- Small letters; the letters of file names are those of the ASCII set. -/
def lower (c : Char) : Char := c.toLower

/-- `re.match(pattern, name, re.I)`: the name begins like the pattern. -/
def looksLike : List Char → List Char → Bool
  | [], _ => true
  | _ :: _, [] => false
  | p :: ps, c :: cs => ((p = '.' && c ≠ '\n') || lower p = lower c) && looksLike ps cs

/-- spatial.py 166-186, `case_insensitive_filename` in a directory; the last name found is used. -/
def find (directory : List (List Char)) (name : List Char) : Except PyErr (List Char) :=
  if name ∈ directory then .ok name
  else
    match (directory.filter (looksLike name)).getLast? with
    | none => .error .fileNotFound
    | some f => .ok f

/-- spatial.py 1354: the names of the fields. -/
def fieldNames : List String := ["time", "y", "x", "data"]

/-- spatial.py 1332-1360, `default_field_mapping`: further variables are passed over. -/
def defaultMapping (names : List String) : Dict String := fieldNames.zip names

/-- spatial.py 1362-1371, `inverse_mapping` -/
def inverse (mapping : Dict String) : Dict String :=
  update [] (mapping.map fun p => (p.2, p.1))

/-- spatial.py 424-431, 539-546: reading with a dictionary of the caller.  An empty one is filled in
place; returns the names that are used and the dictionary afterwards. -/
def readWith (given : Dict String) (xname yname : String) (varname timename : Option String) :
    Dict String × Dict String :=
  let m := fieldMapping given xname yname varname timename
  (m, m)

end Verif.FileNames
