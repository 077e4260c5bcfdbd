import Verif.Model.Astro
import Verif.Model.Doodson
/-!
Model of `doodson_number`, /repo/pyTMD/arguments.py 396-476, and of the lists of numbers of a set of
constituents, /repo/pyTMD/io/constituents.py 169-217.
-/
namespace Verif.Numbers
open Verif

/-- What the function returns for a constituent: an array, a float or string, or a string. -/
inductive Number where
  | cartwright (c : List ℤ)
  | doodson (d : Doodson.DO)
  | extended (s : List Char)
  deriving DecidableEq, Repr

/-- `str.title()` for ASCII: letters after letters are made small, the others large. -/
def titleFrom : Bool → List Char → List Char
  | _, [] => []
  | inside, c :: t => (if inside then c.toLower else c.toUpper) :: titleFrom c.isAlpha t

def title (s : String) : String := String.ofList (titleFrom false s.toList)

/-- arguments.py 428-429, 441-450. -/
inductive Formalism where
  | cartwright
  | doodson
  | extended
  deriving DecidableEq, Repr

def formalism (name : String) : Except PyErr Formalism :=
  if title name = "Cartwright" then .ok .cartwright
  else if title name = "Doodson" then .ok .doodson
  else if title name = "Extended" then .ok .extended
  else .error .assertionError

/-- arguments.py 441-450 and 466-474.  The keyword `raise_error` is passed on (447, 471). -/
def identify (f : Formalism) (raise : Bool) (r : List ℤ) : Except PyErr (Option Number) :=
  match f with
  | .cartwright => .ok (some (.cartwright (r.take 6)))
  | .doodson => do
    let d ← Doodson.toDoodson raise r
    .ok (d.map .doodson)
  | .extended => do
    let s ← Doodson.toExtended r
    .ok (some (.extended s))

/-- arguments.py 433-440 and 456-465: a constituent that is not in the table. -/
def entry (f : Formalism) (raise : Bool) (corrections c : String) : Except PyErr (Option Number) :=
  match Astro.row corrections c.toLower with
  | .error _ => if raise then .error .valueError else .ok none
  | .ok r => identify f raise r

/-- `doodson_number` for a single constituent, arguments.py 424-450.  Simplification: names in ASCII. -/
def single (name : String) (raise : Bool) (corrections c : String) : Except PyErr (Option Number) := do
  let f ← formalism name
  entry f raise corrections c

/-- `numbers[c] = n`: a dictionary keeps the place of a key that it has. -/
def insert (d : List (String × Option Number)) (c : String) (n : Option Number) : List (String × Option Number) :=
  if (d.map (·.1)).contains c then d.map fun p => if p.1 = c then (c, n) else p else d ++ [(c, n)]

/-- arguments.py 455-474. -/
def loop (f : Formalism) (raise : Bool) (corrections : String) :
    List String → List (String × Option Number) → Except PyErr (List (String × Option Number))
  | [], d => .ok d
  | c :: cs, d => do
    let n ← entry f raise corrections c
    loop f raise corrections cs (insert d c n)

/-- `doodson_number` for a list of constituents, arguments.py 424-429 and 451-476. -/
def several (name : String) (raise : Bool) (corrections : String) (cs : List String) :
    Except PyErr (List (String × Option Number)) := do
  let f ← formalism name
  loop f raise corrections cs []

/-- `except (AssertionError, ValueError)`, constituents.py 179, 196, 213. -/
def caught (x : Except PyErr (Option Number)) : Except PyErr (Option Number) :=
  match x with
  | .error .assertionError => .ok none
  | .error .valueError => .ok none
  | y => y

/-- The properties `doodson_number`, `cartwright_number` and `extended_doodson` of a set of constituents,
constituents.py 169-217. -/
def ofFields (name : String) (fields : List String) : Except PyErr (List (Option Number)) :=
  pyMap (fun f => caught (single name true "OTIS" f)) fields

end Verif.Numbers
