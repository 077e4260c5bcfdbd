import Verif.Model.Transfer
import Verif.Model.UnixTime
/-!
Model of the program that compares downloaded files with those of a server, `/repo/scripts/verify_box_tpxo.py`
(84-137).

Simplifications: the contents of the folder and the descriptions of its files are given from outside, and the
directory of the model is given; permissions and access times are left out.
-/
namespace Verif.Verify
open Verif Verif.Posix Verif.Mirror Verif.UnixTime

/-- What the server says about an item of the folder: whether its type is `file`, its name, the digest of its
bytes and its time. -/
structure Entry where
  isFile : Bool
  name : Name
  sha1 : String
  modified : List Char

/-- verify_box_tpxo.py 96-102: whether a name is of interest. -/
def interest (currents : Bool) (n : Name) : Bool :=
  (ext "grid").isPrefixOf n || (ext "h").isPrefixOf n || (currents && (ext "u").isPrefixOf n)

/-- verify_box_tpxo.py 110-112 -/
def chosen (currents : Bool) (l : List Entry) : List Entry :=
  l.filter fun e => e.isFile && interest currents e.name

/-- What the program uses from outside: digests, the zone of the machine, and the reader of other dates. -/
structure World where
  hash : Transfer.Hash
  zone : ℚ → ℚ
  dateutil : List Char → Option Stamp

/-- verify_box_tpxo.py 125-126 -/
def World.time (w : World) (s : List Char) : Option ℚ := getUnixTime w.zone w.dateutil formatBox s

/-- verify_box_tpxo.py 114-137: one file. -/
def one (w : World) (dir : Place) (d : Disk Place) (e : Entry) : Except PyErr (Disk Place) := do
  let p := joinpath dir e.name
  let sha1 ← Transfer.hashOf w.hash "sha1" d p
  if sha1 ≠ e.sha1 then .error .exception
  else if d p = none then .error .fileNotFound
  else match w.time e.modified with
    | none => .error .typeError
    | some t => .ok (step d (.utime p t))

/-- verify_box_tpxo.py 113-137: the disk at the end and the exception, if there is one. -/
def loop (w : World) (dir : Place) : Disk Place → List Entry → Disk Place × Option PyErr
  | d, [] => (d, none)
  | d, e :: l =>
    match one w dir d e with
    | .error x => (d, some x)
    | .ok d' => loop w dir d' l

/-- verify_box_tpxo.py 84-137 -/
def verify (w : World) (dir : Place) (currents : Bool) (d : Disk Place) (folder : List Entry) :
    Disk Place × Option PyErr := loop w dir d (chosen currents folder)

end Verif.Verify
