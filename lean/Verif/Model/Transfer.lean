import Verif.Model.Mirror
/-!
Model of downloads and copies of single files: `/repo/pyTMD/utilities.py` 214-249 (`get_hash`), 457-483 (`copy`),
599-690 (`from_ftp`), 820-903 (`from_http`) and 1371-1469 (`from_cddis`, which writes like `from_http`), with
the writes to the disk one by one as in `Verif.Model.Mirror`.

Simplifications: those of `Verif.Model.Mirror`; the hash is a function given from outside; different paths
are different files (no links).
-/
namespace Verif.Transfer
open Verif Verif.Mirror

variable {P : Type} [DecidableEq P]

/-- `shutil.copyfileobj(..., length)`: reads of `length` bytes until nothing is left; zero stands for the
default of `shutil` (64 kB). -/
def chunked (n : ℕ) : ℕ → List UInt8 → List (List UInt8)
  | 0, _ => []
  | _ + 1, [] => []
  | k + 1, b :: l => (b :: l).take n :: chunked n k ((b :: l).drop n)

/-- The pieces in which `copyfileobj` writes bytes. -/
def pieces (length : ℕ) (b : List UInt8) : List (List UInt8) :=
  chunked (if length = 0 then 65536 else length) b.length b

/-- The hash functions that exist, and the digests of bytes. -/
abbrev Hash := String → Option (List UInt8 → String)

/-- utilities.py 235-247, `get_hash` of a path: a file that does not exist has the empty string, whatever the
algorithm. -/
def hashOf (h : Hash) (algorithm : String) (d : Disk P) (p : P) : Except PyErr String :=
  match d p with
  | none => .ok ""
  | some f => match h algorithm with
    | some digest => .ok (digest f.content)
    | none => .error .valueError

/-- utilities.py 228-234, `get_hash` of a buffer. -/
def hashBuffer (h : Hash) (algorithm : String) (b : List UInt8) : Except PyErr String :=
  match h algorithm with
  | some digest => .ok (digest b)
  | none => .error .valueError

/-- utilities.py 686: the time of a file is set if there is one to be set. -/
def timeOps (p : P) (mtime : Option ℚ) : List (Op P) :=
  match mtime with
  | some t => [.utime p t]
  | none => []

/-- utilities.py 884-901 (`mtime = none`; also 1450-1467) and 667-686: the steps of a download of bytes `b`
to a path, if there is one and the given hash is not that of the bytes. -/
def downloadOps (digest : List UInt8 → String) (now : ℕ → ℚ) (chunk : ℕ) (b : List UInt8) (mtime : Option ℚ)
    (loc : Option P) (hash : String) : List (Op P) :=
  match loc with
  | none => []
  | some p =>
    if hash ≠ digest b then
      .truncate p (now 0) :: (pieceOps now p 1 (pieces chunk b) ++ timeOps p mtime)
    else []

/-- A download: what is returned, and the disk afterwards.  A host that does not answer raises an exception
before anything is written. -/
def download (digest : List UInt8 → String) (now : ℕ → ℚ) (chunk : ℕ) (remote : Option (List UInt8))
    (mtime : Option ℚ) (loc : Option P) (hash : String) (d : Disk P) :
    Except PyErr (List UInt8) × Disk P :=
  match remote with
  | none => (.error .exception, d)
  | some b => (.ok b, exec d (downloadOps digest now chunk b mtime loc hash))

/-- utilities.py 474-483, `copy`: the steps; `shutil.copyfile` refuses to copy a file onto itself, and a
source that does not exist. -/
def copyOps (now : ℕ → ℚ) (source destination : P) (move : Bool) (d : Disk P) : Except PyErr (List (Op P)) :=
  if source = destination then .error .exception
  else match d source with
    | none => .error .fileNotFound
    | some f => .ok (.truncate destination (now 0) ::
        (pieceOps now destination 1 (pieces 0 f.content) ++
          (.utime destination f.mtime :: if move then [.unlink source] else [])))

/-- `copy`, the disk afterwards. -/
def copy (now : ℕ → ℚ) (source destination : P) (move : Bool) (d : Disk P) : Except PyErr (Disk P) :=
  (copyOps now source destination move d).map (exec d)

end Verif.Transfer
