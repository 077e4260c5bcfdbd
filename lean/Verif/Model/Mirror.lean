import Verif.Model.Posix
import Verif.Model.Utilities
import Mathlib.Data.Rat.Floor
import Mathlib.Logic.Function.Basic
/-!
Model of the programs that fetch tide models: `/repo/scripts/aviso_fes_tides.py` (145-384) and
`/repo/scripts/gsfc_got_tides.py` (54-130), with the writes to the disk one by one, so that a run can be cut
off after any of them.

Simplifications: directories exist as soon as a file in them is written and have no files in their place;
permissions and access times are left out; opening a file, each call that writes bytes and setting the time
of a file are single steps; times are rational numbers (all floats are); the network, `tarfile`, `lzma` and
`gzip` are functions given from outside.
-/
namespace Verif.Mirror
open Verif Verif.Posix

/-! ### The disk -/

/-- A file: its bytes and its time of modification in seconds. -/
structure File where
  content : List UInt8
  mtime : ℚ
deriving DecidableEq

/-- The files at the places of a disk. -/
abbrev Disk (P : Type) := P → Option File

/-- A step that changes the disk: opening a file for writing, writing bytes to it, both at a time of the
clock, setting its time of modification, and removing a file. -/
inductive Op (P : Type) where
  | truncate (p : P) (now : ℚ)
  | append (p : P) (bytes : List UInt8) (now : ℚ)
  | utime (p : P) (t : ℚ)
  | unlink (p : P)

variable {P : Type} [DecidableEq P]

/-- What a step does. -/
def step (d : Disk P) : Op P → Disk P
  | .truncate p now => Function.update d p (some ⟨[], now⟩)
  | .append p bytes now => Function.update d p ((d p).map fun f => ⟨f.content ++ bytes, now⟩)
  | .utime p t => Function.update d p ((d p).map fun f => ⟨f.content, t⟩)
  | .unlink p => Function.update d p none

/-- Steps one after the other. -/
def exec (d : Disk P) (ops : List (Op P)) : Disk P := ops.foldl step d

/-! ### Bringing files up to date -/

/-- aviso_fes_tides.py 386-387 and gsfc_got_tides.py 129-130, `newer` -/
def newer (t1 t2 : ℚ) : Bool := decide (Utilities.even t1 ≤ Utilities.even t2)

/-- A file that is to be on the disk: its place, the pieces in which its bytes are written, its time. -/
structure Item (P : Type) where
  path : P
  pieces : List (List UInt8)
  mtime : ℚ

/-- The steps that write the pieces, `k` being the number of the first step. -/
def pieceOps (now : ℕ → ℚ) (p : P) : ℕ → List (List UInt8) → List (Op P)
  | _, [] => []
  | k, b :: l => .append p b (now k) :: pieceOps now p (k + 1) l

/-- aviso_fes_tides.py 314-329 (also 340-360 and 370-384) and gsfc_got_tides.py 112-126: the steps for one
file, none if there is a file that is `newer`.  `now k` is the time of the clock at step `k` of the run. -/
def itemOps (now : ℕ → ℚ) (k : ℕ) (d : Disk P) (i : Item P) : List (Op P) :=
  if (d i.path).any (fun f => newer i.mtime f.mtime) then []
  else .truncate i.path (now k) :: (pieceOps now i.path (k + 1) i.pieces ++ [.utime i.path i.mtime])

/-- The steps of the loop over the files. -/
def runOps (now : ℕ → ℚ) (k : ℕ) (d : Disk P) : List (Item P) → List (Op P)
  | [] => []
  | i :: l =>
    let ops := itemOps now k d i
    ops ++ runOps now (k + ops.length) (exec d ops) l

/-- The loop over the files. -/
def run (now : ℕ → ℚ) (d : Disk P) (l : List (Item P)) : Disk P := exec d (runOps now 0 d l)

/-- The loop, cut off after `n` steps. -/
def crash (now : ℕ → ℚ) (n : ℕ) (d : Disk P) (l : List (Item P)) : Disk P :=
  exec d ((runOps now 0 d l).take n)

/-! ### Which files -/

/-- A member of a `tar` archive: its name, whether it is a file, its bytes and its time. -/
structure Member where
  name : Name
  isFile : Bool
  content : List UInt8
  mtime : ℚ

/-- What the programs use from outside: the bytes `gzip` makes, the pieces in which bytes are written. -/
structure Env where
  gzip : List UInt8 → List UInt8
  chunks : List UInt8 → List (List UInt8)
  flatten_chunks : ∀ b, (chunks b).flatten = b

/-- The pieces that `opener(local_file, 'wb')` writes. -/
def Env.written (e : Env) (gz : Bool) (b : List UInt8) : List (List UInt8) :=
  e.chunks (if gz then e.gzip b else b)

def ext (s : String) : Name := s.toList

/-- gsfc_got_tides.py 104-107: whether a name is taken for that of a hidden file.  In `re.match(r'^.DS', ...)`
the dot stands for any character but a line feed. -/
def gotHidden : Name → Bool
  | c :: 'D' :: 'S' :: _ => c ≠ '\n'
  | c :: '_' :: _ => c ≠ '\n'
  | _ => false

/-- gsfc_got_tides.py 94-107: whether a member is skipped. -/
def gotSkips (format : String) (m : Member) : Bool :=
  let sfx := suffix m.name
  if sfx = ext ".nc" ∧ format = "ascii" then true
  else if sfx = ext ".d" ∧ format = "netcdf" then true
  else gotHidden (basename m.name)

/-- gsfc_got_tides.py 108-110: the place of a member. -/
def gotPlace (dir : Place) (gz : Bool) (name : Name) : Place :=
  joinSplit dir (if (suffix name = ext ".d" ∨ suffix name = ext ".nc") ∧ gz then name ++ ext ".gz" else name)

/-- gsfc_got_tides.py 92-126: the files of an archive. -/
def gotItems (e : Env) (dir : Place) (format : String) (gz : Bool) (ms : List Member) :
    List (Item Place) :=
  ((ms.filter (·.isFile)).filter fun m => !gotSkips format m).map fun m =>
    ⟨gotPlace dir gz m.name, e.written gz m.content, m.mtime⟩

/-- aviso_fes_tides.py 300-309: the name under which a member of an archive is stored. -/
def fesOutput (flatten gz : Bool) (name : Name) : Name :=
  let member := if flatten then basename name else name
  if (suffix name = ext ".asc" ∨ suffix name = ext ".nc") ∧ gz then member ++ ext ".gz" else member

/-- aviso_fes_tides.py 304-329: the files of an archive. -/
def tarItems (e : Env) (dir : Place) (flatten gz : Bool) (ms : List Member) : List (Item Place) :=
  (ms.filter (·.isFile)).map fun m =>
    ⟨joinSplit dir (fesOutput flatten gz m.name), e.written gz m.content, m.mtime⟩

/-- aviso_fes_tides.py 335-338 and 362-366: the place of a file that is not in an archive. -/
def plainPlace (dir : Place) (gz : Bool) (stem : Name) : Place :=
  joinpath dir (if (suffix stem = ext ".asc" ∨ suffix stem = ext ".nc") ∧ gz then stem ++ ext ".gz" else stem)

/-- aviso_fes_tides.py 361-384: a file that is stored as it is. -/
def plainItem (e : Env) (dir : Place) (gz : Bool) (remote : Name) (b : List UInt8) (t : ℚ) : Item Place :=
  ⟨plainPlace dir gz (basename remote), e.written gz b, t⟩

/-- aviso_fes_tides.py 330-360: a file that is unpacked, `b` being its bytes after that. -/
def lzmaItem (e : Env) (dir : Place) (gz : Bool) (remote : Name) (b : List UInt8) (t : ℚ) : Item Place :=
  ⟨plainPlace dir gz (basename (stem remote)), e.written gz b, t⟩

/-! ### The models of AVISO that come as archives -/

/-- A file to be fetched: its path, how it is opened as an archive (if at all) and whether directories in it
are dropped. -/
structure Row where
  path : List String
  tar : Option String
  flatten : Option Bool
deriving DecidableEq

/-- `zip` of the three lists of aviso_fes_tides.py 216: it ends with the shortest. -/
def rows : List (List String) → List (Option String) → List (Option Bool) → List Row
  | p :: ps, t :: ts, f :: fs => ⟨p, t, f⟩ :: rows ps ts fs
  | _, _, _ => []

/-- aviso_fes_tides.py 164-213: the paths of the files of a model; `KeyError` for others is left to
`fesTar`. -/
def fesPaths (model : String) (load currents : Bool) : Option (List (List String)) :=
  if model = "FES1999" then
    some [["fes1999_fes2004", "readme_fes1999.html"], ["fes1999_fes2004", "fes1999.tar.gz"]]
  else if model = "FES2004" then
    some [["fes1999_fes2004", "readme_fes2004.html"], ["fes1999_fes2004", "fes2004.tar.gz"]]
  else if model = "FES2012" then
    some ([["fes2012_heights", "readme_fes2012_heights_v1.1"],
      ["fes2012_heights", "fes2012_heights_v1.1.tar.lzma"]] ++
      if currents then
        [["fes2012_currents", "readme_fes2012_currents_v1.1"],
          ["fes2012_currents", "fes2012_currents_v1.1_block1.tar.lzma"],
          ["fes2012_currents", "fes2012_currents_v1.1_block2.tar.lzma"],
          ["fes2012_currents", "fes2012_currents_v1.1_block3.tar.lzma"],
          ["fes2012_currents", "fes2012_currents_v1.1_block4.tar.lzma"]]
      else [])
  else if model = "FES2014" then
    some ([["fes2014_elevations_and_load", "readme_fes2014_elevation_and_load_v1.2.txt"],
      ["fes2014_elevations_and_load", "fes2014b_elevations", "ocean_tide.tar.xz"]] ++
      (if load then [["fes2014_elevations_and_load", "fes2014a_loadtide", "load_tide.tar.xz"]] else []) ++
      if currents then
        [["fes2014a_currents", "readme_fes2014_currents_v1.2.txt"],
          ["fes2014a_currents", "eastward_velocity.tar.xz"],
          ["fes2014a_currents", "northward_velocity.tar.xz"]]
      else [])
  else none

/-- aviso_fes_tides.py 164-213: the modes for opening archives. -/
def fesModes (model : String) (load currents : Bool) : List (Option String) :=
  if model = "FES1999" then [none, some "r:gz"]
  else if model = "FES2004" then [none, some "r:gz"]
  else if model = "FES2012" then
    [none, some "r:xz"] ++
      if currents then [none, some "r:xz", some "r:xz", some "r:xz", some "r:xz"] else []
  else if model = "FES2014" then
    [none, some "r"] ++ (if load then [some "r"] else []) ++ if currents then [some "r"] else []
  else []

/-- aviso_fes_tides.py 164-213: whether directories are dropped. -/
def fesFlatten (model : String) (load currents : Bool) : List (Option Bool) :=
  if model = "FES1999" then [none, some true]
  else if model = "FES2004" then [none, some true]
  else if model = "FES2012" then
    [none, some true] ++
      if currents then [none, some false, some false, some false, some false] else []
  else if model = "FES2014" then
    [none, some false] ++ (if load then [some false] else []) ++ if currents then [some false] else []
  else []

/-- aviso_fes_tides.py 216: what the loop runs over. -/
def fesRows (model : String) (load currents : Bool) : Option (List Row) :=
  (fesPaths model load currents).map fun ps =>
    rows ps (fesModes model load currents) (fesFlatten model load currents)

/-- The server: the bytes and the time of a file; and `tarfile`: the members of an archive. -/
structure Remote where
  file : List String → Option (List UInt8 × ℚ)
  untar : String → List UInt8 → Option (List Member)

/-- aviso_fes_tides.py 278-384, `ftp_download` for one row: the disk afterwards and the exception, if any.
Simplification: each row starts the clock anew. -/
def fetch (e : Env) (r : Remote) (now : ℕ → ℚ) (dir : Place) (gz : Bool) (d : Disk Place) (row : Row) :
    Disk Place × Option PyErr :=
  match r.file row.path with
  | none => (d, some .exception)
  | some (b, t) =>
    match row.tar with
    | some mode =>
      match r.untar mode b with
      | none => (d, some .exception)
      | some ms => (run now d (tarItems e dir (row.flatten = some true) gz ms), none)
    | none => (run now d [plainItem e dir gz (row.path.getLastD "").toList b t], none)

/-- aviso_fes_tides.py 216-223: the loop, which ends with the first exception. -/
def fetchAll (e : Env) (r : Remote) (now : ℕ → ℚ) (dir : Place) (gz : Bool) (d : Disk Place) :
    List Row → Disk Place × Option PyErr
  | [] => (d, none)
  | row :: l =>
    match fetch e r now dir gz d row with
    | (d', none) => fetchAll e r now dir gz d' l
    | (d', some err) => (d', some err)

/-- aviso_fes_tides.py 145-223, `aviso_fes_tar`; `model.lower()` is the directory. -/
def fesTar (e : Env) (r : Remote) (now : ℕ → ℚ) (dir : Place) (model : String) (load currents gz : Bool)
    (d : Disk Place) : Disk Place × Option PyErr :=
  match fesRows model load currents with
  | none => (d, some .keyError)
  | some l => fetchAll e r now (dir ++ [model.toLower.toList]) gz d l

end Verif.Mirror
