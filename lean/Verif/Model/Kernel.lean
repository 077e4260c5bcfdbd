import Verif.Model.Transfer
import Verif.Model.Locator
/-!
Model of where the ephemerides of the Jet Propulsion Laboratory come from: `/repo/pyTMD/utilities.py` 121-137
(`get_data_path`) and 1525-1571 (`from_jpl_ssd`), the part of `from_http` (871-901) that finds the local path,
and the beginnings of `solar_ephemerides` and `lunar_ephemerides` in `/repo/pyTMD/astro.py` (96, 464-471 and
618-625), which fetch a kernel if there is none and then open it.

Simplifications: those of `Verif.Model.Transfer`.  A path is the list of its parts as `pathlib` has it, with
`root` if it begins with a slash.  `RuntimeError` of `expanduser` is `exception`.  What `jplephem` does with
the bytes that it opens is not modelled.
-/
namespace Verif.Kernel
open Verif Verif.Posix Verif.Mirror Verif.Transfer

/-- `pathlib.Path` -/
structure Path where
  root : Bool
  parts : List Name
deriving DecidableEq

/-- What is around a run: the home directories of the users (the empty name is the user of the run), the
working directory, the directory of the package, the server, the hash and the clock. -/
structure World where
  home : Name → Option (List Name)
  cwd : List Name
  package : List Name
  server : Name → Option (List UInt8)
  digest : List UInt8 → String
  now : ℕ → ℚ

/-- The place that the operating system finds for a path, also `Path.absolute`. -/
def place (w : World) (p : Path) : List Name := if p.root then p.parts else w.cwd ++ p.parts

/-- `Path.expanduser`: the first part of a relative path may be a home directory. -/
def expanduser (w : World) (p : Path) : Except PyErr Path :=
  match p.root, p.parts with
  | false, ('~' :: user) :: rest => match w.home user with
    | some h => .ok ⟨true, h ++ rest⟩
    | none => .error .exception
  | _, _ => .ok p

/-- `pathlib.Path(local).expanduser().absolute()` -/
def expand (w : World) (p : Path) : Except PyErr (List Name) := (expanduser w p).map (place w)

/-- `Path.name` -/
def fileName (parts : List Name) : Name := parts.getLast?.getD []

/-- utilities.py 871-901, `from_http`: the steps that write a file of the server to a path. -/
def httpOps (w : World) (host : List Name) (loc : Path) (hash : String) (chunk : ℕ) :
    Except PyErr (List (Op (List Name))) :=
  match w.server (Locator.join host) with
  | none => .error .exception
  | some b =>
    if hash ≠ w.digest b then
      (expand w loc).map fun q => downloadOps w.digest w.now chunk b none (some q) hash
    else .ok []

/-- utilities.py 1567: the parts of the address of a kernel. -/
def jplHost (kernel : Name) : List Name :=
  ["https://ssd.jpl.nasa.gov".toList, "ftp".toList, "eph".toList, "planets".toList, "bsp".toList, kernel]

/-- utilities.py 121-137, `get_data_path(['data', name])` -/
def dataPath (w : World) (name : Name) : Path := ⟨true, w.package ++ ["data".toList, name]⟩

/-- utilities.py 1525-1571, `from_jpl_ssd`, the steps; without any name `joinpath(None)` raises `TypeError`.
The callers give the default of `kernel`, which is `de440s.bsp`, or `None`. -/
def jplOps (w : World) (kernel : Option Name) (loc : Option Path) (hash : String) (chunk : ℕ) :
    Except PyErr (List (Op (List Name))) :=
  match loc, kernel with
  | none, none => .error .typeError
  | none, some k => httpOps w (jplHost k) (dataPath w k) hash chunk
  | some p, none => (expand w p).bind fun q => httpOps w (jplHost (fileName q)) ⟨true, q⟩ hash chunk
  | some p, some k => httpOps w (jplHost k) p hash chunk

/-- astro.py 96, `_default_kernel` -/
def defaultKernel (w : World) : Path := dataPath w "de440s.bsp".toList

/-- astro.py 468-469 and 620-621: a kernel that does not exist is fetched. -/
def fetchOps (w : World) (p : Path) (d : Disk (List Name)) : Except PyErr (List (Op (List Name))) :=
  if (d (place w p)).isSome then .ok [] else jplOps w none (some p) "" 16384

/-- astro.py 471 and 625: the bytes of the kernel that is opened. -/
def openKernel (w : World) (p : Path) (d : Disk (List Name)) : Except PyErr (List UInt8) :=
  match d (place w p) with
  | some f => .ok f.content
  | none => .error .fileNotFound

/-- astro.py 464-471 and 618-625: the kernel that positions are computed from, and the disk afterwards. -/
def use (w : World) (kernel : Option Path) (d : Disk (List Name)) :
    Except PyErr (List UInt8) × Disk (List Name) :=
  match fetchOps w (kernel.getD (defaultKernel w)) d with
  | .error e => (.error e, d)
  | .ok ops => (openKernel w (kernel.getD (defaultKernel w)) (exec d ops), exec d ops)

/-- Uses one after the other: the kernels and the disk. -/
def uses (w : World) : List (Option Path) → Disk (List Name) →
    List (Except PyErr (List UInt8)) × Disk (List Name)
  | [], d => ([], d)
  | k :: l, d => ((use w k d).1 :: (uses w l (use w k d).2).1, (uses w l (use w k d).2).2)

end Verif.Kernel
