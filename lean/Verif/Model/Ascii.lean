import Verif.Model.Py
import Mathlib.Analysis.SpecialFunctions.Complex.Circle
/-!
Model of the readers of ascii grids: `GOT.read_ascii_file` (`/repo/pyTMD/io/GOT.py` 538-620) and
`FES.read_ascii_file` (`/repo/pyTMD/io/FES.py` 595-675).

A file is the list of its lines and a line the list of its values: splitting at blanks and the
conversion of text to numbers are left out, and so are the values in the lines of the header other
than the size of the grid.  Where both the amplitude and the phase of a row fail, the model reports
the failure of the amplitudes.
-/
namespace Verif.Ascii
open Verif

variable {R : Type}

/-- `file_contents[l]` -/
def line (lines : List (List R)) (l : Nat) : Except PyErr (List R) :=
  match lines[l]? with
  | some t => .ok t
  | none => .error .indexError

/-- `a[i,j1:j1+width] = values`: a single value is repeated, any other number of values than the
width is an error. -/
def assign (width : Nat) (values : List R) : Except PyErr (List R) :=
  if values.length = width then .ok values
  else match values with
    | [v] => .ok (List.replicate width v)
    | _ => .error .valueError

/-- A number of blocks of `width` values, in every `step`-th line from `l`. -/
def blocks (lines : List (List R)) (step width : Nat) : Nat → Nat → Except PyErr (List R)
  | 0, _ => .ok []
  | n + 1, l => do
    let t ← line lines l
    let a ← assign width t
    let rest ← blocks lines step width n (l + step)
    .ok (a ++ rest)

/-- GOT.py 589-608 and FES.py 648-665, one row: the full blocks, and then the last values.  The
variable `j` of the inner loop is used after it: without a full block it is not bound. -/
def row (lines : List (List R)) (step width nlon l : Nat) : Except PyErr (List R) := do
  let full ← blocks lines step width (nlon / width) l
  if nlon / width = 0 then .error .unbound
  else do
    let t ← line lines (l + step * (nlon / width))
    let a ← assign (nlon % width) t
    .ok (full ++ a)

/-- The rows, each with one line more than it has full blocks. -/
def rows (lines : List (List R)) (step width nlon : Nat) : Nat → Nat → Except PyErr (List (List R))
  | 0, _ => .ok []
  | n + 1, l => do
    let r ← row lines step width nlon l
    let rest ← rows lines step width nlon n (l + step * (nlon / width + 1))
    .ok (r :: rest)

/-- GOT.py 573-608: amplitudes from the eighth line; phases after them and a second header. -/
def readGOT (lines : List (List R)) (nlat nlon : Nat) :
    Except PyErr (List (List R) × List (List R)) := do
  let amp ← rows lines 1 11 nlon nlat 7
  let ph ← rows lines 1 11 nlon nlat (14 + (nlon / 11) * nlat + nlat)
  .ok (amp, ph)

/-- FES.py 626-665: lines of amplitudes and phases in turn, from the sixth line. -/
def readFES (lines : List (List R)) (nlat nlon : Nat) :
    Except PyErr (List (List R) × List (List R)) := do
  let amp ← rows lines 2 30 nlon nlat 5
  let ph ← rows lines 2 30 nlon nlat (5 + 1)
  .ok (amp, ph)

/-- The values of the header that are used: the size of the grid, the ends of the axes and the value
that marks cells without data (GOT.py 577-583, FES.py 628-639).  GOT files give the number of rows
and the latitudes first, FES files the number of columns and the longitudes. -/
structure Header (R : Type) where
  nlat : Nat
  nlon : Nat
  lat0 : R
  lat1 : R
  lon0 : R
  lon1 : R
  fill : R

/-- `np.linspace(a, b, n)` -/
noncomputable def linspace (a b : ℝ) (n : Nat) : List ℝ :=
  (List.range n).map (fun i : Nat => if n = 1 then a else a + i * ((b - a) / (n - 1)))

/-- GOT.py 609-615 and FES.py 667-671, one cell; `none` is a masked cell.  Reading in single
precision is left out. -/
noncomputable def cell (fill a p : ℝ) : Option ℂ :=
  open Classical in
  if a = fill ∨ p = fill then none
  else some (a * Complex.exp (-Complex.I * p * Real.pi / 180))

noncomputable def cells (fill : ℝ) (amp ph : List (List ℝ)) : List (List (Option ℂ)) :=
  List.zipWith (List.zipWith (cell fill)) amp ph

structure Read where
  hc : List (List (Option ℂ))
  lon : List ℝ
  lat : List ℝ

/-- `GOT.read_ascii_file` but for the name of the constituent, GOT.py 574-617. -/
noncomputable def gotFile (h : Header ℝ) (lines : List (List ℝ)) : Except PyErr Read := do
  let (amp, ph) ← readGOT lines h.nlat h.nlon
  .ok ⟨cells h.fill amp ph, linspace h.lon0 h.lon1 h.nlon, linspace h.lat0 h.lat1 h.nlat⟩

/-- `FES.read_ascii_file`, FES.py 622-673.  With `compressed` the call `f.read(input_file)` gives
the path where a number of bytes is expected, which is an error. -/
noncomputable def fesFile (compressed : Bool) (h : Header ℝ) (lines : List (List ℝ)) :
    Except PyErr Read :=
  if compressed then .error .typeError
  else do
    let (amp, ph) ← readFES lines h.nlat h.nlon
    .ok ⟨cells h.fill amp ph, linspace h.lon0 h.lon1 h.nlon, linspace h.lat0 h.lat1 h.nlat⟩

end Verif.Ascii
