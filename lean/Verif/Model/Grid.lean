import Verif.Model.Py
import Verif.Model.Num
/-!
Model of the grid helpers `_extend_array`, `_extend_matrix`, `_crop` and `_shift`
(`/repo/pyTMD/io/OTIS.py` 1925-2092, and the copies in `GOT.py` 762-930, `FES.py` 878-1040,
`ATLAS.py` 1209-1373, `IERS.py` 223-330).

A matrix is modelled by one of its rows (the routines treat all rows alike): the columns are
the entries of the list.  In `IERS.py` the roles of rows and columns are exchanged.
-/
namespace Verif.Grid
open Verif

variable {K : Type} [Field K] [LinearOrder K] [IsStrictOrderedRing K]
variable {α : Type}

/-- OTIS.py 1925-1947, `_extend_array` (also FES, ATLAS, IERS).  An empty input raises
`IndexError`. -/
def extendArray (l : List K) (step : K) : Except PyErr (List K) :=
  match l.head?, l.getLast? with
  | some a, some b => .ok ([a - step] ++ l ++ [b + step])
  | _, _ => .error .indexError

/-- OTIS.py 1950-1974, one row of `_extend_matrix` (also FES, ATLAS, IERS). -/
def extendRow (l : List α) : Except PyErr (List α) :=
  match l.head?, l.getLast? with
  | some a, some b => .ok ([b] ++ l ++ [a])
  | _, _ => .error .indexError

/-- GOT.py 762-785, `_extend_array` with three extra elements. -/
def extendArray3 (l : List K) (step : K) : Except PyErr (List K) :=
  match l.head?, l.getLast? with
  | some a, some b => .ok ([a - step] ++ l ++ [b + step, b + 2 * step])
  | _, _ => .error .indexError

/-- GOT.py 788-813, one row of `_extend_matrix`: `temp[:,-1] = input_matrix[:,1]` raises
`IndexError` if there is only one column. -/
def extendRow3 (l : List α) : Except PyErr (List α) :=
  match l.head?, l.getLast?, l[1]? with
  | some a, some b, some c => .ok ([b] ++ l ++ [a, c])
  | _, _, _ => .error .indexError

/-- A Python slice bound: negative values count from the end, everything is clipped. -/
def normIdx (n : ℕ) (i : Int) : ℕ :=
  let j := if i < 0 then i + n else i
  if j < 0 then 0 else if j > n then n else j.toNat

/-- Numpy assignment `l[a:b] = src`: the lengths must agree, or the source has length one and is
broadcast; otherwise `ValueError`. -/
def setSlice (l : List α) (a b : Int) (src : List α) : Except PyErr (List α) :=
  let i := normIdx l.length a
  let j := max i (normIdx l.length b)
  if src.length = j - i then .ok (l.take i ++ src ++ l.drop j)
  else match src with
    | [x] => .ok (l.take i ++ List.replicate (j - i) x ++ l.drop j)
    | _ => .error .valueError

/-- `l[a:b] op= c`: elementwise update of a slice. -/
def mapSlice (l : List α) (a b : Int) (f : α → α) : List α :=
  let i := normIdx l.length a
  let j := max i (normIdx l.length b)
  l.take i ++ ((l.drop i).take (j - i)).map f ++ l.drop j

/-- `np.argmin`: index of the first smallest element; `ValueError` on an empty array. -/
def argmin : List K → Except PyErr ℕ
  | [] => .error .valueError
  | a :: t =>
    .ok ((t.foldl (fun (acc : ℕ × ℕ × K) b =>
      let (best, k, m) := acc
      if b < m then (k, k + 1, b) else (best, k + 1, m)) (0, 1, a)).1)

/-- Direction keyword of `_shift`. -/
inductive Dir where
  | east
  | west
  | other
  deriving DecidableEq

/-- OTIS.py 2066: `offset = 0 if (np.fabs(ix[-1]-ix[0]-cyclic) > 1e-4) else 1`. -/
def offset (ix : List K) (cyclic : K) : Except PyErr ℕ :=
  match ix.head?, ix.getLast? with
  | some a, some b => .ok (if |b - a - cyclic| > 1 / 10 ^ 4 then 0 else 1)
  | _, _ => .error .indexError

/-- OTIS.py 2069-2071, 2083-2089: the two slice assignments that rotate an array. -/
def rotateArray (zero : α) (l : List α) (i0 off : ℕ) : Except PyErr (List α) := do
  let x ← setSlice (List.replicate l.length zero) 0 (-(i0 : Int)) (l.drop i0)
  setSlice x (-(i0 : Int)) l.length ((l.drop off).take i0)

/-- OTIS.py 2038-2092, `_shift` for the longitudes and one row of the matrix. -/
def shift (zero : α) (row : List α) (ix : List K) (x0 cyclic : K) (dir : Dir) :
    Except PyErr (List α × List K) := do
  let off ← offset ix cyclic
  let i0 ← argmin (ix.map (fun v => |v - x0|))
  let x ← rotateArray 0 ix i0 off
  let x := match dir with
    | .east => mapSlice x (-(i0 : Int)) x.length (fun v => v + cyclic)
    | .west => mapSlice x 0 (-(i0 : Int)) (fun v => v - cyclic)
    | .other => x
  let temp ← rotateArray zero row i0 off
  .ok (temp, x)

/-- `np.flatnonzero((v >= lo) & (v <= hi))`. -/
def flatnonzero (v : List K) (lo hi : K) : List ℕ :=
  (List.range v.length).filter (fun i =>
    match v[i]? with
    | some a => decide (lo ≤ a ∧ a ≤ hi)
    | none => false)

/-- OTIS.py 2023-2027: `slice(ind[0], ind[-1]+1)`; indexing an empty array raises
`IndexError`. -/
def cropSlice (ind : List ℕ) : Except PyErr (ℕ × ℕ) :=
  match ind.head?, ind.getLast? with
  | some a, some b => .ok (a, b + 1)
  | _, _ => .error .indexError

/-- A basic slice `l[a:b]` with nonnegative bounds. -/
def sliceNat (l : List α) (ab : ℕ × ℕ) : List α := (l.drop ab.1).take (ab.2 - ab.1)

/-- OTIS.py 2017-2035: the part of `_crop` after the adjustment of longitudes, for a whole
matrix given as a list of rows. -/
def cropCore (m : List (List α)) (ix iy : List K) (xmin xmax ymin ymax buffer : K) :
    Except PyErr (List (List α) × List K × List K) := do
  let rows ← cropSlice (flatnonzero iy (ymin - buffer) (ymax + buffer))
  let cols ← cropSlice (flatnonzero ix (xmin - buffer) (xmax + buffer))
  .ok ((sliceNat m rows).map (fun r => sliceNat r cols), sliceNat ix cols, sliceNat iy rows)

/-- The row returned by `_shift`. -/
def shiftRow (zero : α) (ix : List K) (x0 cyclic : K) (dir : Dir) (row : List α) :
    Except PyErr (List α) :=
  match shift zero row ix x0 cyclic dir with
  | .error e => .error e
  | .ok p => .ok p.1

/-- `_shift` applied to every row of a matrix; the longitudes are those of any row. -/
def shiftMatrix (zero : α) (m : List (List α)) (ix : List K) (x0 cyclic : K) (dir : Dir) :
    Except PyErr (List (List α) × List K) := do
  let r ← shift (0 : K) ix ix x0 cyclic dir
  let rows ← pyMap (shiftRow zero ix x0 cyclic dir) m
  .ok (rows, r.2)

/-- OTIS.py 1977-2035, `_crop`, including the adjustment of the longitude convention of the
model in lines 2010-2016. -/
def crop (zero : α) (m : List (List α)) (ix iy : List K) (xmin xmax ymin ymax buffer : K)
    (geographic : Bool) : Except PyErr (List (List α) × List K × List K) := do
  match ix.min?, ix.max? with
  | some lo, some hi =>
    if geographic = true ∧ min xmin xmax < 0 ∧ hi > 180 then
      let (m', ix') ← shiftMatrix zero m ix 180 360 .west
      cropCore m' ix' iy xmin xmax ymin ymax buffer
    else if geographic = true ∧ max xmin xmax > 180 ∧ lo < 0 then
      let (m', ix') ← shiftMatrix zero m ix 0 360 .east
      cropCore m' ix' iy xmin xmax ymin ymax buffer
    else cropCore m ix iy xmin xmax ymin ymax buffer
  | _, _ => .error .valueError

/-- OTIS.py 310-317 and 805-808: adjust the input longitudes to the model, for the whole batch.
The model range is given by its smallest and largest longitude.  In `extract_constants` the
first test is skipped when cropping. -/
def adjustOTIS (lo hi : K) (x : List K) : Except PyErr (List K) :=
  match x.min? with
  | none => .error .valueError
  | some mn =>
    let x1 := if mn < lo then x.map (fun v => if v < 0 then v + 360 else v) else x
    match x1.max? with
    | none => .error .valueError
    | some mx => .ok (if mx > hi then x1.map (fun v => if v > 180 then v - 360 else v) else x1)

/-- GOT.py 248-255 and 450-457 (also FES, ATLAS): adjust the input longitudes to the model. -/
def adjustGOT (lo hi : K) (x : List K) : Except PyErr (List K) :=
  match x.min?, x.max? with
  | some mn, some mx =>
    if mn < 0 ∧ hi > 180 then .ok (x.map (fun v => if v < 0 then v + 360 else v))
    else if mx > 180 ∧ lo < 0 then .ok (x.map (fun v => if v > 180 then v - 360 else v))
    else .ok x
  | _, _ => .error .valueError

end Verif.Grid
