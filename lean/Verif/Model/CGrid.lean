import Verif.Model.Py
import Mathlib.Algebra.Order.Field.Basic
/-!
Model of the C-grid helpers `_mask_nodes`, `_interpolate_mask` and `_interpolate_zeta`
(`/repo/pyTMD/io/OTIS.py` 2095-2168).  Matrices are lists of rows; the routines are only called
with rectangular matrices that have at least one row and one column.  Depths are elements of an
ordered field instead of floats, masks are the integers 0 and 1 as in the code.
-/
namespace Verif.CGrid

variable {K : Type} [Field K] [LinearOrder K]
variable {α : Type}

/-- `np.pad(row, (1, 0), mode)`: one element in front, the last one in mode `wrap`, the first one
in mode `edge`.  (Numpy raises on an empty row; here it stays empty.) -/
def padLeft (wrap : Bool) (row : List α) : List α :=
  match (if wrap then row.getLast? else row.head?) with
  | some a => a :: row
  | none => row

/-- OTIS.py 2132-2133: `tmp = np.pad(mz, ((0,0),(1,0)), mode=mode)`, `tmp[:,:-1] op tmp[:,1:]`. -/
def adjacentX (op : α → α → α) (wrap : Bool) (m : List (List α)) : List (List α) :=
  m.map (fun row => List.zipWith op (padLeft wrap row).dropLast (padLeft wrap row).tail)

/-- OTIS.py 2134-2135: `tmp = np.pad(mz, ((1,0),(0,0)), mode='edge')`, `tmp[:-1,:] op tmp[1:,:]`. -/
def adjacentY (op : α → α → α) (m : List (List α)) : List (List α) :=
  List.zipWith (List.zipWith op) (padLeft false m).dropLast (padLeft false m).tail

/-- OTIS.py 2113-2137, `_interpolate_mask`. -/
def interpolateMask (mz : List (List ℤ)) (isGlobal : Bool) : List (List ℤ) × List (List ℤ) :=
  (adjacentX (· * ·) isGlobal mz, adjacentY (· * ·) mz)

/-- OTIS.py 2095-2110, `_mask_nodes`. -/
def maskNodes (hz : List (List K)) (isGlobal : Bool) : List (List ℤ) × List (List ℤ) :=
  interpolateMask (hz.map (fun row => row.map (fun h => if h > 0 then 1 else 0))) isGlobal

/-- Elementwise `0.5*m*s`. -/
def halfMasked (m : List (List ℤ)) (s : List (List K)) : List (List K) :=
  List.zipWith (List.zipWith (fun (a : ℤ) (b : K) => 1 / 2 * (a : K) * b)) m s

/-- OTIS.py 2140-2168, `_interpolate_zeta`.  As in the code the masks are computed with the
default `is_global=True`. -/
def interpolateZeta (hz : List (List K)) (isGlobal : Bool) : List (List K) × List (List K) :=
  let (mu, mv) := maskNodes hz true
  (halfMasked mu (adjacentX (· + ·) isGlobal hz), halfMasked mv (adjacentY (· + ·) hz))

end Verif.CGrid
