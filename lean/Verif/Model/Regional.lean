import Mathlib.Data.Nat.Digits.Defs
import Verif.Model.OTIS
import Verif.Model.Grid
/-!
Model of `/repo/scripts/reduce_OTIS_files.py`: cutting a region out of the grid file of an OTIS model
(lines 81-145), the files of constituents (146-210) and the names of the new files (213-238); and of
the coordinates computed by `read_otis_grid`, `/repo/pyTMD/io/OTIS.py` lines 943-957.

Depths are 32-bit words, coordinates are numbers of an ordered field: `num` is the number of a word
and `bits` is the word that is nearest to a number.  The transformation of the bounds to the
coordinates of the model (pyproj, twice) is a function.  The branch of the format `ATLAS-compact` is in
`Model/RegionalCompact`; permissions and logging are left out.
-/
namespace Verif.Regional
open Verif Verif.Bytes Verif.OTIS Verif.Grid

variable {K : Type} [Field K] [LinearOrder K]

/-- `np.linspace(a, b, n)` (the only value is `a` if `n` is 1). -/
def linspace (a b : K) (n : ℕ) : List K :=
  (List.range n).map fun i : ℕ => a + (i : K) * ((b - a) / ((n : K) - 1))

/-- OTIS.py 953-957: the centres of `n` cells between two edges. -/
def centres (lo hi : K) (n : ℕ) : List K :=
  let d := (hi - lo) / (n : K)
  linspace (lo + d / 2) (hi - d / 2) n

/-- OTIS.py 950-952: edges that are both negative are shifted when the time step is positive. -/
def edges (dt : K) (xlim : K × K) : K × K :=
  if xlim.1 < 0 ∧ xlim.2 < 0 ∧ dt > 0 then (xlim.1 + 360, xlim.2 + 360) else xlim

/-- What `read_otis_grid` returns: matrices as rows, boundary as a flat list of indices. -/
structure Grid (K : Type) where
  x : List K
  y : List K
  hz : List (List F4)
  mz : List (List ℤ)
  iob : List ℤ
  dt : F4

/-- `a.reshape(ny, nx)` of a list of the right length. -/
def reshape {α : Type} (nx : ℕ) : ℕ → List α → List (List α)
  | 0, _ => []
  | n + 1, l => l.take nx :: reshape nx n (l.drop nx)

/-- OTIS.py 914-975, `read_otis_grid`, with the coordinates. -/
def readAll (num : F4 → K) (file : List UInt8) : Except PyErr (Grid K) := do
  let g ← readGrid file
  match g.limits.map (fun w => num (UInt32.ofNat w)) with
  | [y0, y1, x0, x1] =>
    let xl := edges (num g.dt) (x0, x1)
    .ok ⟨centres xl.1 xl.2 g.nx, centres y0 y1 g.ny, reshape g.nx g.ny g.hz, reshape g.nx g.ny g.mz,
      g.iob, g.dt⟩
  | _ => .error .indexError

/-- `np.min` of a non-empty array. -/
def least (a : K) (l : List K) : K := l.foldl min a
/-- `np.max` of a non-empty array. -/
def greatest (a : K) (l : List K) : K := l.foldl max a

/-- reduce_OTIS_files.py 108-121 with `x.min()` and the others: the least and the greatest coordinates
of the corners `(xmin, ymin)`, `(xmax, ymin)`, `(xmax, ymax)`, `(xmin, ymax)`, `(xmin, ymin)`. -/
def box (conv : K × K → K × K) (xmin xmax ymin ymax : K) : (K × K) × (K × K) :=
  let f := conv (xmin, ymin)
  let l := [conv (xmax, ymin), conv (xmax, ymax), conv (xmin, ymax), conv (xmin, ymin)]
  ((least f.1 (l.map Prod.fst), greatest f.1 (l.map Prod.fst)),
    (least f.2 (l.map Prod.snd), greatest f.2 (l.map Prod.snd)))

/-- reduce_OTIS_files.py 124-126: `np.nonzero` of the condition on the mesh of the coordinates, pairs
(row, column) row by row. -/
def cells (x y : List K) (b : (K × K) × (K × K)) : List (ℕ × ℕ) :=
  ((List.range y.length).flatMap fun j => (List.range x.length).map fun i => (j, i)).filter fun p =>
    match y[p.1]?, x[p.2]? with
    | some v, some u => decide (b.1.1 ≤ u ∧ u ≤ b.1.2 ∧ b.2.1 ≤ v ∧ v ≤ b.2.2)
    | _, _ => false

/-- reduce_OTIS_files.py 127-128: `np.count_nonzero((v >= lo) & (v <= hi))`. -/
def countWithin (v : List K) (lo hi : K) : ℕ := v.countP fun a => decide (lo ≤ a ∧ a ≤ hi)

/-- reduce_OTIS_files.py 130-133: `v[index] - step/2` and `v[other] + step/2`. -/
def limitsOf (v : List K) (first last : ℕ) : Except PyErr (K × K) :=
  match v[0]?, v[1]?, v[first]?, v[last]? with
  | some v0, some v1, some a, some b => .ok (a - |v1 - v0| / 2, b + |v1 - v0| / 2)
  | _, _, _, _ => .error .indexError

/-- `m[indy, indx]`. -/
def pick {α : Type} (m : List (List α)) (l : List (ℕ × ℕ)) : Except PyErr (List α) :=
  pyMap (fun p => match m[p.1]? with
    | some r => match r[p.2]? with
      | some v => .ok v
      | none => .error .indexError
    | none => .error .indexError) l

/-- A part of a grid: edges, depths, mask. -/
structure Part (K : Type) where
  xlim : K × K
  ylim : K × K
  nx : ℕ
  ny : ℕ
  hz : List (List F4)
  mz : List (List ℤ)

/-- reduce_OTIS_files.py 123-139: the part of a grid within a box. -/
def cut (g : Grid K) (b : (K × K) × (K × K)) : Except PyErr (Part K) := do
  let c := cells g.x g.y b
  let nx := countWithin g.x b.1.1 b.1.2
  let ny := countWithin g.y b.2.1 b.2.2
  match c.head?, c.getLast? with
  | some f, some l =>
    let xlim ← limitsOf g.x f.2 l.2
    let ylim ← limitsOf g.y f.1 l.1
    let hz ← pick g.hz c
    let mz ← pick g.mz c
    if hz.length = ny * nx ∧ mz.length = ny * nx then
      .ok ⟨xlim, ylim, nx, ny, reshape nx ny hz, reshape nx ny mz⟩
    else .error .valueError
  | _, _ => .error .indexError

/-- The pairs of a flat list of indices. -/
def pairs : List ℤ → List (ℤ × ℤ)
  | a :: b :: t => (a, b) :: pairs t
  | _ => []

/-- reduce_OTIS_files.py 106-142: the bytes of the new grid file. -/
def reduceGrid (bits : K → F4) (conv : K × K → K × K) (g : Grid K) (xmin xmax ymin ymax : K) :
    Except PyErr (List UInt8) := do
  let p ← cut g (box conv xmin xmax ymin ymax)
  outputGrid p.nx p.ny (tofileF [bits p.ylim.1, bits p.ylim.2]) (tofileF [bits p.xlim.1, bits p.xlim.2])
    p.hz p.mz (pairs g.iob) g.dt

/-! ### Names of the new files -/

/-- The characters of a decimal number. -/
def decimal (n : ℕ) : List Char :=
  if n = 0 then ['0'] else (Nat.digits 10 n).reverse.map Nat.digitChar

/-- `Path.stem` and `Path.suffix`: the suffix starts at the last point, unless that is the first or the
last character. -/
def splitName (name : List Char) : List Char × List Char :=
  let after := (name.reverse.takeWhile (· ≠ '.')).reverse
  let k := name.length - after.length
  if '.' ∈ name ∧ 1 < k ∧ after ≠ [] then (name.take (k - 1), name.drop (k - 1)) else (name, [])

/-- reduce_OTIS_files.py 216-218: what the new names begin with. -/
def base (name : List Char) : List Char :=
  let p := splitName name
  p.1 ++ (if p.2 = ".out".toList ∨ p.2 = ".oce".toList then [] else p.2)

/-- reduce_OTIS_files.py 220 and 235: the names that are tried, by counter. -/
def candidate (name : List Char) : ℕ → List Char
  | 0 => base name ++ ".reduced".toList
  | c + 1 => base name ++ ".reduced_".toList ++ decimal (c + 1)

/-- reduce_OTIS_files.py 221-237: the loop; a file that exists cannot be opened with mode `xb`.  The
first argument bounds the number of rounds, the second counts them (`counter - 1` in the code).
Simplification: a file that does not exist can be made. -/
def tryNames (existing : List (List Char)) (name : List Char) : ℕ → ℕ → Option (List Char)
  | 0, _ => none
  | k + 1, c =>
    if candidate name c ∈ existing then tryNames existing name k (c + 1) else some (candidate name c)

/-! ### The script -/

/-- Files with their bytes. -/
abbrev Files := List (List Char × List UInt8)

/-- reduce_OTIS_files.py 148-156, 181-188: the look-up of the file of constituents in the dictionary
`model_file` of lines 91 and what follows it (`next`). -/
def fieldStep (modelFile : List (String × List Char)) (key : String)
    (next : List Char → Files → Files × Option PyErr) (fs : Files) : Files × Option PyErr :=
  match modelFile.lookup key with
  | some name => next name fs
  | none => (fs, some .keyError)

/-- reduce_OTIS_files.py 87-90: the grid file of the model for elevations, otherwise for currents. -/
def gridFile (elevation current : Except PyErr (List Char)) : Except PyErr (List Char) :=
  match elevation with
  | .ok g => .ok g
  | .error _ => current

/-- reduce_OTIS_files.py 82-210, `make_regional_OTIS_files`: the files afterwards and the exception
if there is one.  `elevation` and `current` are the grid files of the model for elevations and
currents, or exceptions; `reduced` gives the bytes of the new grid from the name of the old one;
`heights` and `transports` are the parts that cut the constituents. -/
def script (elevation current : Except PyErr (List Char))
    (reduced : List Char → Except PyErr (List UInt8))
    (heights transports : List Char → Files → Files × Option PyErr) (fs : Files) :
    Files × Option PyErr :=
  let modelFile : List (String × List Char) := []
  match gridFile elevation current with
  | .error e => (fs, some e)
  | .ok grid =>
    match reduced grid with
    | .error e => (fs, some e)
    | .ok bytes =>
      match tryNames (fs.map Prod.fst) grid (fs.length + 1) 0 with
      | none => (fs, some .exception)
      | some name =>
        let fs := fs ++ [(name, bytes)]
        let (fs, e) := (match elevation with
          | .ok _ => fieldStep modelFile "z" heights fs
          | .error _ => (fs, none))
        match e with
        | some e => (fs, some e)
        | none =>
          match current with
          | .ok _ => fieldStep modelFile "u" transports fs
          | .error _ => (fs, none)

end Verif.Regional
