import Verif.Model.OTIS
/-!
Model of the ATLAS-compact readers `read_atlas_elevation` (`/repo/pyTMD/io/OTIS.py` 1221-1319) and
`read_atlas_transport` (1378-1495): a global solution followed by local solutions, each of which
holds its own list of constituents.

The conventions are those of `Verif.Model.OTIS`.  Counts read from the file are taken to be
nonnegative (`np.fromfile` with `count=-1` would read to the end of the file).
-/
namespace Verif.OTIS
open Verif Verif.Bytes

/-- `bytes.strip()`. -/
def strip (bs : List UInt8) : List UInt8 :=
  ((bs.dropWhile isSpace).reverse.dropWhile isSpace).reverse

/-- `fid.read(n)`. -/
def readBytes (n : ℕ) (bs : List UInt8) : List UInt8 × List UInt8 := (bs.take n, bs.drop n)

/-- An index `i` of an axis of length `n`: numpy accepts `-n ≤ i < n`. -/
def axisIndex (n : ℕ) (i : ℤ) : Except PyErr ℕ :=
  if 0 ≤ i ∧ i < n then .ok i.toNat
  else if -(n : ℤ) ≤ i ∧ i < 0 then .ok (i + n).toNat
  else .error .indexError

/-- `h1.data[jz-1,iz-1] = z; h1.mask[jz-1,iz-1] = False` on an array masked everywhere; `cells`
lists `((iz, jz), z)`. -/
def scatter {α : Type} (ny nx : ℕ) (cells : List ((ℤ × ℤ) × α)) :
    Except PyErr (List (List (Option α))) := do
  let pos ← pyMap (fun p => do
    let r ← axisIndex ny (p.1.2 - 1)
    let c ← axisIndex nx (p.1.1 - 1)
    .ok ((r, c), p.2)) cells
  .ok (pos.foldl (fun a p => a.modify p.1.1 (fun row => row.set p.1.2 (some p.2)))
    (List.replicate ny (List.replicate nx none)))

/-- `temp = np.fromfile(fid, dtype='>f4', count=2*n)` and the two strided slices, paired with the
cells; slices of another length than the index arrays cannot be assigned. -/
def readCells (n : ℕ) (iz jz : List ℤ) (bs : List UInt8) :
    Except PyErr (List ((ℤ × ℤ) × C8) × List UInt8) :=
  let (w, bs) := fromfile (2 * n) bs
  let temp := w.map UInt32.ofNat
  if temp.length = 2 * n ∧ iz.length = n ∧ jz.length = n then
    .ok ((iz.zip jz).zip (splitZ temp), bs)
  else .error .valueError

/-- `ic1, = [i for i,c in enumerate(cons) if (c == constituent)]` -/
def uniqueIndex (c : Name) (cons : List Name) : Except PyErr ℕ :=
  match (List.range cons.length).filter (fun i => decide (cons[i]? = some c)) with
  | [i] => .ok i
  | _ => .error .valueError

/-- A local elevation solution, as stored in the dictionary `local` under its name. -/
structure LocalZ where
  name : List UInt8
  lon : List ℕ
  lat : List ℕ
  z : List (List (Option C8))
  deriving DecidableEq

/-- OTIS.py 1270-1315: one pass of the loop over local elevation solutions. -/
def readLocalZ (c : Name) (bs : List UInt8) : Except PyErr (Option LocalZ × List UInt8) := do
  let bs := seek 4 bs
  let (nx1, bs) ← readI bs
  let (ny1, bs) ← readI bs
  let (nc1, bs) ← readI bs
  let (nz, bs) ← readI bs
  let (lt1, bs) := fromfile 2 bs
  let (ln1, bs) := fromfile 2 bs
  let (text, bs) := readBytes (nc1 * 4).toNat bs
  let cons := splitWords [] text
  if c ∈ cons then do
    let ic1 ← uniqueIndex c cons
    let (name, bs) := readBytes 20 bs
    let bs := seek 8 bs
    let (iz, bs) := fromfile nz.toNat bs
    let (jz, bs) := fromfile nz.toNat bs
    let bs := seek (8 + ic1 * (8 * nz + 8)) bs
    let (cells, bs) ← readCells nz.toNat (iz.map toI4) (jz.map toI4) bs
    let h1 ← scatter ny1.toNat nx1.toNat cells
    let bs := seek ((nc1 - ic1 - 1) * (8 * nz + 8) + 4) bs
    .ok (some { name := strip name, lon := ln1, lat := lt1, z := h1 }, bs)
  else
    .ok (none, seek (40 + 16 * nz + (nc1 - 1) * (8 * nz + 8)) bs)

/-- OTIS.py 1268-1315: `while (fid.tell() < file_info.st_size)`.  The first argument bounds the
number of passes; it is taken as the number of bytes left, which is never reached because each
pass reads at least one byte.  The entries assigned to the dictionary are returned in order. -/
def readLocalsZ (c : Name) : ℕ → List UInt8 → Except PyErr (List LocalZ)
  | _, [] => .ok []
  | 0, _ => .error .stopIteration
  | n + 1, b :: t => do
    let (r, bs) ← readLocalZ c (b :: t)
    let rest ← readLocalsZ c n bs
    .ok (r.toList ++ rest)

/-- OTIS.py 1221-1319, `read_atlas_elevation`. -/
def readAtlasElevation (file : List UInt8) (ic : ℕ) (c : Name) :
    Except PyErr (List (List C8) × List LocalZ) := do
  let ((_, nx, ny, nc), bs) ← readHeader file
  let bs := seek (8 + nc * 4 + ic * ((nx : ℤ) * ny * 8 + 8)) bs
  let (rows, bs) ← readRows (2 * nx) ny bs
  let bs := seek ((nc - ic - 1) * ((nx : ℤ) * ny * 8 + 8) + 4) bs
  let locals ← readLocalsZ c bs.length bs
  .ok (rows.map splitZ, locals)

/-- A local transport solution. -/
structure LocalUV where
  name : List UInt8
  lon : List ℕ
  lat : List ℕ
  u : List (List (Option C8))
  v : List (List (Option C8))
  deriving DecidableEq

/-- OTIS.py 1436-1490: one pass of the loop over local transport solutions. -/
def readLocalUV (c : Name) (bs : List UInt8) : Except PyErr (Option LocalUV × List UInt8) := do
  let bs := seek 4 bs
  let (nx1, bs) ← readI bs
  let (ny1, bs) ← readI bs
  let (nc1, bs) ← readI bs
  let (nu, bs) ← readI bs
  let (nv, bs) ← readI bs
  let (lt1, bs) := fromfile 2 bs
  let (ln1, bs) := fromfile 2 bs
  let (text, bs) := readBytes (nc1 * 4).toNat bs
  let cons := splitWords [] text
  if c ∈ cons then do
    let ic1 ← uniqueIndex c cons
    let (name, bs) := readBytes 20 bs
    let bs := seek 8 bs
    let (iu, bs) := fromfile nu.toNat bs
    let (ju, bs) := fromfile nu.toNat bs
    let bs := seek 8 bs
    let (iv, bs) := fromfile nv.toNat bs
    let (jv, bs) := fromfile nv.toNat bs
    let bs := seek (8 + ic1 * (8 * nu + 8 * nv + 16)) bs
    let (cu, bs) ← readCells nu.toNat (iu.map toI4) (ju.map toI4) bs
    let u1 ← scatter ny1.toNat nx1.toNat cu
    let bs := seek 8 bs
    let (cv, bs) ← readCells nv.toNat (iv.map toI4) (jv.map toI4) bs
    let v1 ← scatter ny1.toNat nx1.toNat cv
    let bs := seek ((nc1 - ic1 - 1) * (8 * nu + 8 * nv + 16) + 4) bs
    .ok (some { name := strip name, lon := ln1, lat := lt1, u := u1, v := v1 }, bs)
  else
    .ok (none, seek (56 + 16 * nu + 16 * nv + (nc1 - 1) * (8 * nu + 8 * nv + 16)) bs)

/-- OTIS.py 1434-1490: the loop over local transport solutions, see `readLocalsZ`. -/
def readLocalsUV (c : Name) : ℕ → List UInt8 → Except PyErr (List LocalUV)
  | _, [] => .ok []
  | 0, _ => .error .stopIteration
  | n + 1, b :: t => do
    let (r, bs) ← readLocalUV c (b :: t)
    let rest ← readLocalsUV c n bs
    .ok (r.toList ++ rest)

/-- OTIS.py 1378-1495, `read_atlas_transport`. -/
def readAtlasTransport (file : List UInt8) (ic : ℕ) (c : Name) :
    Except PyErr (List (List (C8 × C8)) × List LocalUV) := do
  let ((_, nx, ny, nc), bs) ← readHeader file
  let bs := seek (8 + nc * 4 + ic * ((nx : ℤ) * ny * 16 + 8)) bs
  let (rows, bs) ← readRows (4 * nx) ny bs
  let bs := seek ((nc - ic - 1) * ((nx : ℤ) * ny * 16 + 8) + 4) bs
  let locals ← readLocalsUV c bs.length bs
  .ok (rows.map splitUV, locals)

end Verif.OTIS
