import Verif.Model.Bytes
/-!
Model of the binary readers and writers in `/repo/pyTMD/io/OTIS.py`: `read_otis_grid` 914-975,
`read_constituents` 1124-1169, `read_otis_elevation` 1173-1217, `read_otis_transport` 1322-1375,
`output_otis_grid` 1746-1811, `output_otis_elevation` 1814-1864 and `output_otis_transport`
1867-1922.

A field is given by its rows.  Complex numbers are pairs of binary32 bit patterns (the arrays
written are cast to `>f4`; input in single precision is assumed).  A masked cell of the result is
`none`; the fill value stored under it is not modelled.
-/
namespace Verif.OTIS
open Verif Verif.Bytes

/-- A complex64 number. -/
abbrev C8 := F4 × F4

/-- A constituent identifier as bytes (ASCII; `str.encode` of other text is not modelled). -/
abbrev Name := List UInt8

/-- `c.ljust(4).encode('utf8')`. -/
def ljust4 (c : Name) : List UInt8 := c ++ List.replicate (4 - c.length) 32

/-- OTIS.py 1840-1850 and 1893-1903: the header of elevation and transport files. `ylim` and
`xlim` are the raw bytes of the arrays given, see `tofileF`. -/
def header (nx ny nc : ℕ) (ylim xlim : List UInt8) (names : List Name) :
    Except PyErr (List UInt8) := do
  let hl ← packI (4 * (7 + nc))
  let a ← packI nx
  let b ← packI ny
  let c ← packI nc
  .ok (hl ++ a ++ b ++ c ++ ylim ++ xlim ++ names.flatMap ljust4 ++ hl)

/-- OTIS.py 1855-1858: one row of an elevation record, real and imaginary parts interleaved. -/
def rowZ (row : List C8) : List UInt8 := tofileF (row.flatMap (fun z => [z.1, z.2]))

/-- OTIS.py 1852-1860: one elevation record with its two length markers. -/
def recordZ (nx ny : ℕ) (field : List (List C8)) : Except PyErr (List UInt8) := do
  let m ← packI (8 * nx * ny)
  .ok (m ++ field.flatMap rowZ ++ m)

/-- OTIS.py 1814-1864, `output_otis_elevation`: the bytes of the file. `fields` lists
`h[:,:,ic]` for each constituent. -/
def outputElevation (nx ny : ℕ) (fields : List (List (List C8))) (ylim xlim : List UInt8)
    (names : List Name) : Except PyErr (List UInt8) := do
  let h ← header nx ny fields.length ylim xlim names
  let rs ← pyMap (recordZ nx ny) fields
  .ok (h ++ rs.flatten)

/-- OTIS.py 1907-1912: one row of a transport record. -/
def rowUV (row : List (C8 × C8)) : List UInt8 :=
  tofileF (row.flatMap (fun p => [p.1.1, p.1.2, p.2.1, p.2.2]))

/-- OTIS.py 1905-1914: one transport record. -/
def recordUV (nx ny : ℕ) (field : List (List (C8 × C8))) : Except PyErr (List UInt8) := do
  let m ← packI (2 * 8 * nx * ny)
  .ok (m ++ field.flatMap rowUV ++ m)

/-- OTIS.py 1867-1922, `output_otis_transport`; `fields` pairs `u[:,:,ic]` and `v[:,:,ic]`. -/
def outputTransport (nx ny : ℕ) (fields : List (List (List (C8 × C8)))) (ylim xlim : List UInt8)
    (names : List Name) : Except PyErr (List UInt8) := do
  let h ← header nx ny fields.length ylim xlim names
  let rs ← pyMap (recordUV nx ny) fields
  .ok (h ++ rs.flatten)

/-- The masked array read: NaN cells are masked (OTIS.py 1209-1212). -/
def maskNaN (z : C8) : Option C8 := if isNaN z.1 || isNaN z.2 then none else some z

/-- OTIS.py 1204-1207: the loop over rows.  Each row takes `k` words; a short row cannot be
assigned and raises `ValueError` (broadcasting of a one-element row is not modelled, it needs a
truncated file). -/
def readRows (k : ℕ) : ℕ → List UInt8 → Except PyErr (List (List F4) × List UInt8)
  | 0, bs => .ok ([], bs)
  | n + 1, bs => do
    let (ws, rest) := fromfile k bs
    if ws.length = k then
      let (rows, rest') ← readRows k n rest
      .ok (ws.map UInt32.ofNat :: rows, rest')
    else .error .valueError

/-- OTIS.py 1192-1198: the start of an elevation or transport file: `ll, nx, ny, nc`, then the
limits. Negative dimensions make `np.ma.zeros` raise `ValueError`. -/
def readHeader (bs : List UInt8) : Except PyErr ((ℤ × ℕ × ℕ × ℤ) × List UInt8) := do
  let (ll, bs) ← readI bs
  let (nx, bs) ← readI bs
  let (ny, bs) ← readI bs
  let (nc, bs) ← readI bs
  let (_, bs) := fromfile 2 bs
  let (_, bs) := fromfile 2 bs
  if nx < 0 ∨ ny < 0 then .error .valueError
  else .ok ((ll, nx.toNat, ny.toNat, nc), bs)

/-- OTIS.py 1206-1207: `temp[0:2*nx-1:2]` and `temp[1:2*nx:2]`. -/
def splitZ (row : List F4) : List C8 := (stride 0 2 row).zip (stride 1 2 row)

/-- OTIS.py 1173-1217, `read_otis_elevation`. -/
def readElevation (file : List UInt8) (ic : ℕ) : Except PyErr (List (List (Option C8))) := do
  let ((ll, nx, ny, _), bs) ← readHeader file
  let nskip : ℤ := ic * ((nx : ℤ) * ny * 8 + 8) + 8 + ll - 28
  let (rows, _) ← readRows (2 * nx) ny (seek nskip bs)
  .ok (rows.map (fun r => (splitZ r).map maskNaN))

/-- OTIS.py 1360-1363: the four strided slices of a transport row. -/
def splitUV (row : List F4) : List (C8 × C8) :=
  ((stride 0 4 row).zip (stride 1 4 row)).zip ((stride 2 4 row).zip (stride 3 4 row))

/-- OTIS.py 1322-1375, `read_otis_transport`: the pairs of `u` and `v`. -/
def readTransport (file : List UInt8) (ic : ℕ) :
    Except PyErr (List (List (Option C8 × Option C8))) := do
  let ((ll, nx, ny, _), bs) ← readHeader file
  let nskip : ℤ := ic * ((nx : ℤ) * ny * 16 + 8) + 8 + ll - 28
  let (rows, _) ← readRows (4 * nx) ny (seek nskip bs)
  .ok (rows.map (fun r => (splitUV r).map (fun p => (maskNaN p.1, maskNaN p.2))))

/-- The ASCII bytes that `bytes.split()` treats as whitespace. -/
def isSpace (b : UInt8) : Bool := b == 32 || (9 ≤ b && b ≤ 13)

/-- `bytes.split()` without arguments: the maximal runs of bytes that are not whitespace;
`cur` is the run being read, reversed. -/
def splitWords (cur : List UInt8) : List UInt8 → List (List UInt8)
  | [] => if cur = [] then [] else [cur.reverse]
  | b :: t =>
    if isSpace b then
      (if cur = [] then splitWords [] t else cur.reverse :: splitWords [] t)
    else splitWords (b :: cur) t

/-- OTIS.py 1157-1169, `read_constituents` for binary files.  (`rstrip` has no effect on the
words returned by `split`.) -/
def readConstituents (file : List UInt8) : Except PyErr (List Name × ℤ) := do
  let (_, bs) ← readI file
  let (_, bs) ← readI bs
  let (_, bs) ← readI bs
  let (nc, bs) ← readI bs
  .ok (splitWords [] ((seek 16 bs).take (nc * 4).toNat), nc)

/-- OTIS.py 1776-1811, `output_otis_grid`: the bytes of the file.  Note that the depths are
written twice (lines 1801 and 1802-1803).  `iob` lists the index pairs. -/
def outputGrid (nx ny : ℕ) (ylim xlim : List UInt8) (hz : List (List F4)) (mz : List (List ℤ))
    (iob : List (ℤ × ℤ)) (dt : F4) : Except PyErr (List UInt8) := do
  let nob := iob.length
  let r32 ← packI 32
  let a ← packI nx
  let b ← packI ny
  let d ← packI nob
  let bnd ← if nob = 0 then (do
      let m ← packI 4
      let z ← packI 0
      .ok (m ++ z ++ m))
    else (do
      let m ← packI (8 * nob)
      .ok (m ++ iob.flatMap (fun p => be (ofI4 p.1) ++ be (ofI4 p.2)) ++ m))
  let r ← packI (4 * nx * ny)
  .ok (r32 ++ a ++ b ++ ylim ++ xlim ++ be dt.toNat ++ d ++ r32 ++ bnd
    ++ r ++ tofileF hz.flatten ++ hz.flatMap tofileF ++ r
    ++ r ++ mz.flatMap (fun row => row.flatMap (fun v => be (ofI4 v))) ++ r)

/-- The data returned by `read_otis_grid`, apart from the coordinates. -/
structure GridData where
  nx : ℕ
  ny : ℕ
  limits : List ℕ
  hz : List F4
  mz : List ℤ
  iob : List ℤ
  dt : F4
  deriving DecidableEq

/-- OTIS.py 958-975: depths and mask, after the open boundary. -/
def readDepthMask (nx ny nob : ℤ) (limits : List ℕ) (dt : F4) (iob : List ℤ) (bs : List UInt8) :
    Except PyErr GridData :=
  let (hz, bs) := fromfile (nx * ny).toNat bs
  let bs := seek 8 bs
  let (mz, _) := fromfile (nx * ny).toNat bs
  if nx < 0 ∨ ny < 0 ∨ nob < 0 then .error .valueError
  else if (hz.length : ℤ) = nx * ny ∧ (mz.length : ℤ) = nx * ny ∧ (iob.length : ℤ) = 2 * nob then
    .ok { nx := nx.toNat, ny := ny.toNat, limits := limits, hz := hz.map UInt32.ofNat,
          mz := mz.map toI4, iob := iob, dt := dt }
  else .error .valueError

/-- OTIS.py 914-975, `read_otis_grid`.  Matrices and index pairs are returned flat (the
`reshape` calls succeed exactly when the counts read are complete, otherwise `ValueError`);
`limits` are the raw words of `ylim` and `xlim`, from which the coordinates are computed. -/
def readGrid (file : List UInt8) : Except PyErr GridData := do
  let bs := seek 4 file
  let (nx, bs) ← readI bs
  let (ny, bs) ← readI bs
  let (ylim, bs) := fromfile 2 bs
  let (xlim, bs) := fromfile 2 bs
  let (dts, bs) := fromfile 1 bs
  let dt ← (match dts with | [d] => .ok (UInt32.ofNat d) | _ => .error .valueError)
  let (nob, bs) ← readI bs
  let (iob, bs) := (if nob = 0 then ([], seek 20 bs)
    else
      let (w, rest) := fromfile (2 * nob).toNat (seek 8 bs)
      (w.map toI4, seek 8 rest))
  readDepthMask nx ny nob (ylim ++ xlim) dt iob bs

end Verif.OTIS
