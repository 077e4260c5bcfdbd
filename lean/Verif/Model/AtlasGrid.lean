import Verif.Model.Atlas
/-!
Model of the reader of grid files of ATLAS-compact models, `read_atlas_grid`
(/repo/pyTMD/io/OTIS.py 978-1076).

The conventions are those of `Verif.Model.OTIS` and `Verif.Model.Atlas`: the limits are returned as raw words, the
coordinates computed from them (1027-1030) are not part of this model.
-/
namespace Verif.OTIS
open Verif Verif.Bytes

/-- The grid of a local solution, an entry of the dictionary `local`. -/
structure LocalDepth where
  name : List UInt8
  lon : List ℕ
  lat : List ℕ
  depth : List (List (Option F4))
  deriving DecidableEq

/-- `l.reshape(ny, nx)`. -/
def reshape {α : Type} (nx : ℕ) : ℕ → List α → List (List α)
  | 0, _ => []
  | n + 1, l => l.take nx :: reshape nx n (l.drop nx)

/-- OTIS.py 1048-1072: one pass of the loop over local solutions. -/
def readLocalDepth (bs : List UInt8) : Except PyErr (LocalDepth × List UInt8) := do
  let bs := seek 4 bs
  let (nx1, bs) ← readI bs
  let (ny1, bs) ← readI bs
  let (nd, bs) ← readI bs
  let (lt1, bs) := fromfile 2 bs
  let (ln1, bs) := fromfile 2 bs
  let (name, bs) := readBytes 20 bs
  let bs := seek 8 bs
  let (iz, bs) := fromfile nd.toNat bs
  let (jz, bs) := fromfile nd.toNat bs
  let bs := seek 8 bs
  let (w, bs) := fromfile nd.toNat bs
  if w.length = nd.toNat ∧ iz.length = nd.toNat ∧ jz.length = nd.toNat then do
    let depth ← scatter ny1.toNat nx1.toNat (((iz.map toI4).zip (jz.map toI4)).zip (w.map UInt32.ofNat))
    .ok ({ name := strip name, lon := ln1, lat := lt1, depth := depth }, seek 4 bs)
  else .error .valueError

/-- OTIS.py 1046-1072: `while (fid.tell() < file_info.st_size)`; see `readLocalsZ`. -/
def readLocalsDepth : ℕ → List UInt8 → Except PyErr (List LocalDepth)
  | _, [] => .ok []
  | 0, _ => .error .stopIteration
  | n + 1, b :: t => do
    let (r, bs) ← readLocalDepth (b :: t)
    let rest ← readLocalsDepth n bs
    .ok (r :: rest)

/-- What `read_atlas_grid` returns. -/
structure AtlasGrid where
  limits : List ℕ
  hz : List (List F4)
  mz : List (List ℤ)
  iob : List (List ℤ)
  dt : F4
  pmask : List (List ℤ)
  locals : List LocalDepth
  deriving DecidableEq

/-- OTIS.py 1040-1076: depths, masks and local solutions. -/
def readAtlasBody (nx ny nob : ℤ) (limits : List ℕ) (dt : F4) (iob : List ℤ) (bs : List UInt8) :
    Except PyErr AtlasGrid := do
  let n := (nx * ny).toNat
  let (hz, bs) := fromfile n bs
  let bs := seek 8 bs
  let (mz, bs) := fromfile n bs
  let bs := seek 8 bs
  let (pm, bs) := fromfile n bs
  let bs := seek 4 bs
  if nx < 0 ∨ ny < 0 ∨ nob < 0 then .error .valueError
  else if hz.length = n ∧ mz.length = n ∧ pm.length = n ∧ (iob.length : ℤ) = 2 * nob then do
    let locals ← readLocalsDepth bs.length bs
    .ok { limits := limits, hz := reshape nx.toNat ny.toNat (hz.map UInt32.ofNat),
          mz := reshape nx.toNat ny.toNat (mz.map toI4), iob := reshape 2 nob.toNat iob, dt := dt,
          pmask := reshape nx.toNat ny.toNat (pm.map toI4), locals := locals }
  else .error .valueError

/-- OTIS.py 978-1076, `read_atlas_grid`. -/
def readAtlasGrid (file : List UInt8) : Except PyErr AtlasGrid := do
  let bs := seek 4 file
  let (nx, bs) ← readI bs
  let (ny, bs) ← readI bs
  let (lats, bs) := fromfile 2 bs
  let (lons, bs) := fromfile 2 bs
  let (dts, bs) := fromfile 1 bs
  let dt ← (match dts with | [d] => .ok (UInt32.ofNat d) | _ => .error .valueError)
  let (nob, bs) ← readI bs
  let (iob, bs) := (if nob = 0 then ([], seek 20 bs)
    else
      let (w, rest) := fromfile (2 * nob).toNat (seek 8 bs)
      (w.map toI4, seek 8 rest))
  readAtlasBody nx ny nob (lats ++ lons) dt iob bs

end Verif.OTIS
