import Verif.Model.Atlas
import Verif.Model.Num
import Verif.Model.ExtractOTIS
/-!
Model of combining the global and the local solutions of ATLAS-compact models and of their mask
(`/repo/pyTMD/io/OTIS.py` 1498-1690) and of extracting constants from the combined model (271-275, 415-443).

Numbers are exact: in floating point `np.floor(val['lon'][0]/d30)` and the length of `np.arange` can be off by one.
A local solution is given by the first limits of longitude and latitude and the matrix of the variable asked for,
`none` where it is masked.  The dictionary of local solutions is the list of its values in order.
-/
namespace Verif.Combine
open Verif Verif.Extract

variable {K V : Type} [Field K] [LinearOrder K] [IsStrictOrderedRing K] [FloorRing K]

/-- `d30 = 1.0/30.0`. -/
def d30 : K := 1 / 30

/-- `np.arange(a, b, d)`. -/
def arange (a b d : K) : List K := (List.range ⌈(b - a) / d⌉.toNat).map fun i : ℕ => a + (i : K) * d

/-- OTIS.py 1540, 1602: `x30`. -/
def x30 : List K := arange (d30 / 2) (360 + d30 / 2) d30

/-- OTIS.py 1541, 1603: `y30`. -/
def y30 : List K := arange (-90 + d30 / 2) (90 + d30 / 2) d30

/-- An entry of the dictionary `local`. -/
structure Local (K V : Type) where
  lon : K
  lat : K
  rows : List (List (Option V))

/-- OTIS.py 1555-1556, 1669-1670 and 1558-1559, 1672-1673: coordinate `i` of a local grid. -/
def coord (limit : K) (i : ℕ) : K := (⌊limit / d30⌋ : K) * d30 + (i : K) * d30

/-- OTIS.py 1564-1565, 1678-1679. -/
def positive (x : K) : K := if x ≤ 0 then x + 360 else x

/-- OTIS.py 1551-1568, 1665-1682: row and column of the fine grid of every node with a value (`np.nonzero` goes
through the rows), with the value. -/
def targets (s : Local K V) : List ((ℤ × ℤ) × V) :=
  s.rows.zipIdx.flatMap fun p => p.1.zipIdx.filterMap fun q => q.1.map fun v =>
    ((⌊(coord s.lat p.2 - (-90 + d30 / 2)) / d30⌋, ⌊(positive (coord s.lon q.2) - d30 / 2) / d30⌋), v)

/-- `m[jj,ii] = values`: numpy counts negative indices from the end; of several values for one element the last one
stays. -/
def assign (ny nx : ℕ) (m : List (List V)) (cells : List ((ℤ × ℤ) × V)) : Except PyErr (List (List V)) := do
  let pos ← pyMap (fun p => do
    let r ← OTIS.axisIndex ny p.1.1
    let c ← OTIS.axisIndex nx p.1.2
    .ok ((r, c), p.2)) cells
  .ok (pos.foldl (fun a p => a.modify p.1.1 fun row => row.set p.1.2 p.2) m)

/-- The loop over the local solutions, OTIS.py 1663-1685. -/
def overlay : List (Local K V) → List (List V) → Except PyErr (List (List V))
  | [], m => .ok m
  | s :: t, m => do
    let m ← assign (y30 (K := K)).length (x30 (K := K)).length m (targets s)
    overlay t m

/-- What `RectBivariateSpline` accepts: axes in order and a matrix of their shape. -/
def Fit (x y : List K) (rows : List (List V)) : Prop :=
  Spans x y ∧ rows.length = y.length ∧ ∀ r ∈ rows, r.length = x.length

instance (x y : List K) (rows : List (List V)) : Decidable (Fit x y rows) := by unfold Fit Spans Ascending; infer_instance

/-- OTIS.py 1572-1618, `interpolate_atlas_model`, for real numbers. -/
def resample (x y : List K) (rows : List (List K)) : Except PyErr (List (List K)) :=
  if Fit x y rows then .ok (y30.map fun b => x30.map fun a => Spline.spline x y rows a b) else .error .valueError

/-- `interpolate_atlas_model` for complex numbers. -/
def resampleC (x y : List K) (rows : List (List (K × K))) : Except PyErr (List (List (K × K))) :=
  if Fit x y rows then
    .ok (y30.map fun b => x30.map fun a => (Spline.spline x y (rows.map fun r => r.map Prod.fst) a b,
      Spline.spline x y (rows.map fun r => r.map Prod.snd) a b))
  else .error .valueError

/-- OTIS.py 1621-1687, `combine_atlas_model`, for depths.  (`pmask` is not used.) -/
def combine (x y : List K) (rows : List (List K)) (sols : List (Local K K)) : Except PyErr (List (List K)) := do
  let z ← resample x y rows
  overlay sols z

/-- `combine_atlas_model` for elevations and transports. -/
def combineC (x y : List K) (rows : List (List (K × K))) (sols : List (Local K (K × K))) :
    Except PyErr (List (List (K × K))) := do
  let z ← resampleC x y rows
  overlay sols z

/-- OTIS.py 1543-1545: `np.around(np.clip((len(xi)-1)*(x-xi[0])/(xi[-1]-xi[0]),0,len(xi)-1))` as an index.  With a
single column it is NaN, which is no index. -/
def nearest (xi : List K) (x : K) : Except PyErr ℕ :=
  match xi.head?, xi.getLast? with
  | some a, some b =>
    if b - a = 0 then .error .indexError
    else .ok (Num.round (max 0 (min ((xi.length : K) - 1) (((xi.length : K) - 1) * (x - a) / (b - a))))).toNat
  | _, _ => .error .indexError

/-- `m30.data[:,:] = …`, from a number to `np.int8`. -/
def int8 (v : ℤ) : ℤ := (v + 128) % 256 - 128

/-- OTIS.py 1542-1548: the mask of the global solution at the nearest node of every fine cell. -/
def coarseMask (xi yi : List K) (mz : List (List ℤ)) : Except PyErr (List (List ℤ)) := do
  let cs ← pyMap (nearest xi) x30
  let rs ← pyMap (nearest yi) y30
  pyMap (fun r => pyMap (fun c => match mz[r]?.bind (·[c]?) with
    | some v => .ok (int8 v)
    | none => .error .indexError) cs) rs

/-- OTIS.py 1498-1569, `create_atlas_mask`; an element is masked where the number is 0. -/
def atlasMask (xi yi : List K) (mz : List (List ℤ)) (sols : List (Local K K)) : Except PyErr (List (List ℤ)) := do
  let m ← coarseMask xi yi mz
  overlay (sols.map fun s => ⟨s.lon, s.lat, s.rows.map fun r => r.map fun o => o.map fun _ => (1 : ℤ)⟩) m

/-- The grid file of an ATLAS-compact model, as read. -/
structure Grid (K : Type) where
  x : List K
  y : List K
  hz : List (List K)
  mz : List (List ℤ)
  sols : List (Local K K)

/-- OTIS.py 271-277: the combined grid. -/
def site (g : Grid K) : Except PyErr (Staggered.Site K) := do
  let hz ← combine g.x g.y g.hz g.sols
  let mz ← atlasMask g.x g.y g.mz g.sols
  .ok ⟨x30, y30, hz, mz.map fun r => r.map fun v => decide (v ≠ 0)⟩

/-- OTIS.py 171-513 with `grid = 'ATLAS'`: the constituents are given by the matrix of the global solution and the
local solutions. -/
def extract (r : Staggered.Ask K) (g : Grid K) (fields : List (List (List (K × K)) × List (Local K (K × K))))
    (pts : List (K × K)) : Except PyErr (List (Option K) × List (List (Out K))) := do
  let s ← site g
  let hcs ← pyMap (fun f => combineC g.x g.y f.1 f.2) fields
  Staggered.extract r s (hcs.map fun m => m.map fun r => r.map fun z => ⟨z.1, z.2, false⟩) pts

end Verif.Combine
