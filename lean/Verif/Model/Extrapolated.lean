import Verif.Model.Extrapolate
import Verif.Model.Extract
import Verif.Model.ExtractATLAS
import Verif.Model.ExtractOTIS
import Verif.Model.Spatial
import Mathlib.Data.Fin.VecNotation
/-!
Model of extracting and interpolating harmonic constants with `extrapolate=True`:
`/repo/pyTMD/io/GOT.py` 119-310 and 392-535, `/repo/pyTMD/io/FES.py` 134-345 and 444-592,
`/repo/pyTMD/io/ATLAS.py` 133-391 and 560-690, `/repo/pyTMD/io/OTIS.py` 172-520 and 736-911, with
`extrapolate` of `/repo/pyTMD/interpolate.py` 279-420.

In `Model/Extract`, `Model/ExtractATLAS` and `Model/ExtractOTIS` extrapolation is a parameter; here it
is done as in the source: the masked points of a constituent are collected, extrapolated together and
put back.  The keyword `near` of the requests is not used.  Numbers under the mask of the result are
not modelled.
-/
namespace Verif.Near
open Verif Verif.Extract

variable {K : Type} [Field K] [LinearOrder K] [IsStrictOrderedRing K] {n : ℕ}

/-- How points are extrapolated: the kd-tree of scipy, the keyword `cutoff` (`none` if it is infinite) and
the coordinates of a place that are used for distances. -/
structure Tree (K : Type) (n : ℕ) where
  query : Extrap.Query n
  cutoff : Option ℝ
  pos : K × K → Extrap.Pt n

/-- interpolate.py 349-359: the coordinates of a place of a geographic grid, by `to_cartesian` with the
major axis in kilometers. -/
noncomputable def onEarth (p : ℝ × ℝ) : Extrap.Pt 3 :=
  let c := Spatial.toCartesian p.1 p.2 0 (6378137 / 1000) (1 / (298257223563 / 10 ^ 9))
  ![c.x, c.y, c.z]

/-- interpolate.py 389 and 410: the coordinates of a place of a projected grid. -/
noncomputable def onPlane (p : ℝ × ℝ) : Extrap.Pt 2 := ![p.1, p.2]

/-- interpolate.py 349, 389 and 342: the cells of a grid, row by row.  `value` gives the number in a cell,
`none` if it is NaN, and the mask.  (The matrix has the shape of the axes, otherwise numpy raises.) -/
def cells (pos : K × K → Extrap.Pt n) (value : Fld K → Option (K × K) × Bool) (x y : List K)
    (hc : List (List (Fld K))) : List (Extrap.Node n (K × K)) :=
  (y.zip hc).flatMap fun r => (x.zip r.2).map fun c => ⟨pos (c.1, r.1), (value c.2).1, (value c.2).2⟩

/-- `hci[inv] = …` with `inv, = np.nonzero(hci.mask)`: the masked elements are replaced in order. -/
def put {β : Type} : List (Option β) → List (Option β) → List (Option β)
  | [], _ => []
  | some b :: os, ws => some b :: put os ws
  | none :: os, w :: ws => w :: put os ws
  | none :: os, [] => none :: put os []

/-- GOT.py 287-295 and 512-520, FES.py 317-325 and 571-579, ATLAS.py 365-373 and 661-669, OTIS.py 494-502
and 884-893: the masked elements (`none`) of an interpolated array are extrapolated.  `make` converts a
number of the grid to an element. -/
noncomputable def fillIn {β : Type} (t : Tree K n) (cs : List (Extrap.Node n (K × K))) (make : K × K → β)
    (pts : List (K × K)) (os : List (Option β)) : List (Option β) :=
  let inv := ((pts.zip os).filter fun p => p.2.isNone).map fun p => t.pos p.1
  match Extrap.extrapolate t.query cs none t.cutoff inv with
  | none => os
  | some news => put os (news.map fun o => if o.masked then none else o.val.map make)

/-! ## GOT and FES -/

/-- An element of an interpolated array, `none` if it is masked. -/
def unmasked : Out K → Option (Out K)
  | .masked => none
  | o => some o

/-- GOT.py 262-304 and 475-527, FES.py 272-330 and 527-588: one constituent at the points. -/
noncomputable def evaluate (f : Fmt) (r : Request K) (t : Tree K n) (stored : Bool) (x y : List K)
    (hc : List (List (Fld K))) (pts : List (K × K)) : Except PyErr (List (Out K)) := do
  let invalid ← pyMap (fun q => if f.bounded then outside x y q else .ok false) pts
  let os ← pyMap (atPoint r.method stored x y hc r.scale) pts
  let ws := fillIn t (cells t.pos nanCell x y hc) (fun z => Out.val z.1 z.2 r.scale) pts (os.map unmasked)
  .ok (List.zipWith (fun w i => if i then .masked else w.getD .masked) ws invalid)

/-- GOT.py 219-304, FES.py 235-330: one file. -/
noncomputable def extractFile (f : Fmt) (r : Request K) (t : Tree K n) (box : Box K) (g : Layer K)
    (pts : List (K × K)) : Except PyErr (List (Out K) × List (K × K)) := do
  let dlon ← step f g.lon
  let (g, pts) ← place r box dlon g pts
  let g ← extended f dlon g
  let outs ← evaluate f r t false g.lon g.lat g.hc pts
  .ok (outs, pts)

/-- The loop over the files. -/
noncomputable def extractFiles (f : Fmt) (r : Request K) (t : Tree K n) (box : Box K) :
    List (Layer K) → List (K × K) → Except PyErr (List (List (Out K)))
  | [], _ => .ok []
  | g :: gs, pts => do
    let (outs, pts) ← extractFile f r t box g pts
    let rest ← extractFiles f r t box gs pts
    .ok (outs :: rest)

/-- GOT.py 119-310 and FES.py 134-345, `extract_constants` with `extrapolate=True`. -/
noncomputable def extract (f : Fmt) (r : Request K) (t : Tree K n) (files : List (Layer K))
    (pts : List (K × K)) : Except PyErr (List (List (Out K))) := do
  let box ← r.boundsOr pts
  extractFiles f r t box files pts

/-- GOT.py 392-535, FES.py 444-592, `interpolate_constants` with `extrapolate=True`. -/
noncomputable def interpolate (f : Fmt) (r : Request K) (t : Tree K n) (s : Stored K) (pts : List (K × K)) :
    Except PyErr (List (List (Out K))) := do
  match s.lon.min?, s.lon.max? with
  | some lo, some hi => do
    let x ← Grid.adjustGOT lo hi (pts.map Prod.fst)
    pyMap (fun hc => evaluate f r t true s.lon s.lat hc (x.zip (pts.map Prod.snd))) s.fields
  | _, _ => .error .valueError

/-! ## ATLAS netCDF -/

/-- ATLAS.py 336-382 and 626-678: one constituent at the points.  An element that is not masked may be
NaN. -/
noncomputable def evaluateAtlas (r : Request K) (t : Tree K n) (speed stored : Bool) (nan : K × K → Bool)
    (x y : List K) (bath hc : List (List (Fld K))) (pts : List (K × K)) : Except PyErr (List (Out K)) := do
  let ds ← pyMap (AtlasNet.depthAt r.method x y bath) pts
  let invalid ← pyMap (outside x y) pts
  let vs ← pyMap (AtlasNet.constantAt r.method stored x y hc) pts
  let os := List.zipWith (fun v d => if v.2 || d.2 then none else some v.1) vs ds
  let ws := fillIn t (cells t.pos nanCell x y hc) some pts os
  .ok (List.zipWith (fun w p => if p.2.2 then .masked else
    match w with
    | none => .masked
    | some none => .nan
    | some (some z) => AtlasNet.convert speed (nan p.1) r.scale p.2.1 z)
    ws (pts.zip ((ds.map Prod.fst).zip invalid)))

/-- ATLAS.py 133-391, `extract_constants` with `extrapolate=True`. -/
noncomputable def extractAtlas (r : Request K) (t : Tree K n) (speed : Bool) (s : AtlasNet.Site K)
    (fields : List (List (List (K × K)))) (pts : List (K × K)) :
    Except PyErr (List (Option K) × List (List (Out K))) := do
  let box ← r.boundsOr pts
  let dlon ← step fes s.lon
  let (g, pts) ← place r box dlon ⟨s.lon, s.lat, AtlasNet.plain s.depth⟩ pts
  let e ← extended fes dlon g
  let bath := AtlasNet.remask e.hc
  let d ← pyMap (AtlasNet.sounding r.method e.lon e.lat bath) pts
  let outs ← pyMap (fun hc => do
    let h ← AtlasNet.fieldOf r box dlon s g.lon g.lat hc
    evaluateAtlas r t speed false (fun _ => false) e.lon e.lat bath (AtlasNet.combine h bath) pts) fields
  .ok (d, outs)

/-- ATLAS.py 500-687, `interpolate_constants` with `extrapolate=True`. -/
noncomputable def interpolateAtlas (spread : List K → List K → List (List (Fld K)) → K × K → Bool) (r : Request K)
    (t : Tree K n) (speed : Bool) (s : AtlasNet.Stored K) (pts : List (K × K)) :
    Except PyErr ((List (Option (Option K)) × List (List (Out K))) × AtlasNet.Stored K) := do
  match s.lon.min?, s.lon.max? with
  | some lo, some hi => do
    let l ← Grid.adjustGOT lo hi (pts.map Prod.fst)
    let pts := l.zip (pts.map Prod.snd)
    let nan := s.nan spread r.method
    let d ← pyMap (fun q => do
      let d ← AtlasNet.sounding r.method s.lon s.lat s.bath q
      .ok (AtlasNet.level (nan q) d)) pts
    let outs ← pyMap (fun hc => evaluateAtlas r t speed true nan s.lon s.lat s.bath hc pts) s.fields
    .ok ((d, outs), { s with spoiled := s.spoiled || decide (r.method = .bilinear) })
  | _, _ => .error .valueError

/-! ## OTIS -/

/-- OTIS.py 462-512 and 847-902: one constituent at the points.  `ax` and `ay` are the axes used to find
points outside the model.  With `'linear'` the stored version has replaced zeros with the fill value
before (873). -/
noncomputable def evaluateOtis (m : Method) (t : Tree K n) (speed stored : Bool) (ax ay x y : List K)
    (bath hc : List (List (Fld K))) (pts : List (K × K)) : Except PyErr (List (Out K)) := do
  let ds ← pyMap (Staggered.depthAt m x y bath) pts
  let invalid ← pyMap (outside ax ay) pts
  let os ← pyMap (fun p => Staggered.constantAt m stored x y hc p.2 p.1) (pts.zip ds)
  let hc := if stored = true ∧ m = .linear then Staggered.fillZeros hc else hc
  let ws := fillIn t (cells t.pos Staggered.nonzeroCell x y hc) id pts os
  .ok (List.zipWith (fun w p => match p.2, w with
    | false, some z => .val z.1 z.2 (Staggered.factor speed p.1)
    | _, _ => .masked) ws (ds.zip invalid))

/-- OTIS.py 172-520, `extract_constants` with `extrapolate=True`. -/
noncomputable def extractOtis (r : Staggered.Ask K) (t : Tree K n) (s : Staggered.Site K)
    (fields : List (List (List (Fld K)))) (pts : List (K × K)) :
    Except PyErr (List (Option K) × List (List (Out K))) := do
  let dx ← Staggered.step s.x
  let dy ← Staggered.step s.y
  let region ← r.region dx pts
  let (sea, _, _) ← Staggered.cropIf r.geographic region false s.sea s.x s.y
  let (hz, x, y) ← Staggered.cropIf r.geographic region 0 s.hz s.x s.y
  let pts ← Staggered.adjust r.geographic region.isSome x pts
  let f ← Staggered.frame false r.geographic r.quantity.node dx dy x y hz sea
  let d ← pyMap (Staggered.depthAt r.method f.nx f.ny f.bath) pts
  let (mx, my) ← Staggered.aliased r.geographic region r.quantity.node f.glob dx dy s.x s.y
  let outs ← pyMap (fun hc => do
    let hc ← Staggered.constituent r.geographic region mx my f hc
    evaluateOtis r.method t r.quantity.speed false f.x f.y f.nx f.ny f.bath hc pts) fields
  .ok (d, outs)

/-- OTIS.py 736-911, `interpolate_constants` with `extrapolate=True`. -/
noncomputable def interpolateOtis (m : Method) (t : Tree K n) (speed : Bool) (s : Staggered.Stored K)
    (pts : List (K × K)) : Except PyErr (List (Option K) × List (List (Out K))) := do
  let pts ← Staggered.adjust s.geographic false s.x pts
  let d ← pyMap (Staggered.depthAt m s.x s.y s.bath) pts
  let outs ← pyMap (fun hc => evaluateOtis m t speed true s.x s.y s.x s.y s.bath hc pts) s.fields
  .ok (d, outs)

end Verif.Near
