import Verif.Model.Extract
/-!
Model of extracting harmonic constants from ATLAS models in netCDF files, and of reading them and
then interpolating (`/repo/pyTMD/io/ATLAS.py` 133-686).

The files are given as they are read for the quantity asked for: the axes and depths of its points,
and a matrix of complex numbers for every constituent (reading is modelled in `Model/AtlasFile`; no
element of such a matrix is masked).  The result is as in `Model/Extract`: the complex constant with
the factor its modulus is multiplied with; an infinite modulus is returned as `nan`.  Extrapolation is
a parameter.  The methods are `'bilinear'`, `'spline'` and `'linear'`.
-/
namespace Verif.AtlasNet
open Verif Verif.Extract

variable {K : Type} [Field K] [LinearOrder K] [IsStrictOrderedRing K]

/-- The grid file of a model, for one quantity. -/
structure Site (K : Type) where
  lon : List K
  lat : List K
  depth : List (List K)

/-- ATLAS.py 758: the mask of the depths, `bathymetry.data == 0.0`.  A real number is a complex one
with the imaginary part 0. -/
def depths (d : List (List K)) : List (List (Fld K)) :=
  d.map fun r => r.map fun h => ⟨h, 0, decide (h = 0)⟩

/-- Depths without a mask. -/
def plain (d : List (List K)) : List (List (Fld K)) := d.map fun r => r.map fun h => ⟨h, 0, false⟩

/-- The matrix of a constituent. -/
def numbers (m : List (List (K × K))) : List (List (Fld K)) :=
  m.map fun r => r.map fun z => ⟨z.1, z.2, false⟩

/-- ATLAS.py 271: `bathymetry.mask = (bathymetry.data == 0)`. -/
def remask (b : List (List (Fld K))) : List (List (Fld K)) :=
  b.map fun r => r.map fun c => ⟨c.re, c.im, decide (c.re = 0)⟩

/-- ATLAS.py 335 and 492: `hc.mask[:] |= bathymetry.mask[:]`. -/
def combine (hc bath : List (List (Fld K))) : List (List (Fld K)) :=
  List.zipWith (List.zipWith fun c b => ⟨c.re, c.im, c.masked || b.masked⟩) hc bath

/-- ATLAS.py 286-287 and 593-594: `D.mask[:] |= np.isnan(D.data)`, `D.data[D.mask] = D.fill_value`. -/
def filled : Option (K × K) → Bool → K × Bool
  | some z, false => (z.1, false)
  | _, _ => (fillRe, true)

/-- ATLAS.py 279-295 and 586-602: the number and the mask of the depth at a point; with `'bilinear'`
masked numbers are replaced with the fill value `1e20`. -/
def depthAt (m : Method) (x y : List K) (bath : List (List (Fld K))) (q : K × K) :
    Except PyErr (K × Bool) :=
  match m with
  | .bilinear => do
    let (v, k) ← bilinearC x y (fun j i => nanCell (entry bath j i)) q.1 q.2
    .ok (filled v k)
  | .spline => do
    let (z, k) ← splineC x y bath q.1 q.2
    .ok (z.1, k)
  | .linear => do
    let (z, k) ← regularC x y bath q.1 q.2
    .ok (z.1, k)

/-- ATLAS.py 336-363 and 626-659 (`stored`): the number, `none` if it is NaN, and the mask of a
constant at a point, before the mask of the depth is added. -/
def constantAt (m : Method) (stored : Bool) (x y : List K) (hc : List (List (Fld K))) (q : K × K) :
    Except PyErr (Option (K × K) × Bool) :=
  match m with
  | .bilinear => bilinearC x y (fun j i => nanCell (entry hc j i)) q.1 q.2
  | .spline => do
    let (z, k) ← splineC x y (if stored then fillMasked hc else hc) q.1 q.2
    .ok (some z, k)
  | .linear => do
    let (z, k) ← regularC x y (if stored then fillMasked hc else hc) q.1 q.2
    .ok (some z, k)

/-- ATLAS.py 297-303, 376, 385 and 604-610, 672, 681: the modulus is divided by the number
`D.data/100.0` for velocities, whether it is masked or not, and multiplied with `scale`.  `nan` says
that the number of the depth is NaN. -/
def convert (speed nan : Bool) (scale d : K) (z : K × K) : Out K :=
  if speed then
    if nan = true ∨ d = 0 then .nan else .val z.1 z.2 (scale * (100 / d))
  else .val z.1 z.2 scale

/-- The body of the loop over the points of one constituent. -/
def evaluate (r : Request K) (speed stored : Bool) (nan : K × K → Bool) (x y : List K) (bath hc : List (List (Fld K)))
    (pts : List (K × K)) : Except PyErr (List (Out K)) :=
  pyMap (fun q => do
    let (d, k) ← depthAt r.method x y bath q
    let (v, k') ← constantAt r.method stored x y hc q
    let inv ← outside x y q
    .ok (if inv then .masked
      else if k' || k then
        match r.near x y hc q with
        | some z => convert speed (nan q) r.scale d z
        | none => .masked
      else match v with
        | some z => convert speed (nan q) r.scale d z
        | none => .nan)) pts

/-- The depth as it is returned, `none` where it is masked. -/
def sounding (m : Method) (x y : List K) (bath : List (List (Fld K))) (q : K × K) :
    Except PyErr (Option K) := do
  let (d, k) ← depthAt m x y bath q
  .ok (if k then none else some d)

/-- ATLAS.py 325-333: crop and extend the matrix of a constituent.  `axes` are the cropped axes;
whether the grid is global is found out again from them. -/
def fieldOf (r : Request K) (box : Box K) (dlon : K) (s : Site K) (x y : List K)
    (hc : List (List (K × K))) : Except PyErr (List (List (Fld K))) := do
  let h ← (if r.crop = true ∧ box.any = true then do
      let (h, _, _) ← Grid.crop (⟨0, 0, false⟩ : Fld K) (numbers hc) s.lon s.lat box.xmin box.xmax
        box.ymin box.ymax (r.bufferOr dlon) true
      (.ok h : Except PyErr (List (List (Fld K))))
    else .ok (numbers hc))
  let g ← extended fes dlon ⟨x, y, h⟩
  .ok g.hc

/-- ATLAS.py 133-391, `extract_constants`: the depths at the points and one list of constants by
constituent.  The mask set when the depths are read is left out here, since it is replaced. -/
def extract (r : Request K) (speed : Bool) (s : Site K) (fields : List (List (List (K × K))))
    (pts : List (K × K)) : Except PyErr (List (Option K) × List (List (Out K))) := do
  let box ← r.boundsOr pts
  let dlon ← step fes s.lon
  let (g, pts) ← place r box dlon ⟨s.lon, s.lat, plain s.depth⟩ pts
  let e ← extended fes dlon g
  let bath := remask e.hc
  let d ← pyMap (sounding r.method e.lon e.lat bath) pts
  let outs ← pyMap (fun hc => do
    let h ← fieldOf r box dlon s g.lon g.lat hc
    evaluate r speed false (fun _ => false) e.lon e.lat bath (combine h bath) pts) fields
  .ok (d, outs)

/-- A `constituents` object read from an ATLAS model: axes, depths, and a matrix by constituent.
`spoiled` says that the numbers of the depths under the mask have been replaced with NaN. -/
structure Stored (K : Type) where
  lon : List K
  lat : List K
  bath : List (List (Fld K))
  spoiled : Bool
  fields : List (List (List (Fld K)))

/-- ATLAS.py 393-498, `read_constants`; the step is that of the cropped axis. -/
def read (crop : Option (Box K × K)) (s : Site K) (fields : List (List (List (K × K)))) :
    Except PyErr (Stored K) := do
  let cropped := fun m : List (List (Fld K)) =>
    (match crop with
    | some (box, buffer) =>
      if box.any = true then do
        let (m, x, y) ← Grid.crop (⟨0, 0, false⟩ : Fld K) m s.lon s.lat box.xmin box.xmax box.ymin
          box.ymax buffer true
        (.ok ⟨x, y, m⟩ : Except PyErr (Layer K))
      else .ok ⟨s.lon, s.lat, m⟩
    | none => .ok ⟨s.lon, s.lat, m⟩)
  let g ← cropped (depths s.depth)
  let dlon ← step fes g.lon
  let e ← extended fes dlon g
  let hcs ← pyMap (fun hc => do
    let h ← cropped (numbers hc)
    let h ← extended fes dlon ⟨g.lon, g.lat, h.hc⟩
    .ok (combine h.hc e.hc)) fields
  .ok ⟨e.lon, e.lat, e.hc, false, hcs⟩

/-- The interval of an axis in which `RegularGridInterpolator` places a coordinate: the last one that
begins at or below it, and not the end of the axis. -/
def interval (x : List K) (v : K) : ℕ := min (x.countP (fun u => decide (u ≤ v)) - 1) (x.length - 2)

/-- The linear interpolation of numbers of which those under the mask are NaN is NaN if one of the four
corners of the cell is, even if its weight is zero. -/
def nanCorner (x y : List K) (bath : List (List (Fld K))) (q : K × K) : Bool :=
  let i := interval x q.1
  let j := interval y q.2
  (entry bath j i).masked || (entry bath j (i + 1)).masked || (entry bath (j + 1) i).masked ||
    (entry bath (j + 1) (i + 1)).masked

/-- Whether the number of the depth at a point is NaN.  `spread` says how scipy's splines spread NaN,
which is not modelled. -/
def Stored.nan (spread : List K → List K → List (List (Fld K)) → K × K → Bool) (s : Stored K) (m : Method)
    (q : K × K) : Bool :=
  s.spoiled && match m with
    | .bilinear => false
    | .spline => spread s.lon s.lat s.bath q
    | .linear => nanCorner s.lon s.lat s.bath q

/-- The depth that `interpolate_constants` returns: `none` where it is masked, `some none` if it is
NaN. -/
def level (nan : Bool) : Option K → Option (Option K)
  | none => none
  | some d => some (if nan then none else some d)

/-- ATLAS.py 500-687, `interpolate_constants`: the depths, the constants and the object afterwards.
The array of depths shares its numbers with the object, so `bathymetry.data[bathymetry.mask] = np.nan`
(588) changes the object when the method is `'bilinear'`. -/
def interpolate (spread : List K → List K → List (List (Fld K)) → K × K → Bool) (r : Request K) (speed : Bool)
    (s : Stored K) (pts : List (K × K)) :
    Except PyErr ((List (Option (Option K)) × List (List (Out K))) × Stored K) := do
  match s.lon.min?, s.lon.max? with
  | some lo, some hi => do
    let l ← Grid.adjustGOT lo hi (pts.map Prod.fst)
    let pts := l.zip (pts.map Prod.snd)
    let nan := s.nan spread r.method
    let d ← pyMap (fun q => do
      let d ← sounding r.method s.lon s.lat s.bath q
      .ok (level (nan q) d)) pts
    let outs ← pyMap (fun hc => evaluate r speed true nan s.lon s.lat s.bath hc pts) s.fields
    .ok ((d, outs), { s with spoiled := s.spoiled || decide (r.method = .bilinear) })
  | _, _ => .error .valueError

end Verif.AtlasNet
