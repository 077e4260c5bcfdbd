import Verif.Model.Grid
import Verif.Model.Interpolate
import Verif.Model.Spline
/-!
Model of extracting harmonic constants from GOT and FES models, and of reading them and then
interpolating (`/repo/pyTMD/io/GOT.py` 119-535, `/repo/pyTMD/io/FES.py` 134-592).

The files are given as they are read: two axes and a matrix of complex numbers with a mask; reading
them is modelled elsewhere (`Model/Ascii`, `Model/NetCDF`).  The number under a mask is kept, since
splines use it.  The result is the complex constant before `np.abs` and `np.arctan2`, with the
factor its modulus is multiplied with; numbers under the mask of the result are not modelled.
Extrapolation is a parameter (see `Model/Extrapolate`).  The keyword arguments are those of the
current names.  The methods are `'bilinear'`, `'spline'` and `'linear'`.
-/
namespace Verif.Extract
open Verif

variable {K : Type} [Field K] [LinearOrder K] [IsStrictOrderedRing K]

/-- An element of a complex masked array as read from a file. -/
structure Fld (K : Type) where
  re : K
  im : K
  masked : Bool
  deriving DecidableEq

/-- A model file as it is read. -/
structure Layer (K : Type) where
  lon : List K
  lat : List K
  hc : List (List (Fld K))
  deriving DecidableEq

/-- One interpolated constant: masked, unmasked NaN, or the complex number `re + im i` and the factor
of its modulus. -/
inductive Out (K : Type) where
  | masked
  | nan
  | val (re im factor : K)
  deriving DecidableEq

inductive Method where
  | bilinear
  | spline
  | linear
  deriving DecidableEq

/-- `np.ma.default_fill_value(np.dtype(complex))`: the number `1e20 + 0j`. -/
def fillRe : K := 10 ^ 20

/-- An axis as an array. -/
def ofList (l : List K) : Interp.Axis K := ⟨l.length, fun i => l.getD i 0⟩

/-- An element of a matrix; indices are in range where this is used. -/
def entry (m : List (List (Fld K))) (j i : ℕ) : Fld K := (m.getD j []).getD i ⟨0, 0, true⟩

/-- interpolate.py 35-118, `bilinear` for a complex matrix: the real and imaginary parts have the same
weights.  A complex number is `none` when it is NaN.  The result is the number and the mask. -/
def bilinearC (x y : List K) (cell : ℕ → ℕ → Option (K × K) × Bool) (lon lat : K) :
    Except PyErr (Option (K × K) × Bool) := do
  let a ← Interp.bilinear (ofList x) (ofList y)
    (fun j i => ⟨(cell j i).1.map Prod.fst, (cell j i).2⟩) (some fillRe) lon lat
  let b ← Interp.bilinear (ofList x) (ofList y)
    (fun j i => ⟨(cell j i).1.map Prod.snd, (cell j i).2⟩) (some 0) lon lat
  .ok (match a.val, b.val with
    | some p, some q => some (p, q)
    | _, _ => none, a.masked)

/-- Both axes increase; `RectBivariateSpline` raises `ValueError` otherwise.  (For
`RegularGridInterpolator` newer versions of scipy also take decreasing axes, which is not modelled.) -/
def Ascending (x y : List K) : Prop := x.Pairwise (· < ·) ∧ y.Pairwise (· < ·)

instance (x y : List K) : Decidable (Ascending x y) := by unfold Ascending; infer_instance

/-- The mask of a matrix as numbers. -/
def maskRows (hc : List (List (Fld K))) : List (List K) :=
  hc.map fun r => r.map fun c => if c.masked then 1 else 0

def reRows (hc : List (List (Fld K))) : List (List K) := hc.map fun r => r.map Fld.re

def imRows (hc : List (List (Fld K))) : List (List K) := hc.map fun r => r.map Fld.im

/-- `RectBivariateSpline` of degree one also raises `ValueError` with fewer than two coordinates. -/
def Spans (x y : List K) : Prop := Ascending x y ∧ 2 ≤ x.length ∧ 2 ≤ y.length

instance (x y : List K) : Decidable (Spans x y) := by unfold Spans; infer_instance

/-- interpolate.py 120-200, `spline` with `reducer=np.ceil`: the number and the mask. -/
def splineC (x y : List K) (hc : List (List (Fld K))) (lon lat : K) :
    Except PyErr ((K × K) × Bool) :=
  if Spans x y then
    .ok ((Spline.spline x y (reRows hc) lon lat, Spline.spline x y (imRows hc) lon lat),
      decide (0 < Spline.spline x y (maskRows hc) lon lat))
  else .error .valueError

/-- interpolate.py 202-276, `regulargrid` with `method='linear'`, `reducer=np.ceil` and
`bounds_error=False`: the number and the mask.  Outside the grid the mask is set (`fill_value=1`) and
the number is the fill value (or extrapolated if there is none, 252-258, which then is under the
mask). -/
def regularC (x y : List K) (hc : List (List (Fld K))) (lon lat : K) :
    Except PyErr ((K × K) × Bool) :=
  if Ascending x y then
    .ok (match Spline.linear x y (reRows hc) lon lat, Spline.linear x y (imRows hc) lon lat,
        Spline.linear x y (maskRows hc) lon lat with
      | some a, some b, some m => ((a, b), decide (0 < m))
      | _, _, _ => ((fillRe, 0), true))
  else .error .valueError

/-- `hc.data[hc.mask] = np.nan`. -/
def nanCell (c : Fld K) : Option (K × K) × Bool := (if c.masked then none else some (c.re, c.im), c.masked)

/-- `hc.data[hc.mask] = fill_value`. -/
def fillMasked (hc : List (List (Fld K))) : List (List (Fld K)) :=
  hc.map fun r => r.map fun c => if c.masked then ⟨fillRe, 0, true⟩ else c

/-- GOT.py 262-288 and 475-512 (`stored`), FES.py 275-302 and 533-571 (`stored`): interpolation of one
constituent to one point.  `stored` is the version in `interpolate_constants`, which replaces masked
numbers with the fill value before the spline.  (`hc[hc.mask] = np.nan` in GOT.py also clears the mask
of those elements; they are masked again afterwards because they are NaN.) -/
def atPoint (method : Method) (stored : Bool) (x y : List K) (hc : List (List (Fld K)))
    (scale : K) (q : K × K) : Except PyErr (Out K) :=
  match method with
  | .bilinear => do
    let (v, m) ← bilinearC x y (fun j i => nanCell (entry hc j i)) q.1 q.2
    .ok (match v, m with
      | some z, false => .val z.1 z.2 scale
      | _, _ => .masked)
  | .spline => do
    let (z, m) ← splineC x y (if stored then fillMasked hc else hc) q.1 q.2
    .ok (if m then .masked else .val z.1 z.2 scale)
  | .linear => do
    let (z, m) ← regularC x y (if stored then fillMasked hc else hc) q.1 q.2
    .ok (if m || decide (z = (fillRe, 0)) then .masked else .val z.1 z.2 scale)

/-- What differs between the readers of GOT and FES: the number of columns a global grid is extended
by, and whether points outside the model are masked. -/
structure Fmt where
  three : Bool
  bounded : Bool

/-- `/repo/pyTMD/io/GOT.py`. -/
def got : Fmt := ⟨true, false⟩

/-- `/repo/pyTMD/io/FES.py`. -/
def fes : Fmt := ⟨false, true⟩

/-- GOT.py 234 and 371, FES.py 247 and 421: the grid step of the model, `np.abs(lon[1]-lon[0])` for
GOT and `lon[1]-lon[0]` for FES. -/
def step (f : Fmt) (lon : List K) : Except PyErr K :=
  match lon[0]?, lon[1]? with
  | some a, some b => .ok (if f.three then |b - a| else b - a)
  | _, _ => .error .indexError

/-- GOT.py 257-259 and 373-375, FES.py 265-267 and 423-425: a global grid is extended. -/
def extended (f : Fmt) (dlon : K) (g : Layer K) : Except PyErr (Layer K) :=
  match g.lon.head?, g.lon.getLast? with
  | some a, some b =>
    if Interp.isclose (b - a) (360 - dlon) then do
      let lon ← (if f.three then Grid.extendArray3 g.lon dlon else Grid.extendArray g.lon dlon)
      let hc ← pyMap (fun r => if f.three then Grid.extendRow3 r else Grid.extendRow r) g.hc
      .ok ⟨lon, g.lat, hc⟩
    else .ok g
  | _, _ => .error .indexError

/-- FES.py 269-270 and 507-508: `(ilon < lon.min()) | (ilon > lon.max()) | (ilat < lat.min()) |
(ilat > lat.max())`. -/
def outside (x y : List K) (q : K × K) : Except PyErr Bool :=
  match x.min?, x.max?, y.min?, y.max? with
  | some x0, some x1, some y0, some y1 =>
    .ok (decide (q.1 < x0 ∨ x1 < q.1 ∨ q.2 < y0 ∨ y1 < q.2))
  | _, _, _, _ => .error .valueError

/-- A bounding box `[xmin, xmax, ymin, ymax]`. -/
structure Box (K : Type) where
  xmin : K
  xmax : K
  ymin : K
  ymax : K

/-- `np.any(bounds)`. -/
def Box.any (b : Box K) : Bool := !(b.xmin = 0 && b.xmax = 0 && b.ymin = 0 && b.ymax = 0)

/-- Keyword arguments.  `near` gives the value extrapolated to a point, if one is within the cutoff
and `extrapolate=True`. -/
structure Request (K : Type) where
  method : Method
  crop : Bool
  bounds : Option (Box K)
  buffer : Option K
  near : List K → List K → List (List (Fld K)) → K × K → Option (K × K)
  scale : K

/-- `kwargs['buffer'] or 4*dlon`. -/
def Request.bufferOr (r : Request K) (dlon : K) : K :=
  match r.buffer with
  | some b => if b = 0 then 4 * dlon else b
  | none => 4 * dlon

/-- GOT.py 206-208: `kwargs['bounds'] or [xmin, xmax, ymin, ymax]` with the range of the points. -/
def Request.boundsOr (r : Request K) (pts : List (K × K)) : Except PyErr (Box K) :=
  match (pts.map Prod.fst).min?, (pts.map Prod.fst).max?, (pts.map Prod.snd).min?,
      (pts.map Prod.snd).max? with
  | some a, some b, some c, some d => .ok (r.bounds.getD ⟨a, b, c, d⟩)
  | _, _, _, _ => .error .valueError

/-- GOT.py 289-298, FES.py 303-312: extrapolation of a masked value. -/
def Request.fill (r : Request K) (x y : List K) (hc : List (List (Fld K))) (q : K × K) : Out K → Out K
  | .masked => match r.near x y hc q with
    | some z => .val z.1 z.2 r.scale
    | none => .masked
  | o => o

/-- GOT.py 241-255, FES.py 251-263: crop the model, or adjust the longitudes of the points. -/
def place (r : Request K) (box : Box K) (dlon : K) (g : Layer K) (pts : List (K × K)) :
    Except PyErr (Layer K × List (K × K)) :=
  if r.crop = true ∧ box.any = true then do
    let (hc, lon, lat) ← Grid.crop (⟨0, 0, false⟩ : Fld K) g.hc g.lon g.lat box.xmin box.xmax
      box.ymin box.ymax (r.bufferOr dlon) true
    .ok (⟨lon, lat, hc⟩, pts)
  else
    match g.lon.min?, g.lon.max? with
    | some lo, some hi => do
      let x ← Grid.adjustGOT lo hi (pts.map Prod.fst)
      .ok (g, x.zip (pts.map Prod.snd))
    | _, _ => .error .valueError

/-- The body of the loop over the points of one constituent. -/
def evaluate (f : Fmt) (r : Request K) (stored : Bool) (x y : List K) (hc : List (List (Fld K)))
    (pts : List (K × K)) : Except PyErr (List (Out K)) :=
  pyMap (fun q => do
    let o ← atPoint r.method stored x y hc r.scale q
    let inv ← (if f.bounded then outside x y q else .ok false)
    .ok (if inv then .masked else r.fill x y hc q o)) pts

/-- GOT.py 219-304, FES.py 235-321: one file; the points are changed in place and carried over to the
next file. -/
def extractFile (f : Fmt) (r : Request K) (box : Box K) (g : Layer K) (pts : List (K × K)) :
    Except PyErr (List (Out K) × List (K × K)) := do
  let dlon ← step f g.lon
  let (g, pts) ← place r box dlon g pts
  let g ← extended f dlon g
  let outs ← evaluate f r false g.lon g.lat g.hc pts
  .ok (outs, pts)

/-- The loop over the files. -/
def extractFiles (f : Fmt) (r : Request K) (box : Box K) :
    List (Layer K) → List (K × K) → Except PyErr (List (List (Out K)))
  | [], _ => .ok []
  | g :: gs, pts => do
    let (outs, pts) ← extractFile f r box g pts
    let rest ← extractFiles f r box gs pts
    .ok (outs :: rest)

/-- GOT.py 119-310 and FES.py 134-345, `extract_constants`: one list of constants by file. -/
def extract (f : Fmt) (r : Request K) (files : List (Layer K)) (pts : List (K × K)) :
    Except PyErr (List (List (Out K))) := do
  let box ← r.boundsOr pts
  extractFiles f r box files pts

/-- A `constituents` object read from GOT or FES files: the axes of the last file and the matrices. -/
structure Stored (K : Type) where
  lon : List K
  lat : List K
  fields : List (List (List (Fld K)))

/-- GOT.py 364-380, FES.py 412-430: one file; the step is that of the cropped axis. -/
def readFile (f : Fmt) (crop : Option (Box K × K)) (g : Layer K) : Except PyErr (Layer K) := do
  let g ← (match crop with
    | some (box, buffer) =>
      if box.any = true then do
        let (hc, lon, lat) ← Grid.crop (⟨0, 0, false⟩ : Fld K) g.hc g.lon g.lat box.xmin box.xmax
          box.ymin box.ymax buffer true
        (.ok ⟨lon, lat, hc⟩ : Except PyErr (Layer K))
      else .ok g
    | none => .ok g)
  let dlon ← step f g.lon
  extended f dlon g

/-- GOT.py 313-389, FES.py 348-441, `read_constants`.  Without files the object has no coordinates and
a later interpolation raises `AttributeError`. -/
def read (f : Fmt) (crop : Option (Box K × K)) (files : List (Layer K)) :
    Except PyErr (Option (Stored K)) := do
  let gs ← pyMap (readFile f crop) files
  .ok (gs.getLast?.map fun g => ⟨g.lon, g.lat, gs.map Layer.hc⟩)

/-- GOT.py 392-535, FES.py 444-592, `interpolate_constants`. -/
def interpolate (f : Fmt) (r : Request K) (s : Stored K) (pts : List (K × K)) :
    Except PyErr (List (List (Out K))) := do
  match s.lon.min?, s.lon.max? with
  | some lo, some hi => do
    let x ← Grid.adjustGOT lo hi (pts.map Prod.fst)
    pyMap (fun hc => evaluate f r true s.lon s.lat hc (x.zip (pts.map Prod.snd))) s.fields
  | _, _ => .error .valueError

end Verif.Extract
