import Verif.Model.Extract
import Verif.Model.CGrid
/-!
Model of extracting harmonic constants from OTIS models, and of reading them and then interpolating
(`/repo/pyTMD/io/OTIS.py` 172-911).

The files are given as they are read: the axes, depths and mask of the grid file, and for every
constituent the matrix of complex numbers of the quantity asked for (reading the files is modelled in
`Model/OTIS`).  The files of one model have the same shape.  Coordinates are those after
`crs.transform`; `geographic` says whether they are degrees.  The result is as in `Model/Extract`: the
complex constant with the factor its modulus is multiplied with.  Extrapolation is a parameter.  The
methods are `'bilinear'`, `'spline'` and `'linear'`.
-/
namespace Verif.Staggered
open Verif Verif.Extract

variable {K : Type} [Field K] [LinearOrder K] [IsStrictOrderedRing K]
variable {α β γ : Type}

/-- The grid file of a model: axes, depths, and the mask that is set at points of the sea. -/
structure Site (K : Type) where
  x : List K
  y : List K
  hz : List (List K)
  sea : List (List Bool)

/-- Where on the grid a quantity lives. -/
inductive Node where
  | z
  | u
  | v
  deriving DecidableEq

/-- Keyword `type`: `'z'`, `'u'` and `'v'` (velocities), `'U'` and `'V'` (transports). -/
structure Quantity where
  node : Node
  speed : Bool

/-- OTIS.py 1950-1974, `_extend_matrix`. -/
def extendMatrix (m : List (List α)) : Except PyErr (List (List α)) := pyMap Grid.extendRow m

/-- `_extend_matrix` if the grid is global. -/
def extendIf (glob : Bool) (m : List (List α)) : Except PyErr (List (List α)) :=
  if glob then extendMatrix m else .ok m

/-- An operation on the elements of two matrices. -/
def zipMatrix (f : α → β → γ) (a : List (List α)) (b : List (List β)) : List (List γ) :=
  List.zipWith (List.zipWith f) a b

/-- OTIS.py 332-368 and 624-661: depths at the nodes of a quantity and their mask,
`(h == 0) | m.astype(bool)`, where `m` is the inverted mask.  A real number is a complex one with the
imaginary part 0. -/
def depths (node : Node) (glob : Bool) (hz : List (List K)) (sea : List (List Bool)) :
    Except PyErr (List (List (Fld K))) :=
  match node with
  | .z => do
    let h ← extendIf glob hz
    let m ← extendIf glob sea
    .ok (zipMatrix (fun a b => ⟨a, 0, decide (a = 0) || !b⟩) h m)
  | .u => do
    let h ← extendIf glob (CGrid.interpolateZeta hz glob).1
    let m ← extendIf glob (CGrid.maskNodes hz glob).1
    .ok (zipMatrix (fun a b => ⟨a, 0, decide (a = 0) || decide (b = 0)⟩) h m)
  | .v => do
    let h ← extendIf glob (CGrid.interpolateZeta hz glob).2
    let m ← extendIf glob (CGrid.maskNodes hz glob).2
    .ok (zipMatrix (fun a b => ⟨a, 0, decide (a = 0) || decide (b = 0)⟩) h m)

/-- OTIS.py 353 and 646: `xi -= dx/2.0` for zonal currents. -/
def nodeX (node : Node) (dx : K) (x : List K) : List K :=
  if node = .u then x.map (· - dx / 2) else x

/-- OTIS.py 368 and 661: `yi -= dy/2.0` for meridional currents. -/
def nodeY (node : Node) (dy : K) (y : List K) : List K :=
  if node = .v then y.map (· - dy / 2) else y

/-- `xi[1] - xi[0]`. -/
def step (x : List K) : Except PyErr K :=
  match x[0]?, x[1]? with
  | some a, some b => .ok (b - a)
  | _, _ => .error .indexError

/-- A region to crop to and the buffer around it. -/
abbrev Region (K : Type) := Option (Box K × K)

/-- `_crop` if there is a region. -/
def cropIf (geographic : Bool) (region : Region K) (zero : α) (m : List (List α)) (x y : List K) :
    Except PyErr (List (List α) × List K × List K) :=
  match region with
  | some (box, buffer) => Grid.crop zero m x y box.xmin box.xmax box.ymin box.ymax buffer geographic
  | none => .ok (m, x, y)

/-- What is known of a model before the constituents are read: the axes of the elevations, those of
the quantity, the depths at its nodes, and whether the grid is global. -/
structure Frame (K : Type) where
  x : List K
  y : List K
  nx : List K
  ny : List K
  bath : List (List (Fld K))
  glob : Bool

/-- OTIS.py 319-368 and 619-661: extend a global grid and compute the depths at the nodes.  The test
is `np.isclose` in `extract_constants` and `==` in `read_constants` (`exact`). -/
def frame (exact geographic : Bool) (node : Node) (dx dy : K) (x y : List K) (hz : List (List K))
    (sea : List (List Bool)) : Except PyErr (Frame K) :=
  match x.head?, x.getLast? with
  | some a, some b => do
    let glob := geographic && (if exact then decide (b - a = 360 - dx) else Interp.isclose (b - a) (360 - dx))
    let x ← (if glob then Grid.extendArray x dx else .ok x)
    let bath ← depths node glob hz sea
    .ok ⟨x, y, nodeX node dx x, nodeY node dy y, bath, glob⟩
  | _, _ => .error .indexError

/-- `x[a:b] -= h`. -/
def lowered (h : K) (x : List K) (ab : ℕ × ℕ) : List K :=
  x.take ab.1 ++ (Grid.sliceNat x ab).map (· - h) ++ x.drop ab.2

/-- OTIS.py 2013-2018: `_crop` changes the convention of the longitudes, into a new array. -/
def renewed (geographic : Bool) (box : Box K) (x : List K) : Bool :=
  match x.min?, x.max? with
  | some lo, some hi => geographic && (decide (min box.xmin box.xmax < 0 ∧ hi > 180) ||
      decide (max box.xmin box.xmax > 180 ∧ lo < 0))
  | _, _ => false

/-- The arrays `mx` and `my` (OTIS.py 305 and 610) with which the constituents are cropped.  The axes
returned by `_crop` are views of these arrays (2032-2033), except for longitudes that were shifted, and
the extension of a global grid makes a new array of its longitudes.  So `xi -= dx/2.0` and
`yi -= dy/2.0` (353, 368, 646 and 661) change `mx` and `my` too. -/
def aliased (geographic : Bool) (region : Region K) (node : Node) (glob : Bool) (dx dy : K)
    (x y : List K) : Except PyErr (List K × List K) :=
  match region, node with
  | some (box, buffer), .u =>
    if renewed geographic box x || glob then .ok (x, y)
    else do
      let cols ← Grid.cropSlice (Grid.flatnonzero x (box.xmin - buffer) (box.xmax + buffer))
      .ok (lowered (dx / 2) x cols, y)
  | some (box, buffer), .v => do
    let rows ← Grid.cropSlice (Grid.flatnonzero y (box.ymin - buffer) (box.ymax + buffer))
    .ok (x, lowered (dy / 2) y rows)
  | _, _ => .ok (x, y)

/-- OTIS.py 451-460 and 718-728: crop and extend the matrix of a constituent and combine its mask with
that of the depths.  `sx` and `sy` are the axes of the file.  `hc.mask |= bathymetry.mask` raises
`ValueError` unless the matrices have the same shape.  (Depths with a single row or column would be
broadcast.) -/
def constituent (geographic : Bool) (region : Region K) (sx sy : List K) (f : Frame K)
    (hc : List (List (Fld K))) : Except PyErr (List (List (Fld K))) := do
  let (hc, _, _) ← cropIf geographic region (⟨0, 0, false⟩ : Fld K) hc sx sy
  let hc ← extendIf f.glob hc
  if hc.map List.length = f.bath.map List.length then
    .ok (zipMatrix (fun c b => ⟨c.re, c.im, c.masked || b.masked⟩) hc f.bath)
  else .error .valueError

/-- OTIS.py 373-391 and 818-829: the depth at a point, `none` where it is masked.  (A depth that is
NaN counts as masked.) -/
def depthAt (m : Method) (x y : List K) (bath : List (List (Fld K))) (q : K × K) :
    Except PyErr (Option K) :=
  match m with
  | .bilinear => do
    let (v, k) ← bilinearC x y (fun j i => nanCell (entry bath j i)) q.1 q.2
    .ok (if k then none else v.map Prod.fst)
  | .spline => do
    let (z, k) ← splineC x y bath q.1 q.2
    .ok (if k then none else some z.1)
  | .linear => do
    let (z, k) ← regularC x y bath q.1 q.2
    .ok (if k then none else some z.1)

/-- `hc.data[(hc==0) | hc.mask] = np.nan`. -/
def nonzeroCell (c : Fld K) : Option (K × K) × Bool :=
  (if c.masked ∨ (c.re = 0 ∧ c.im = 0) then none else some (c.re, c.im), c.masked)

/-- OTIS.py 873: `hc.data[(hc.data == 0) | hc.mask] = fill_value`. -/
def fillZeros (hc : List (List (Fld K))) : List (List (Fld K)) :=
  hc.map fun r => r.map fun c =>
    if c.masked ∨ (c.re = 0 ∧ c.im = 0) then ⟨fillRe, 0, c.masked⟩ else c

/-- OTIS.py 462-492 and 850-884 (`stored`): a constant at a point, `none` where it is masked, given
the depth there.  With `'bilinear'` and `'linear'` the mask of the interpolated array is replaced,
with `'spline'` only in the stored version. -/
def constantAt (m : Method) (stored : Bool) (x y : List K) (hc : List (List (Fld K)))
    (d : Option K) (q : K × K) : Except PyErr (Option (K × K)) :=
  match m with
  | .bilinear => do
    let (v, _) ← bilinearC x y (fun j i => nonzeroCell (entry hc j i)) q.1 q.2
    .ok (if d.isNone then none else v)
  | .spline => do
    let (z, k) ← splineC x y hc q.1 q.2
    .ok (if (k && !stored) || d.isNone then none else some z)
  | .linear => do
    let (z, _) ← regularC x y (if stored then fillZeros hc else hc) q.1 q.2
    .ok (if decide (z = (fillRe, 0)) || d.isNone then none else some z)

/-- OTIS.py 393-399, 505 and 831-837, 897: the modulus is divided by `D/100.0` for velocities.  A
masked array leaves the numerator where the denominator is masked or zero. -/
def factor (speed : Bool) (d : Option K) : K :=
  if speed then
    match d with
    | some h => if h = 0 then 1 else 100 / h
    | none => 1
  else 1

/-- Extrapolation: the value for a point, if one is within the cutoff and `extrapolate=True`. -/
abbrev Near (K : Type) := List K → List K → List (List (Fld K)) → K × K → Option (K × K)

/-- The body of the loop over the points of one constituent.  `ax` and `ay` are the axes used to find
points outside the model. -/
def evaluate (m : Method) (near : Near K) (speed stored : Bool) (ax ay x y : List K)
    (bath hc : List (List (Fld K))) (pts : List (K × K)) : Except PyErr (List (Out K)) :=
  pyMap (fun q => do
    let d ← depthAt m x y bath q
    let o ← constantAt m stored x y hc d q
    let inv ← outside ax ay q
    let o := match o with
      | some z => some z
      | none => near x y hc q
    .ok (match inv, o with
      | false, some z => .val z.1 z.2 (factor speed d)
      | _, _ => .masked)) pts

/-- OTIS.py 310-317: longitudes are adjusted to the model, in `extract_constants` only the second half
when cropping. -/
def adjust (geographic crop : Bool) (x : List K) (pts : List (K × K)) : Except PyErr (List (K × K)) :=
  match x.min?, x.max?, (pts.map Prod.fst).max? with
  | some lo, some hi, some mx =>
    if geographic = false then .ok pts
    else if crop then
      .ok (if mx > hi then pts.map fun p => (if p.1 > 180 then p.1 - 360 else p.1, p.2) else pts)
    else do
      let l ← Grid.adjustOTIS lo hi (pts.map Prod.fst)
      .ok (l.zip (pts.map Prod.snd))
  | _, _, _ => .error .valueError

/-- Keyword arguments of `extract_constants`. -/
structure Ask (K : Type) where
  quantity : Quantity
  geographic : Bool
  method : Method
  crop : Bool
  bounds : Option (Box K)
  buffer : Option K
  near : Near K

/-- OTIS.py 294-302: the region to crop to, `kwargs['bounds'] or [xmin, xmax, ymin, ymax]` with the
buffer `kwargs['buffer'] or 4*dx`; nothing is cropped unless `np.any(bounds)`. -/
def Ask.region (r : Ask K) (dx : K) (pts : List (K × K)) : Except PyErr (Region K) :=
  match (pts.map Prod.fst).min?, (pts.map Prod.fst).max?, (pts.map Prod.snd).min?,
      (pts.map Prod.snd).max? with
  | some a, some b, some c, some d =>
    let box := r.bounds.getD ⟨a, b, c, d⟩
    .ok (if r.crop = true ∧ box.any = true then
      some (box, match r.buffer with
        | some v => if v = 0 then 4 * dx else v
        | none => 4 * dx)
      else none)
  | _, _, _, _ => .error .valueError

/-- OTIS.py 172-520, `extract_constants`: the depths at the points and one list of constants by
constituent. -/
def extract (r : Ask K) (s : Site K) (fields : List (List (List (Fld K)))) (pts : List (K × K)) :
    Except PyErr (List (Option K) × List (List (Out K))) := do
  let dx ← step s.x
  let dy ← step s.y
  let region ← r.region dx pts
  let (sea, _, _) ← cropIf r.geographic region false s.sea s.x s.y
  let (hz, x, y) ← cropIf r.geographic region 0 s.hz s.x s.y
  let pts ← adjust r.geographic region.isSome x pts
  let f ← frame false r.geographic r.quantity.node dx dy x y hz sea
  let d ← pyMap (depthAt r.method f.nx f.ny f.bath) pts
  let (mx, my) ← aliased r.geographic region r.quantity.node f.glob dx dy s.x s.y
  let outs ← pyMap (fun hc => do
    let hc ← constituent r.geographic region mx my f hc
    evaluate r.method r.near r.quantity.speed false f.x f.y f.nx f.ny f.bath hc pts) fields
  .ok (d, outs)

/-- A `constituents` object read from an OTIS model: the axes of the quantity, the depths and the
matrices. -/
structure Stored (K : Type) where
  geographic : Bool
  x : List K
  y : List K
  bath : List (List (Fld K))
  fields : List (List (List (Fld K)))

/-- OTIS.py 523-733, `read_constants`. -/
def read (geographic : Bool) (node : Node) (region : Region K) (s : Site K)
    (fields : List (List (List (Fld K)))) : Except PyErr (Stored K) := do
  let region := region.filter fun b => b.1.any
  let dx ← step s.x
  let dy ← step s.y
  let (sea, _, _) ← cropIf geographic region false s.sea s.x s.y
  let (hz, x, y) ← cropIf geographic region 0 s.hz s.x s.y
  let f ← frame true geographic node dx dy x y hz sea
  let (mx, my) ← aliased geographic region node f.glob dx dy s.x s.y
  let hcs ← pyMap (constituent geographic region mx my f) fields
  .ok ⟨geographic, f.nx, f.ny, f.bath, hcs⟩

/-- OTIS.py 736-911, `interpolate_constants`.  The keyword `type` has no default there; it is given
as `speed`. -/
def interpolate (m : Method) (near : Near K) (speed : Bool) (s : Stored K) (pts : List (K × K)) :
    Except PyErr (List (Option K) × List (List (Out K))) := do
  let pts ← adjust s.geographic false s.x pts
  let d ← pyMap (depthAt m s.x s.y s.bath) pts
  let outs ← pyMap (fun hc => evaluate m near speed true s.x s.y s.x s.y s.bath hc pts) s.fields
  .ok (d, outs)

end Verif.Staggered
