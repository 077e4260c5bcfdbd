import Verif.Model.Extract
/-!
Model of `tide_masks` in `/repo/pyTMD/compute.py` 665-793.

The model grid is what the reader of the format returns (their models are in `Model/OTIS`, `Model/NetCDF`,
`Model/Ascii`): the axes and the mask, true where the model has no values.  The transformation of the given
coordinates to longitude and latitude (`pyproj`) and from these to the projection of OTIS models are inputs.
An element of the result is `none` if it is masked (method `'bilinear'` beyond the grid).
-/
namespace Verif.Masks
open Verif Verif.Extract

variable {K : Type} [Field K] [LinearOrder K]

/-- The axes of a model and its mask, true for points without a value. -/
structure Grid (K : Type) where
  x : List K
  y : List K
  mz : List (List Bool)

/-- The branches of 727-772. -/
inductive Kind where
  | otis | atlas | got | fes
  deriving DecidableEq

/-- compute.py 727-772: for another format nothing is assigned, and line 774 to 788 use a name that is not
bound. -/
def kind (format : String) : Except PyErr Kind :=
  if ["OTIS", "ATLAS-compact", "TMD3"].contains format then .ok .otis
  else if format = "ATLAS-netcdf" then .ok .atlas
  else if ["GOT-ascii", "GOT-netcdf"].contains format then .ok .got
  else if format = "FES-netcdf" then .ok .fes
  else .error .unbound

/-- compute.py 734, 744-747, 756-759, 769-772: coordinates in the model.  `convert` is the transformation to
the projection of the model. -/
def coordinates (k : Kind) (convert : K × K → K × K) (q : K × K) : K × K :=
  match k with
  | .otis => convert q
  | _ => (if q.1 < 0 then q.1 + 360 else q.1, q.2)

/-- A logical array as numbers. -/
def numbers (mz : List (List Bool)) : List (List K) := mz.map fun r => r.map fun b => if b then 1 else 0

/-- `np.floor(v).astype(bool)`: false for numbers from 0 up to 1, true for others and for NaN. -/
def floorBool (v : Option K) : Bool :=
  match v with
  | some v => !decide (0 ≤ v ∧ v < 1)
  | none => true

/-- compute.py 775-785: the mask at one point.  `given` are the coordinates as they were passed by the user,
`q` those in the model.  (`RegularGridInterpolator` has `fill_value=1` beyond the grid; for the other names
of methods only `'linear'` is modelled.) -/
def maskAt (method : Method) (g : Grid K) (given q : K × K) : Except PyErr (Option Bool) :=
  match method with
  | .bilinear => do
    let c ← Interp.bilinear (ofList g.x) (ofList g.y)
      (fun j i => ⟨some (((numbers g.mz).getD j []).getD i 0), false⟩) none q.1 q.2
    .ok (if c.masked then none else some (floorBool c.val))
  | .spline =>
    if Spans g.x g.y then .ok (some (floorBool (some (Spline.spline g.x g.y (numbers g.mz) q.1 q.2))))
    else .error .valueError
  | .linear =>
    if Ascending g.x g.y then
      .ok (some (floorBool (some ((Spline.linear g.x g.y (numbers g.mz) given.1 given.2).getD 1))))
    else .error .valueError

/-- compute.py 790-791: `(X >= xi.min()) & (X <= xi.max())` and the same for `Y`. -/
def within (g : Grid K) (q : K × K) : Except PyErr Bool :=
  match g.x.min?, g.x.max?, g.y.min?, g.y.max? with
  | some x0, some x1, some y0, some y1 => .ok (decide (x0 ≤ q.1 ∧ q.1 ≤ x1 ∧ y0 ≤ q.2 ∧ q.2 ≤ y1))
  | _, _, _, _ => .error .valueError

/-- Whether the operations on whole arrays work for input of shape `idim` with `n` elements: `valid &= ...`
(790) broadcasts an array of `n` elements into one of the shape of the input, and `np.c_[y, x]` (785) has two
columns only for vectors or single elements. -/
def fitting (method : Method) (idim : List ℕ) (n : ℕ) : Bool :=
  match idim.getLast? with
  | none => false
  | some d => (d == n || n == 1) && (method != .linear || idim.length == 1 || n == 1)

/-- compute.py 665-793, `tide_masks`, from the format of the model on. -/
def tideMasks (format : String) (method : Method) (grid : Kind → Except PyErr (Grid K))
    (convert : K × K → K × K) (idim : List ℕ) (pts : List ((K × K) × (K × K))) :
    Except PyErr (List (Option Bool)) := do
  let k ← kind format
  let g ← grid k
  let masks ← pyMap (fun p => maskAt method g p.1 (coordinates k convert p.2)) pts
  if fitting method idim pts.length then
    let ins ← pyMap (fun p => within g (coordinates k convert p.2)) pts
    .ok (List.zipWith (fun m i => m.map fun b => !b && i) masks ins)
  else .error .valueError

end Verif.Masks
