import Mathlib.Analysis.SpecialFunctions.Sqrt
import Mathlib.Algebra.BigOperators.Fin
/-!
Model of `extrapolate` in `/repo/pyTMD/interpolate.py`, lines 279-420.

Model cells and output points are given by their Cartesian coordinates (three for geographic
grids, line 352-359, two for projected ones, line 389), so the dimension is a parameter.
The kd-tree of scipy is an argument; what it is assumed to do is `KDSpec` below.
-/
namespace Verif.Extrap
open Real

/-- A point in `n`-dimensional space. -/
abbrev Pt (n : ℕ) := Fin n → ℝ

/-- A model cell: position, data (`none` if not finite) and mask.  The data may be of any type `V`, since
they are only copied. -/
structure Node (n : ℕ) (V : Type) where
  pos : Pt n
  val : Option V
  masked : Bool

/-- interpolate.py 342: `(~idata.mask) & np.isfinite(idata.data)`. -/
def Node.valid {n : ℕ} {V : Type} (c : Node n V) : Bool := !c.masked && c.val.isSome

/-- Euclidean distance, as computed by scipy's kd-tree. -/
noncomputable def dist {n : ℕ} (p q : Pt n) : ℝ := sqrt (∑ i, (p i - q i) ^ 2)

/-- interpolate.py 361-363: smallest coordinate of the output points. -/
noncomputable def bmin {n : ℕ} (batch : List (Pt n)) (i : Fin n) : ℝ :=
  ((batch.map (fun p => p i)).min?).getD 0

/-- interpolate.py 361-363: largest coordinate of the output points. -/
noncomputable def bmax {n : ℕ} (batch : List (Pt n)) (i : Fin n) : ℝ :=
  ((batch.map (fun p => p i)).max?).getD 0

/-- interpolate.py 365-371 and 393-397: the cell is within the bounds of the output points
extended by twice the cutoff; `none` is an infinite cutoff. -/
def InBox {n : ℕ} {V : Type} (cutoff : Option ℝ) (batch : List (Pt n)) (c : Node n V) : Prop :=
  match cutoff with
  | none => True
  | some r => ∀ i, bmin batch i - 2 * r ≤ c.pos i ∧ c.pos i ≤ bmax batch i + 2 * r

/-- An output element. -/
structure Out (V : Type) where
  val : Option V
  masked : Bool

/-- The part of the kd-tree interface used in line 412, `tree.query(points, k=1,
distance_upper_bound=cutoff)`: the index of a tree point, or nothing (infinite distance). -/
abbrev Query (n : ℕ) := List (Pt n) → Option ℝ → Pt n → Option ℕ

open Classical in
/-- interpolate.py 279-420, `extrapolate`.  Returns `None` for an empty request (line 334-335).
`fill` is `idata.fill_value`. -/
noncomputable def extrapolate {n : ℕ} {V : Type} (query : Query n) (cells : List (Node n V))
    (fill : Option V) (cutoff : Option ℝ) (batch : List (Pt n)) : Option (List (Out V)) :=
  if batch = [] then none
  else
    let cand := cells.filter (fun c => c.valid && decide (InBox cutoff batch c))
    if cand = [] then some (batch.map (fun _ => { val := fill, masked := true }))
    else some (batch.map (fun p =>
      match query (cand.map (·.pos)) cutoff p with
      | none => { val := fill, masked := true }
      | some k =>
        match cand[k]? with
        | some c => { val := c.val, masked := false }
        | none => { val := fill, masked := true }))

end Verif.Extrap
