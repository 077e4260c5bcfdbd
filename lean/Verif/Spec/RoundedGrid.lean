import Mathlib.Data.Real.Basic
/-!
What the bilinear interpolation in floating point arithmetic should give: the value of a node which
is as good as the point, or nearly the mean of the values around the point.
-/
namespace Verif.Spec

/-- The sum of the weights of the corners that have a value. -/
def weightOf (cs : List (ℝ × Option ℝ)) : ℝ := (cs.map fun p => p.2.elim 0 fun _ => p.1).sum

/-- The sum of their weighted values. -/
def massOf (cs : List (ℝ × Option ℝ)) : ℝ := (cs.map fun p => p.2.elim 0 fun v => p.1 * v).sum

/-- The corners of the cell between `x0` and `x1` and `y0` and `y1`: the weight of a corner is the area
of the rectangle between the point and the opposite corner. -/
def around (x0 x1 y0 y1 x y : ℝ) (v00 v01 v10 v11 : Option ℝ) : List (ℝ × Option ℝ) :=
  [((x1 - x) * (y1 - y), v00), ((x - x0) * (y1 - y), v01), ((x1 - x) * (y - y0), v10),
    ((x - x0) * (y - y0), v11)]

/-- The distance at which coordinates are the same for numpy. -/
noncomputable def tolerance (node : ℝ) : ℝ := 1 / 10 ^ 8 + 1 / 10 ^ 5 * |node|

/-- `x` is at the node, up to the tolerance times `s`. -/
def At (s x node : ℝ) : Prop := |x - node| ≤ s * tolerance node

end Verif.Spec
