import Mathlib.Algebra.Order.Field.Basic
/-!
Where a model on a grid has values, written without the code.
-/
namespace Verif.Spec

variable {K : Type} [Field K] [LinearOrder K]

/-- A coordinate lies strictly between the neighbours of node `i` of an axis (or at the end of the axis
itself), so that the node counts in the interpolation there. -/
def Reaches (axis : List K) (i : ℕ) (q : K) : Prop :=
  i < axis.length ∧ (i = 0 ∨ axis.getD (i - 1) 0 < q) ∧ (i + 1 = axis.length ∨ q < axis.getD (i + 1) 0)

/-- A place is in the rectangle of the grid. -/
def Enclosed (xs ys : List K) (q : K × K) : Prop :=
  xs.getD 0 0 ≤ q.1 ∧ q.1 ≤ xs.getD (xs.length - 1) 0 ∧ ys.getD 0 0 ≤ q.2 ∧ q.2 ≤ ys.getD (ys.length - 1) 0

/-- A place has a point with a value around it. -/
def Wet (xs ys : List K) (land : ℕ → ℕ → Bool) (q : K × K) : Prop :=
  Enclosed xs ys q ∧ ∃ i j, Reaches xs i q.1 ∧ Reaches ys j q.2 ∧ land j i = false

end Verif.Spec
