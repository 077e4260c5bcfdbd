import Mathlib.Data.Real.Basic
/-!
Angles that are the same up to whole turns and a small error.
-/
namespace Verif.Spec.Angle

/-- `a` and `b` differ by whole turns and at most `ε`. -/
def Within (circle ε a b : ℝ) : Prop := ∃ k : ℤ, |a - b - k * circle| ≤ ε

end Verif.Spec.Angle
