import Verif.Spec.Tide
/-!
The tide at a place: a value only if every constituent has a constant there.
-/
namespace Verif.Spec

open Classical in
/-- The tide from the constants of a place, the nodal factors and phases of the constituents, and a
tide of other constituents. -/
noncomputable def forecast (waves : List (ℝ × ℝ)) (zs : List (Option ℂ)) (other : ℝ) : Option ℝ :=
  if none ∈ zs then none
  else some (tide (List.zipWith (fun w z => ⟨w.1, w.2, z.getD 0⟩) waves zs) + other)

end Verif.Spec
