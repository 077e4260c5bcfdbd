import Mathlib.Analysis.SpecialFunctions.Complex.Arg
/-!
Specification for C86: amplitude and phase lag of a tidal constant.
-/
namespace Verif.Spec

/-- `a` and `p` are the amplitude and the Greenwich phase lag in degrees of the constant `z`: the
tide `re z · cos t − im z · sin t` is `a · cos (t − p)` at every phase `t` of the constituent, with
a non-negative amplitude and a lag of at least 0 and below 360 degrees. -/
def Lag (z : ℂ) (a p : ℝ) : Prop :=
  0 ≤ a ∧ 0 ≤ p ∧ p < 360 ∧
    ∀ t : ℝ, z.re * Real.cos t - z.im * Real.sin t = a * Real.cos (t - p * (Real.pi / 180))

end Verif.Spec
