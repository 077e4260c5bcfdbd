import Verif.Model.Rounded
import Verif.Spec.Tide
/-!
The standard model of floating point arithmetic: the result of every operation is the exact one
with a relative error of at most `u` (`2 ^ (-53)` for binary64 as long as nothing overflows or
underflows), and functions of the library have a small error as well.  Sums and scalar products may
be formed in any order, with or without fused operations.
-/
namespace Verif.Spec
open Verif.Rounded

/-- The sum of the products of the absolute values. -/
def absDot (a : List ℝ) (c : List ℤ) : ℝ :=
  (List.zipWith (fun (x : ℝ) (y : ℤ) => |x| * |(y : ℝ)|) a c).sum

structure Standard (A : Arith) (u : ℝ) : Prop where
  nonneg : 0 ≤ u
  small : u ≤ 1 / 2 ^ 50
  rd : ∀ x, |A.rd x - x| ≤ u * |x|
  cos : ∀ x, |A.cos x - Real.cos x| ≤ 4 * u
  sin : ∀ x, |A.sin x - Real.sin x| ≤ 4 * u
  pow : ∀ t i, |A.pow t i - t ^ i| ≤ 4 * u * |t ^ i|
  sum : ∀ l, |A.sum l - l.sum| ≤ ((1 + u) ^ l.length - 1) * (l.map abs).sum
  dot : ∀ a c, |A.dot a c - (List.zipWith (fun (x : ℝ) (y : ℤ) => x * (y : ℝ)) a c).sum|
    ≤ ((1 + u) ^ (a.length + 1) - 1) * absDot a c
  pi : |A.pi - Real.pi| ≤ u * Real.pi

/-- The sum of the amplitudes with their nodal factors, that is, the scale of the errors. -/
noncomputable def amplitudes (ws : List Wave) : ℝ :=
  (ws.map fun w => |w.f| * (|w.h.re| + |w.h.im|)).sum

/-- Equal angles (radians) up to an error and whole turns. -/
def Turns (e x' x : ℝ) : Prop := ∃ k : ℤ, |x' - (x + 2 * Real.pi * k)| ≤ e

/-- The times that are considered: a century around 1992, and time corrections of up to a day. -/
structure Near1992 (t : ℝ × ℝ) : Prop where
  days : |t.1| ≤ 40000
  delta : |t.2| ≤ 1

end Verif.Spec
