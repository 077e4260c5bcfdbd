import Mathlib.Algebra.Order.Field.Basic
/-!
A map on the globe with nodes every half degree, between the meridians and parallels of whole half
degrees, and its bilinear interpolation.
-/
namespace Verif.Spec.IERS

variable {K : Type} [Field K] [LinearOrder K]

/-- `v` lies on the straight line between the values of `g` at the integers next to `x`. -/
def OnLine (g : ℤ → K) (x v : K) : Prop :=
  ∃ (k : ℤ) (t : K), 0 ≤ t ∧ t ≤ 1 ∧ x = k + t ∧ v = (1 - t) * g k + t * g (k + 1)

/-- The node of column `i` is at longitude `1/4 + i/2`; column `i + 720` is the same meridian.  The
node of row `j` is at latitude `359/4 - j/2` (`j` from 0 to 359, from north to south). -/
def Periodic (F : ℤ → ℤ → K) : Prop := ∀ i j, F (i + 720) j = F i j

/-- `v` is the bilinear interpolation of the map at a point between the first and last parallel. -/
def MapValue (F : ℤ → ℤ → K) (lon lat v : K) : Prop :=
  ∃ (j : ℤ) (s a b : K), 0 ≤ j ∧ j ≤ 358 ∧ 0 ≤ s ∧ s ≤ 1 ∧ 2 * (90 - lat) - 1 / 2 = j + s ∧
    OnLine (F · j) (2 * lon - 1 / 2) a ∧ OnLine (F · (j + 1)) (2 * lon - 1 / 2) b ∧
    v = (1 - s) * a + s * b

end Verif.Spec.IERS
