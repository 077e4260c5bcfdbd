import Verif.Spec.Chart
/-!
A staggered grid: elevations at the points of a chart, zonal currents half a step west of them and
meridional currents half a step south of them.  A current point is in the sea if the elevation points
on both sides are, and the depth there is the mean of theirs.
-/
namespace Verif.Spec

variable {K : Type} [Field K] [LinearOrder K]

/-- The points of a staggered grid. -/
inductive Points where
  | elevation
  | zonal
  | meridional
  deriving DecidableEq

/-- Depths at the elevation points.  `sea` marks the points of the sea, `west` and `south` give the
neighbours (a point at the rim of a region is its own neighbour). -/
structure Sea (K : Type) where
  lon : ℤ → K
  lat : ℤ → K
  cols : ℤ → Prop
  rows : ℤ → Prop
  depth : ℤ → ℤ → K
  sea : ℤ → ℤ → Bool
  west : ℤ → ℤ
  south : ℤ → ℤ
  dx : K
  dy : K

namespace Sea

/-- The point is in the sea. -/
def Wet (S : Sea K) : Points → ℤ → ℤ → Prop
  | .elevation, k, j => S.sea k j = true ∧ S.depth k j ≠ 0
  | .zonal, k, j => 0 < S.depth (S.west k) j ∧ 0 < S.depth k j
  | .meridional, k, j => 0 < S.depth k (S.south j) ∧ 0 < S.depth k j

instance (S : Sea K) (p : Points) (k j : ℤ) : Decidable (S.Wet p k j) := by
  cases p <;> unfold Wet <;> infer_instance

/-- The depth of the water. -/
def water (S : Sea K) : Points → ℤ → ℤ → K
  | .elevation, k, j => S.depth k j
  | .zonal, k, j => (S.depth (S.west k) j + S.depth k j) / 2
  | .meridional, k, j => (S.depth k (S.south j) + S.depth k j) / 2

/-- The chart of a quantity; it has no value on land. -/
def chart (S : Sea K) (p : Points) (value : ℤ → ℤ → Option (K × K)) : Chart K where
  lon k := if p = .zonal then S.lon k - S.dx / 2 else S.lon k
  lat j := if p = .meridional then S.lat j - S.dy / 2 else S.lat j
  cols := S.cols
  rows := S.rows
  value k j := if S.Wet p k j then value k j else none

/-- The chart of the depth of the water. -/
def depths (S : Sea K) (p : Points) : Chart K := S.chart p fun k j => some (S.water p k j, 0)

end Sea
end Verif.Spec
