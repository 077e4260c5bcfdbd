import Mathlib.Algebra.Order.Field.Basic
/-!
A chart of a complex quantity on the points where meridians and parallels cross, and what its
bilinear interpolation at a place is.
-/
namespace Verif.Spec

variable {K : Type} [Field K] [LinearOrder K]

/-- The columns are numbered from west to east, the rows from south to north.  `cols` and `rows` say
which numbers occur.  A point without a value (land) has `none`. -/
structure Chart (K : Type) where
  lon : ℤ → K
  lat : ℤ → K
  cols : ℤ → Prop
  rows : ℤ → Prop
  value : ℤ → ℤ → Option (K × K)

namespace Chart

/-- The place `(x, y)` lies in the cell east of column `k` and north of row `j`, the fraction `t` of
the width from its western side and the fraction `s` of the height from its southern side. -/
structure At (C : Chart K) (x y : K) (k j : ℤ) (t s : K) : Prop where
  col : C.cols k
  col' : C.cols (k + 1)
  row : C.rows j
  row' : C.rows (j + 1)
  t0 : 0 ≤ t
  t1 : t ≤ 1
  s0 : 0 ≤ s
  s1 : s ≤ 1
  x_eq : x = (1 - t) * C.lon k + t * C.lon (k + 1)
  y_eq : y = (1 - s) * C.lat j + s * C.lat (j + 1)

/-- The values at the four points around a cell with their weights. -/
def corners (C : Chart K) (k j : ℤ) (t s : K) : List (K × Option (K × K)) :=
  [((1 - t) * (1 - s), C.value k j), (t * (1 - s), C.value (k + 1) j),
    ((1 - t) * s, C.value k (j + 1)), (t * s, C.value (k + 1) (j + 1))]

/-- The weighted sum, if every point that matters has a value. -/
def blend (ws : List (K × Option (K × K))) : Option (K × K) :=
  if ∀ p ∈ ws, p.1 ≠ 0 → p.2 ≠ none then
    some ((ws.map fun p => p.1 * (p.2.getD (0, 0)).1).sum, (ws.map fun p => p.1 * (p.2.getD (0, 0)).2).sum)
  else none

/-- The weight of a point if it has a value, 0 otherwise. -/
def share (p : K × Option (K × K)) : K := if p.2 = none then 0 else p.1

/-- The weighted mean of the points that have a value. -/
def mean (ws : List (K × Option (K × K))) : Option (K × K) :=
  if (ws.map share).sum = 0 then none
  else some ((ws.map fun p => share p * (p.2.getD (0, 0)).1).sum / (ws.map share).sum,
    (ws.map fun p => share p * (p.2.getD (0, 0)).2).sum / (ws.map share).sum)

/-- `o` is the bilinear interpolation at a place; there is none next to land. -/
def Value (C : Chart K) (x y : K) (o : Option (K × K)) : Prop :=
  ∃ k j t s, C.At x y k j t s ∧ o = blend (C.corners k j t s)

/-- `o` is the weighted mean of the surrounding points that have a value. -/
def Mean (C : Chart K) (x y : K) (o : Option (K × K)) : Prop :=
  ∃ k j t s, C.At x y k j t s ∧ o = mean (C.corners k j t s)

/-- The columns and rows are in order. -/
structure Ordered (C : Chart K) : Prop where
  lon : ∀ k, C.cols k → C.cols (k + 1) → C.lon k < C.lon (k + 1)
  lat : ∀ j, C.rows j → C.rows (j + 1) → C.lat j < C.lat (j + 1)
  between_cols : ∀ k l m, k ≤ l → l ≤ m → C.cols k → C.cols m → C.cols l
  between_rows : ∀ k l m, k ≤ l → l ≤ m → C.rows k → C.rows m → C.rows l

/-- The chart goes around the globe: after `n` columns it repeats itself 360 degrees further east. -/
structure Round (C : Chart K) (n : ℕ) : Prop where
  col : ∀ k, C.cols k
  lon : ∀ k, C.lon (k + n) = C.lon k + 360
  value : ∀ k j, C.value (k + n) j = C.value k j

end Chart
end Verif.Spec
