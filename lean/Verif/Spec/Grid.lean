import Mathlib.Algebra.Order.Field.Basic
import Mathlib.Data.List.Sort
/-!
Specification vocabulary for gridded periodic fields.
-/
namespace Verif.Spec

variable {K α : Type} [Field K] [LinearOrder K]

/-- Two longitudes denote the same meridian. -/
def SameMeridian (cyclic a b : K) : Prop := ∃ k : ℤ, b = a + k * cyclic

/-- Every (longitude, value) pair of `A` occurs in `B` on the same meridian. -/
def Covers (cyclic : K) (A B : List (K × α)) : Prop :=
  ∀ p ∈ A, ∃ q ∈ B, q.2 = p.2 ∧ SameMeridian cyclic p.1 q.1

/-- Strictly increasing axis. -/
def Increasing (l : List K) : Prop := l.Pairwise (· < ·)

/-- Strictly decreasing axis. -/
def Decreasing (l : List K) : Prop := l.Pairwise (· > ·)

/-- `n` equally spaced values. -/
def uniform (x0 d : K) (n : ℕ) : List K := (List.range n).map (fun k : ℕ => x0 + (k : K) * d)

/-- Keep the entries of `row` whose coordinate on `axis` satisfies `P`. -/
def select (P : K → Bool) (axis : List K) (row : List α) : List α :=
  ((axis.zip row).filter (fun p => P p.1)).map Prod.snd

/-- The gridded field `m` (a list of rows) with axes `x`, `y` holds the value `v` at the node
with coordinates `(a, b)`. -/
def HasNode (m : List (List α)) (x y : List K) (a b : K) (v : α) : Prop :=
  ∃ i j : ℕ, x[i]? = some a ∧ y[j]? = some b ∧ ∃ row, m[j]? = some row ∧ row[i]? = some v

end Verif.Spec
