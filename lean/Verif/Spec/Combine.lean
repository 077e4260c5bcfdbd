import Mathlib.Algebra.Order.Field.Basic
/-!
Patches of a fine grid laid over a coarse one: which cells of the 2 arc-minute grid of the globe a patch covers.
-/
namespace Verif.Spec.Patches

variable {K V : Type} [Field K] [LinearOrder K]

/-- A local solution: its western and southern limits in degrees, and its rows from the south, each from the west,
with `none` on land.  Its nodes are 2 arc-minutes apart. -/
structure Patch (K V : Type) where
  west : K
  south : K
  rows : List (List (Option V))

/-- The value in a row and a column. -/
def Patch.value (p : Patch K V) (r c : ℕ) : Option V := (p.rows.getD r []).getD c none

/-- The place of a node: the first is at the limits, each moved to the next multiple of 2 arc-minutes to the west and
to the south. -/
def Patch.Node (p : Patch K V) (r c : ℕ) (x y : K) : Prop :=
  ∃ w s : ℤ, (w : K) / 30 ≤ p.west ∧ p.west < ((w : K) + 1) / 30 ∧ (s : K) / 30 ≤ p.south ∧
    p.south < ((s : K) + 1) / 30 ∧ x = ((w : K) + c) / 30 ∧ y = ((s : K) + r) / 30

/-- A place is in the cell of row `j` and column `i` of the 2 arc-minute grid, which begins at the south pole and at
Greenwich.  The northern and eastern sides belong to a cell.  Longitudes differing by 360 degrees are the same. -/
def InCell (j i : ℕ) (x y : K) : Prop :=
  (∃ turns : ℤ, (i : K) / 30 < x + 360 * turns ∧ x + 360 * turns ≤ ((i : K) + 1) / 30) ∧
    -90 + (j : K) / 30 < y ∧ y ≤ -90 + ((j : K) + 1) / 30

/-- A node of the patch with the value `v` is in the cell. -/
def Patch.Has (p : Patch K V) (j i : ℕ) (v : V) : Prop :=
  ∃ r c x y, p.value r c = some v ∧ p.Node r c x y ∧ InCell j i x y

/-- `v` is what the cell shows when the patches are laid one upon the other over `base`. -/
def Shows (ps : List (Patch K V)) (base : V) (j i : ℕ) (v : V) : Prop :=
  (∃ pre p post, ps = pre ++ p :: post ∧ p.Has j i v ∧ ∀ q ∈ post, ∀ w, ¬ q.Has j i w) ∨
    ((∀ q ∈ ps, ∀ w, ¬ q.Has j i w) ∧ v = base)

/-- The nodes with a value are on the globe, in any of the usual conventions for longitudes. -/
def Patch.OnGlobe (p : Patch K V) : Prop :=
  ∀ r c v x y, p.value r c = some v → p.Node r c x y → -720 < x ∧ x ≤ 360 ∧ -90 < y ∧ y ≤ 90

end Verif.Spec.Patches
