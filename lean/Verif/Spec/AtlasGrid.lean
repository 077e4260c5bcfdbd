import Verif.Spec.Atlas
/-!
The layout of the grid file of an ATLAS-compact model, as a sequence of Fortran unformatted records.
Independent of the reader.
-/
namespace Verif.Spec.Atlas
open Verif.Bytes

/-- The grid of a local solution: the positions of its wet cells and their depths. -/
structure LocalGrid where
  nx : ℕ
  ny : ℕ
  lat : List F4
  lon : List F4
  title : List UInt8
  cells : List (ℕ × ℕ)
  depth : List F4

def LocalGrid.encode (s : LocalGrid) : List UInt8 :=
  record (ints [s.nx, s.ny, s.cells.length] ++ floats s.lat ++ floats s.lon ++ pad 20 s.title)
  ++ record (ints (s.cells.map Prod.fst) ++ ints (s.cells.map Prod.snd))
  ++ record (floats s.depth)

def LocalGrid.Valid (s : LocalGrid) : Prop :=
  Fits s.nx ∧ Fits s.ny ∧ Fits s.cells.length ∧ s.lat.length = 2 ∧ s.lon.length = 2 ∧ GoodTitle s.title ∧
  GoodCells s.nx s.ny s.cells ∧ s.depth.length = s.cells.length

/-- The grid of the global solution: limits, time step, open boundary, depths and two masks. -/
structure GlobalGrid where
  nx : ℕ
  ny : ℕ
  lat : List F4
  lon : List F4
  dt : F4
  boundary : List (ℕ × ℕ)
  depth : List (List F4)
  mask : List (List ℕ)
  pmask : List (List ℕ)

/-- A grid of the given size. -/
def Rectangle {α : Type} (nx ny : ℕ) (f : List (List α)) : Prop := f.length = ny ∧ ∀ r ∈ f, r.length = nx

/-- Without an open boundary its record holds a single zero. -/
def GlobalGrid.encode (g : GlobalGrid) : List UInt8 :=
  record (ints [g.nx, g.ny] ++ floats g.lat ++ floats g.lon ++ floats [g.dt] ++ ints [g.boundary.length])
  ++ record (if g.boundary = [] then ints [0] else ints (g.boundary.flatMap fun p => [p.1, p.2]))
  ++ record (floats g.depth.flatten)
  ++ record (ints g.mask.flatten)
  ++ record (ints g.pmask.flatten)

def GlobalGrid.Valid (g : GlobalGrid) : Prop :=
  Fits g.nx ∧ Fits g.ny ∧ g.lat.length = 2 ∧ g.lon.length = 2 ∧ Fits g.boundary.length ∧
  (∀ p ∈ g.boundary, Fits p.1 ∧ Fits p.2) ∧ Rectangle g.nx g.ny g.depth ∧
  Rectangle g.nx g.ny g.mask ∧ Rectangle g.nx g.ny g.pmask ∧
  (∀ r ∈ g.mask, ∀ v ∈ r, Fits v) ∧ ∀ r ∈ g.pmask, ∀ v ∈ r, Fits v

end Verif.Spec.Atlas
