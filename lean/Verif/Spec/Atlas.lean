import Verif.Model.Bytes
/-!
The ATLAS-compact file layout, as a sequence of Fortran unformatted records, and what a reader
should return for it.  Independent of the readers.
-/
namespace Verif.Spec.Atlas
open Verif.Bytes

/-- A Fortran unformatted record: the payload between two copies of its length in bytes. -/
def record (payload : List UInt8) : List UInt8 :=
  be payload.length ++ payload ++ be payload.length

/-- Integers stored as big-endian words. -/
def ints (l : List ℕ) : List UInt8 := l.flatMap be

/-- Single precision numbers stored as big-endian words. -/
def floats (l : List F4) : List UInt8 := l.flatMap (fun x => be x.toNat)

/-- Complex numbers, real part first. -/
def complexes (l : List (F4 × F4)) : List UInt8 := floats (l.flatMap (fun z => [z.1, z.2]))

/-- Text padded with spaces to a width. -/
def pad (n : ℕ) (s : List UInt8) : List UInt8 := s ++ List.replicate (n - s.length) 32

/-- A byte that is not whitespace. -/
def Visible (b : UInt8) : Prop := b ≠ 32 ∧ (b < 9 ∨ 13 < b)

/-- Names that can be told apart in the file: visible characters, all but the last at most three
characters long, the last at most four, all different. -/
def GoodNames (names : List (List UInt8)) : Prop :=
  (∀ c ∈ names, c ≠ [] ∧ (∀ b ∈ c, Visible b) ∧ c.length ≤ 4) ∧
  (∀ c ∈ names.dropLast, c.length ≤ 3) ∧ names.Nodup

/-- A title of at most 20 characters which does not begin or end with whitespace. -/
def GoodTitle (t : List UInt8) : Prop :=
  t.length ≤ 20 ∧ (∀ b, t.head? = some b → Visible b) ∧ (∀ b, t.getLast? = some b → Visible b)

/-- The positions (column, row), counted from one, of the wet cells of an `ny` by `nx` grid. -/
def GoodCells (nx ny : ℕ) (cells : List (ℕ × ℕ)) : Prop :=
  cells.Nodup ∧ ∀ p ∈ cells, 1 ≤ p.1 ∧ p.1 ≤ nx ∧ 1 ≤ p.2 ∧ p.2 ≤ ny

/-- The grid with the given values at the wet cells, masked (`none`) elsewhere. -/
def gridOf {α : Type} (nx ny : ℕ) (cells : List (ℕ × ℕ)) (vals : List α) :
    List (List (Option α)) :=
  (List.range ny).map (fun r => (List.range nx).map (fun c =>
    (cells.zip vals).lookup (c + 1, r + 1)))

/-- The size fits a signed 32-bit integer. -/
def Fits (n : ℕ) : Prop := n < 2 ^ 31

/-! ### Elevations -/

/-- A local elevation solution. -/
structure SolutionZ where
  nx : ℕ
  ny : ℕ
  lat : List F4
  lon : List F4
  title : List UInt8
  cells : List (ℕ × ℕ)
  /-- constituents, each with one value per wet cell -/
  cons : List (List UInt8 × List (F4 × F4))

/-- The records of a local elevation solution. -/
def SolutionZ.encode (s : SolutionZ) : List UInt8 :=
  record (ints [s.nx, s.ny, s.cons.length, s.cells.length] ++ floats s.lat ++ floats s.lon
    ++ (s.cons.map Prod.fst).flatMap (pad 4) ++ pad 20 s.title)
  ++ record (ints (s.cells.map Prod.fst) ++ ints (s.cells.map Prod.snd))
  ++ s.cons.flatMap (fun p => record (complexes p.2))

/-- A solution that can be stored. -/
def SolutionZ.Valid (s : SolutionZ) : Prop :=
  Fits s.nx ∧ Fits s.ny ∧ Fits s.cons.length ∧ Fits s.cells.length ∧
  s.lat.length = 2 ∧ s.lon.length = 2 ∧ GoodTitle s.title ∧ GoodNames (s.cons.map Prod.fst) ∧
  GoodCells s.nx s.ny s.cells ∧ ∀ p ∈ s.cons, p.2.length = s.cells.length

/-! ### Transports -/

/-- A local transport solution: wet `u` and `v` nodes, and the values per constituent. -/
structure SolutionUV where
  nx : ℕ
  ny : ℕ
  lat : List F4
  lon : List F4
  title : List UInt8
  cellsU : List (ℕ × ℕ)
  cellsV : List (ℕ × ℕ)
  cons : List (List UInt8 × (List (F4 × F4) × List (F4 × F4)))

/-- The records of a local transport solution. -/
def SolutionUV.encode (s : SolutionUV) : List UInt8 :=
  record (ints [s.nx, s.ny, s.cons.length, s.cellsU.length, s.cellsV.length]
    ++ floats s.lat ++ floats s.lon
    ++ (s.cons.map Prod.fst).flatMap (pad 4) ++ pad 20 s.title)
  ++ record (ints (s.cellsU.map Prod.fst) ++ ints (s.cellsU.map Prod.snd))
  ++ record (ints (s.cellsV.map Prod.fst) ++ ints (s.cellsV.map Prod.snd))
  ++ s.cons.flatMap (fun p => record (complexes p.2.1) ++ record (complexes p.2.2))

/-- A solution that can be stored. -/
def SolutionUV.Valid (s : SolutionUV) : Prop :=
  Fits s.nx ∧ Fits s.ny ∧ Fits s.cons.length ∧ Fits s.cellsU.length ∧ Fits s.cellsV.length ∧
  s.lat.length = 2 ∧ s.lon.length = 2 ∧ GoodTitle s.title ∧ GoodNames (s.cons.map Prod.fst) ∧
  GoodCells s.nx s.ny s.cellsU ∧ GoodCells s.nx s.ny s.cellsV ∧
  ∀ p ∈ s.cons, p.2.1.length = s.cellsU.length ∧ p.2.2.length = s.cellsV.length

/-! ### The global part -/

/-- The global solution: a header record and one record of rows per constituent, where a cell is
stored as the numbers given by `enc`. -/
def encodeGlobal {α : Type} (enc : α → List F4) (nx ny : ℕ) (ylim xlim : List F4)
    (cons : List (List UInt8 × List (List α))) : List UInt8 :=
  record (ints [nx, ny, cons.length] ++ floats ylim ++ floats xlim
    ++ (cons.map Prod.fst).flatMap (pad 4))
  ++ cons.flatMap (fun p => record (p.2.flatMap (fun row => floats (row.flatMap enc))))

end Verif.Spec.Atlas
