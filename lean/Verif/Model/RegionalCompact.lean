import Verif.Model.Regional
import Verif.Model.Combine
/-!
Model of `/repo/scripts/reduce_OTIS_files.py` 95-103: the grid of an ATLAS-compact model that is cut.  The global and
the local solutions are combined, and the combined depths and mask are written as a grid file of an OTIS model.
-/
namespace Verif.Regional
open Verif Verif.Bytes

variable {K : Type} [Field K] [LinearOrder K] [IsStrictOrderedRing K] [FloorRing K]

/-- reduce_OTIS_files.py 96-103: coordinates, depths and mask of the combined model; the depths are rounded to words
(line 137), which is done here for all of them.  `iob` and `dt` are those of the global solution. -/
def compactGrid (bits : K → F4) (g : Combine.Grid K) (iob : List ℤ) (dt : F4) : Except PyErr (Grid K) := do
  let hz ← Combine.combine g.x g.y g.hz g.sols
  let mz ← Combine.atlasMask g.x g.y g.mz g.sols
  .ok ⟨Combine.x30, Combine.y30, hz.map fun r => r.map bits, mz, iob, dt⟩

/-- reduce_OTIS_files.py 95-142 for an ATLAS-compact model: the bytes of the new grid file. -/
def reduceCompact (bits : K → F4) (conv : K × K → K × K) (g : Combine.Grid K) (iob : List ℤ) (dt : F4)
    (xmin xmax ymin ymax : K) : Except PyErr (List UInt8) := do
  let c ← compactGrid bits g iob dt
  reduceGrid bits conv c xmin xmax ymin ymax

end Verif.Regional
