import Verif.Model.Pipeline
import Verif.Model.Extrapolated
import Verif.Model.Equilibrium
import Verif.Model.TMD3
/-!
Model of predictions with the options `EXTRAPOLATE`, `APPEND_NODE` and `APPLY_FLEXURE` of
`compute.tide_elevations`, `/repo/pyTMD/compute.py` 364-439 (and 587-662), with
`/repo/pyTMD/io/model.py` 1000-1054.  `CROP` is a part of the requests of `Model/Pipeline`.

As in `Model/Pipeline` floats are reals, the projection of the points and the conversion of times are
inputs, and an unmasked NaN is taken for a masked constant.  The latitudes that `node_equilibrium` gets
are given apart from the points, which may be projected.
-/
namespace Verif.Pipeline
open Verif Verif.Predict Verif.Compute

/-- model.py 1045-1052: the node tide is added to the constants if it is asked for (`lats` are the
latitudes of the points) and is not there.  `np.ma.concatenate` wants as many latitudes as points. -/
noncomputable def appendNode (lats : Option (List ℝ)) (m : Extracted) : Except PyErr Extracted :=
  match lats with
  | none => .ok m
  | some l =>
    if "node" ∈ m.names then .ok m
    else if l.length ≠ m.amp.length then .error .valueError
    else .ok { m with
      amp := List.zipWith (fun row lat => row ++ [((Equilibrium.nodeEquilibrium lat).1, false)]) m.amp l
      ph := List.zipWith (fun row lat => row ++ [((Equilibrium.nodeEquilibrium lat).2, false)]) m.ph l
      names := m.names ++ ["node"] }

/-- compute.py 364-439 from the constants that the functions of a format return on. -/
noncomputable def finish (P : Predict.Env) (I : Infer.Env) (o : Options) (ny nx n : ℕ) (b : About)
    (lats : Option (List ℝ)) (times : List (ℝ × ℝ)) (outs : List (List (Extract.Out ℝ))) :
    Except PyErr Compute.Out := do
  let m ← appendNode lats (table n outs b.names b.corrections b.minor)
  tideElevations P I o ny nx m times

/-- Elevations from GOT and FES files; `tree` is given with `EXTRAPOLATE`. -/
noncomputable def optFiles (P : Predict.Env) (I : Infer.Env) (o : Options) (ny nx : ℕ) (f : Extract.Fmt)
    (r : Extract.Request ℝ) (tree : Option (Near.Tree ℝ 3)) (lats : Option (List ℝ))
    (files : List (Extract.Layer ℝ)) (b : About) (pts times : List (ℝ × ℝ)) : Except PyErr Compute.Out := do
  let outs ← match tree with
    | none => Extract.extract f r files pts
    | some t => Near.extract f r t files pts
  finish P I o ny nx pts.length b lats times outs

/-- Elevations or a component of currents from ATLAS netCDF files. -/
noncomputable def optAtlas (P : Predict.Env) (I : Infer.Env) (o : Options) (ny nx : ℕ)
    (r : Extract.Request ℝ) (speed : Bool) (tree : Option (Near.Tree ℝ 3)) (lats : Option (List ℝ))
    (s : AtlasNet.Site ℝ) (fields : List (List (List (ℝ × ℝ)))) (b : About) (pts times : List (ℝ × ℝ)) :
    Except PyErr Compute.Out := do
  let (_, outs) ← match tree with
    | none => AtlasNet.extract r speed s fields pts
    | some t => Near.extractAtlas r t speed s fields pts
  finish P I o ny nx pts.length b lats times outs

/-- Elevations or a component of currents from OTIS files; the tree has two dimensions for projected
models. -/
noncomputable def optOtis {n : ℕ} (P : Predict.Env) (I : Infer.Env) (o : Options) (ny nx : ℕ)
    (r : Staggered.Ask ℝ) (tree : Option (Near.Tree ℝ n)) (lats : Option (List ℝ)) (s : Staggered.Site ℝ)
    (fields : List (List (List (Extract.Fld ℝ)))) (b : About) (pts times : List (ℝ × ℝ)) :
    Except PyErr Compute.Out := do
  let (_, outs) ← match tree with
    | none => Staggered.extract r s fields pts
    | some t => Near.extractOtis r t s fields pts
  finish P I o ny nx pts.length b lats times outs

/-- A text of the bytes of a netCDF attribute, for ASCII. -/
def ascii (l : List UInt8) : String := String.ofList (l.map fun c => Char.ofNat c.toNat)

/-- Elevations or a component of currents from a TMD3 file; `flexure` is `APPLY_FLEXURE`.  The names of
the constituents are those in the file. -/
noncomputable def optTmd3 (P : Predict.Env) (I : Infer.Env) (o : Options) (ny nx : ℕ)
    (r : Staggered.Ask ℝ) (flexure : Bool) (lats : Option (List ℝ)) (g f : TMD3.File ℝ)
    (b : About) (pts times : List (ℝ × ℝ)) : Except PyErr Compute.Out := do
  let (names, _, outs) ← TMD3.extract r flexure g f pts
  finish P I o ny nx pts.length { b with names := names.map ascii } lats times outs

end Verif.Pipeline
