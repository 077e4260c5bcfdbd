import Verif.Model.Combine
import Verif.Model.PipelineOptions
/-!
Model of ATLAS-compact models in the other functions that take them: `read_constants` and `extract_constants` with
`extrapolate=True` (`/repo/pyTMD/io/OTIS.py` 583-587 and 677-699, 271-275 and 415-443), the predictions of
`/repo/pyTMD/compute.py` 364-439, and the dictionary of local solutions (OTIS.py 1049-1072, 1279-1307, 1451-1483).
-/
namespace Verif.Combine
open Verif Verif.Extract

section
variable {K V : Type} [Field K] [LinearOrder K] [IsStrictOrderedRing K] [FloorRing K]

/-- A matrix of numbers without a mask. -/
def bared (rows : List (List (K × K))) : List (List (Fld K)) := rows.map fun r => r.map fun z => ⟨z.1, z.2, false⟩

/-- OTIS.py 583-587 and 523-733, `read_constants` with `grid = 'ATLAS'`. -/
def read (geographic : Bool) (node : Staggered.Node) (region : Staggered.Region K) (g : Grid K)
    (fields : List (List (List (K × K)) × List (Local K (K × K)))) : Except PyErr (Staggered.Stored K) := do
  let s ← site g
  let hcs ← pyMap (fun f => combineC g.x g.y f.1 f.2) fields
  Staggered.read geographic node region s (hcs.map bared)

/-- OTIS.py 171-513, `extract_constants` with `grid = 'ATLAS'` and `extrapolate = True`. -/
noncomputable def extrapolate {n : ℕ} (r : Staggered.Ask K) (t : Near.Tree K n) (g : Grid K)
    (fields : List (List (List (K × K)) × List (Local K (K × K)))) (pts : List (K × K)) :
    Except PyErr (List (Option K) × List (List (Out K))) := do
  let s ← site g
  let hcs ← pyMap (fun f => combineC g.x g.y f.1 f.2) fields
  Near.extractOtis r t s (hcs.map bared) pts

end

/-- `d[k] = v` for a Python dictionary, in the order of its items: a key that is there keeps its place. -/
def store {N V : Type} [DecidableEq N] (k : N) (v : V) : List (N × V) → List (N × V)
  | [] => [(k, v)]
  | (k', v') :: t => if k' = k then (k', v) :: t else (k', v') :: store k v t

/-- OTIS.py 1072, 1307, 1483: `local[name] = …` for one local solution of the file after the other;
`local.items()` in OTIS.py 1547 and 1667. -/
def dictionary {N V : Type} [DecidableEq N] (records : List (N × V)) : List (N × V) :=
  records.foldl (fun d p => store p.1 p.2 d) []

end Verif.Combine

namespace Verif.Pipeline
open Verif Verif.Predict Verif.Compute

/-- compute.py 364-439 for ATLAS-compact files: elevations or a component of currents; `tree` is given with
`EXTRAPOLATE`. -/
noncomputable def optCompact (P : Predict.Env) (I : Infer.Env) (o : Options) (ny nx : ℕ)
    (r : Staggered.Ask ℝ) (tree : Option (Near.Tree ℝ 3)) (lats : Option (List ℝ)) (g : Combine.Grid ℝ)
    (fields : List (List (List (ℝ × ℝ)) × List (Combine.Local ℝ (ℝ × ℝ)))) (b : About) (pts times : List (ℝ × ℝ)) :
    Except PyErr Compute.Out := do
  let (_, outs) ← match tree with
    | none => Combine.extract r g fields pts
    | some t => Combine.extrapolate r t g fields pts
  finish P I o ny nx pts.length b lats times outs

end Verif.Pipeline
