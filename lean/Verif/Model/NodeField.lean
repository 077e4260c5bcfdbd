import Verif.Model.Extract
import Verif.Model.Equilibrium
/-!
Model of the node tide that `pyTMD.io.model` appends to constants of GOT and FES models, when they are
read (`/repo/pyTMD/io/model.py` 1106-1126) and when they are extracted (1044-1053).

Floats are reals.  Points and files as in `Model/Extract`.
-/
namespace Verif.NodeField
open Verif Verif.Extract

/-- model.py 1118-1119: `amp*np.exp(-1j*ph*np.pi/180.0)` for the constants of `node_equilibrium`. -/
noncomputable def constant (lat : ℝ) : ℝ × ℝ :=
  let (amp, ph) := Equilibrium.nodeEquilibrium lat
  (amp * Real.cos (ph * Real.pi / 180), -(amp * Real.sin (ph * Real.pi / 180)))

/-- model.py 1108-1119: the constants for the latitudes of the model, broadcast to `n` columns, unmasked. -/
noncomputable def field (lat : List ℝ) (n : ℕ) : List (List (Fld ℝ)) :=
  lat.map fun y => List.replicate n ⟨(constant y).1, (constant y).2, false⟩

/-- constituents.py 221-228, `shape`: the number of columns of the first field. -/
def width (s : Stored ℝ) : ℕ := ((s.fields.headD []).headD []).length

/-- model.py 1106-1121: the object that was read, with the node tide. -/
noncomputable def append (on : Bool) (names : List String) (s : Stored ℝ) : Stored ℝ :=
  if on = true ∧ "node" ∉ names then { s with fields := s.fields ++ [field s.lat (width s)] } else s

/-- model.py 1056-1175 for GOT and FES: `read_constants(append_node=on)` and then
`interpolate_constants`, with the scale of the model.  `names` are the constituents of the files. -/
noncomputable def readInterpolate (f : Fmt) (r : Request ℝ) (on : Bool) (names : List String)
    (files : List (Layer ℝ)) (pts : List (ℝ × ℝ)) : Except PyErr (List (List (Out ℝ))) := do
  let s ← read f none files
  match s with
  | none => .error .attributeError
  | some s => interpolate f r (append on names s) pts

/-- model.py 970-1054 for GOT and FES: `extract_constants(append_node=on)`.  The amplitudes and phases
that are appended are given as the complex numbers they stand for. -/
noncomputable def extractAppend (f : Fmt) (r : Request ℝ) (on : Bool) (names : List String)
    (files : List (Layer ℝ)) (pts : List (ℝ × ℝ)) : Except PyErr (List (List (Out ℝ))) := do
  let outs ← extract f r files pts
  .ok (if on = true ∧ "node" ∉ names then
    outs ++ [pts.map fun p => .val (constant p.2).1 (constant p.2).2 1] else outs)

end Verif.NodeField
