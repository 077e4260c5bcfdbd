import Verif.Model.Infer
/-!
Model of the tide predictions of `/repo/pyTMD/compute.py`: `corrections` (166-211),
`tide_elevations` (214-439) and `tide_currents` (442-662).

The model file, the projection of coordinates, the conversion of times and the extraction of
constants are inputs here: `amp` and `ph` are what `extract_constants` returns, a list of points
with one entry per constituent, and a time is the pair of `ts.tide` and `ts.tt_ut1`.  Floats are
reals.  The fill value of masked results is `none`.  `TYPE` is given (the case without one is
`Verif.Spatial.dataType`).
-/
namespace Verif.Compute
open Verif Verif.Predict Verif.Infer

/-- Results: a grid time by time, each time flattened; a track; stations by times. -/
inductive Out where
  | grid (times : List (List (Option ℝ))) | drift (l : List (Option ℝ))
  | series (stations : List (List (Option ℝ)))

/-- compute.py 200-211, `corrections`: which function answers.  `str.lower` and `str.upper` are
those of ASCII. -/
def corrections {α : Type} (name : String) (elevations lpet lpt opt set : Except PyErr α) :
    Except PyErr α :=
  if name.toLower = "ocean" ∨ name.toLower = "load" then elevations
  else if name.toUpper = "LPET" then lpet
  else if name.toUpper = "LPT" then lpt
  else if name.toUpper = "OPT" then opt
  else if name.toUpper = "SET" then set
  else .error .valueError

/-- compute.py 371-374 (and 594-597): `amp*np.exp(-1j*ph*np.pi/180.0)`, an element. -/
noncomputable def oscillation (a g : MR) : MC :=
  ⟨a.1 * Real.cos (g.1 * Real.pi / 180), -(a.1 * Real.sin (g.1 * Real.pi / 180)), a.2 || g.2⟩

/-- The array of these. -/
noncomputable def constants (amp ph : List (List MR)) : List (List MC) :=
  List.zipWith (List.zipWith oscillation) amp ph

/-- `a or b` for strings -/
def orString (a : Option String) (b : String) : String :=
  match a with
  | none => b
  | some s => if s = "" then b else s

/-- `a or b` for lists -/
def orList (a b : Option (List String)) : Option (List String) :=
  match a with
  | none => b
  | some [] => b
  | some l => some l

/-- compute.py 380-386 (and 603-609): the times with the time correction that is used. -/
noncomputable def withDelta (corr : String) (times : List (ℝ × ℝ)) : List (ℝ × ℝ) :=
  times.map fun t => (t.1, if corr ∈ ["OTIS", "ATLAS", "TMD3", "netcdf"] then 0 else t.2)

/-- compute.py 435-436 (and 658-659): a value, or the fill value. -/
def filled (v : MR) : Option ℝ := if v.2 then none else some v.1

/-- compute.py 404-405 and 433-434: the sum of major and minor tides, values and masks. -/
noncomputable def plusMinor (infer : Bool) (tide : List MR) (minor : Except PyErr Res) :
    Except PyErr (List MR) :=
  if infer then minor >>= addMinor tide
  else .ok (tide.map fun v => (v.1 + 0, v.2 || false))

/-- Assignment of an array to the mask of another one: `mask.flat = values` repeats the values. -/
def flatMask (n : ℕ) (l : List Bool) : List Bool :=
  (List.range n).map fun i => l.getD (i % l.length) false

/-- compute.py 388-436 (and 611-659): prediction for a kind of request.  `ny` and `nx` are the
shape of `x`; the stations of a time series are the points of `hc`. -/
noncomputable def predict (P : Predict.Env) (I : Infer.Env) (type : String) (names : List String)
    (corr : String) (infer : Bool) (minor : Option (List String)) (ny nx : ℕ)
    (hc : List (List MC)) (ts : List (ℝ × ℝ)) : Except PyErr Out :=
  if type.toLower = "grid" then do
    let out ← pyMap (fun t : ℝ × ℝ => do
      let TIDE ← Predict.map P t.1 t.2 hc names corr
      let both ← plusMinor infer TIDE (inferMinor I [t] hc names corr "linear" minor false)
      if both.length = ny * nx then .ok (both.map filled) else .error .valueError) ts
    .ok (.grid out)
  else if type.toLower = "drift" then do
    let mask := flatMask ts.length (hc.map fun row => row.any fun z => z.mask)
    let TIDE ← Predict.drift P ts hc names corr
    let data ←
      if infer then do
        let m ← inferMinor I ts hc names corr "linear" minor false
        match m with
        | .scalar _ => .error .attributeError
        | .array l => do
          let l ← broadcast ts.length l
          .ok (List.zipWith (fun v w => v.1 + w.1) TIDE l)
      else .ok (TIDE.map Prod.fst)
    .ok (.drift (List.zipWith (fun v k => filled (v, k)) data mask))
  else if type.toLower = "time series" then do
    let out ← pyMap (fun row => do
      let TIDE ← Predict.timeSeries P ts [row] names corr
      let both ← plusMinor infer TIDE (inferMinor I ts [row] names corr "linear" minor false)
      .ok (both.map filled)) hc
    .ok (.series out)
  else .error .unbound

/-- What a tide model provides at the points: values and names of `extract_constants`, and the
attributes `corrections` and `minor`. -/
structure Extracted where
  amp : List (List MR)
  ph : List (List MR)
  names : List String
  corrections : String
  minor : Option (List String)

/-- The keyword arguments `CORRECTIONS`, `INFER_MINOR`, `MINOR_CONSTITUENTS` and `TYPE`. -/
structure Options where
  type : String
  corrections : Option String
  infer : Bool
  minor : Option (List String)

/-- compute.py 336 and 371-439: `tide_elevations` once the constants are there. -/
noncomputable def tideElevations (P : Predict.Env) (I : Infer.Env) (o : Options) (ny nx : ℕ)
    (m : Extracted) (times : List (ℝ × ℝ)) : Except PyErr Out :=
  if o.type.toLower ∉ ["grid", "drift", "time series"] then .error .assertionError
  else
    let corr := orString o.corrections m.corrections
    predict P I o.type m.names corr o.infer (orList o.minor m.minor) ny nx
      (constants m.amp m.ph) (withDelta corr times)

/-- compute.py 556 and 586-662: `tide_currents`, the same for every component of the model. -/
noncomputable def tideCurrents (P : Predict.Env) (I : Infer.Env) (o : Options) (ny nx : ℕ)
    (components : List (String × Extracted)) (times : List (ℝ × ℝ)) :
    Except PyErr (List (String × Out)) :=
  if o.type.toLower ∉ ["grid", "drift", "time series"] then .error .assertionError
  else pyMap (fun c => do
    let corr := orString o.corrections c.2.corrections
    let r ← predict P I o.type c.2.names corr o.infer (orList o.minor c.2.minor) ny nx
      (constants c.2.amp c.2.ph) (withDelta corr times)
    .ok (c.1, r)) components

end Verif.Compute
