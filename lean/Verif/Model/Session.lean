import Verif.Model.TideModel
/-!
Model of `read_constants` and `interpolate_constants` of `pyTMD.io.model`
(`/repo/pyTMD/io/model.py` 1056-1175) as operations on one object that keeps what it has read.

The readers and interpolators of the file formats are inputs (`Library`); their own models are in
`Verif.Model.OTIS`, `Verif.Model.Interp` and others.  The points are fixed.  `elevation`,
`current`, `from_dict` and assignments to attributes are one operation that replaces the
attributes used here; none of them touches `_constituents` (lines 215-602, 771-775, 849-854).
-/
namespace Verif.TideModel
open Verif

/-- The readers, the interpolators and the equilibrium node tide.  Reading gives columns with their
names; interpolating takes the requested type and what was read. -/
structure Library (C R : Type) where
  reader : String → ModelFile → String → Except PyErr (List (String × C))
  interpolator : String → String → List (String × C) → Except PyErr R
  node : C

/-- The attributes, and `_constituents` if it is set. -/
structure Session (C : Type) where
  attrs : State
  cache : Option (List (String × C))

/-- Whether one of the branches on the format applies. -/
def knownFormat (f : String) : Bool := isOtis f || f == "ATLAS-netcdf" || isGot f || isFes f

/-- model.py 1056-1126, `read_constants`: the constants and the object afterwards. -/
def readConstants {C R : Type} (L : Library C R) (s : Session C) (type : String) (append : Bool) :
    Except PyErr (List (String × C) × Session C) := do
  let f ← readFiles s.attrs type
  let l ← L.reader s.attrs.format f type
  let l' := if append ∧ "node" ∉ l.map Prod.fst then l ++ [("node", L.node)] else l
  .ok (l', { s with cache := some l' })

/-- model.py 1128-1175, `interpolate_constants` (line 1157 reads with the keyword arguments of this
call, which may hold `append_node`). -/
def interpolateConstants {C R : Type} (L : Library C R) (s : Session C) (type : String)
    (append : Bool) : Except PyErr (R × Session C) := do
  let (c, s') ← (match s.cache with
    | some c => .ok (c, s)
    | none => readConstants L s type append)
  if knownFormat s'.attrs.format then
    let r ← L.interpolator s'.attrs.format type c
    .ok (r, s')
  else .error .unbound

/-- What a user does with one object. -/
inductive Op where
  | select (a : State)
  | read (type : String) (append : Bool)
  | interpolate (type : String) (append : Bool)

/-- The object after an operation, and the result of an interpolation.  An operation that raises
leaves the attributes; `_constituents` stays set if reading was done before the error. -/
def Op.step {C R : Type} (L : Library C R) (s : Session C) : Op → Session C × Option (Except PyErr R)
  | .select a => ({ s with attrs := a }, none)
  | .read t b => match readConstants L s t b with
    | .ok (_, s') => (s', none)
    | .error _ => (s, none)
  | .interpolate t b =>
    let s' := match s.cache with
      | some _ => s
      | none => match readConstants L s t b with
        | .ok (_, s') => s'
        | .error _ => s
    (s', some ((interpolateConstants L s t b).map Prod.fst))

/-- A sequence of operations. -/
def session {C R : Type} (L : Library C R) (s : Session C) : List Op → Session C
  | [] => s
  | o :: l => session L (o.step L s).1 l

end Verif.TideModel
