import Verif.Model.Py
import Mathlib.Analysis.SpecialFunctions.Trigonometric.Basic
import Mathlib.Analysis.SpecialFunctions.Complex.Arg
/-!
Model of the prediction functions `map`, `drift` and `time_series` (`/repo/pyTMD/predict.py`
105-282) and of the harmonic analysis `constants` (`/repo/pyTMD/solve/constants.py` 40-144).

Floats are reals.  The nodal corrections, arguments and tabulated constituent parameters enter
through `Env`, which assigns them to each time and constituent; theorems hold for every `Env`.
`arguments` computes them elementwise in time, see `Verif.Model.Nodal`.
-/
namespace Verif.Predict
open Verif

/-- Nodal angle `pu` (radians), nodal factor `pf` and equilibrium argument `G` (degrees). -/
structure Arg where
  pu : ℝ
  pf : ℝ
  G : ℝ

/-- What `pyTMD.arguments` provides. -/
structure Env where
  /-- the constituent is in the coefficient table (`arguments` raises `ValueError` otherwise) -/
  known : String → Bool
  /-- `arguments` at a time (days since 1992-01-01) and a time correction, for a constituent -/
  args : ℝ → ℝ → String → Arg
  /-- phase and frequency of `_constituent_parameters` (arguments.py 1328-1412) -/
  ph : String → ℝ
  omega : String → ℝ

/-- An entry of a masked complex array. -/
structure MC where
  re : ℝ
  im : ℝ
  mask : Bool

/-- An entry of a masked real array. -/
abbrev MR := ℝ × Bool

/-- `corrections in ('OTIS', 'ATLAS', 'TMD3', 'netcdf')` -/
def usesParameters (corrections : String) : Bool :=
  corrections ∈ ["OTIS", "ATLAS", "TMD3", "netcdf"]

/-- predict.py 149-156 (and 209-216, 269-276; constants.py 108-113): the phase of a constituent. -/
noncomputable def phase (env : Env) (corrections : String) (c : String) (t : ℝ) (a : Arg) : ℝ :=
  if usesParameters corrections then env.omega c * t * 86400 + env.ph c + a.pu
  else a.G * Real.pi / 180 + a.pu

/-- `pyTMD.arguments.arguments` on arrays of times: one row per time, one column per
constituent. -/
def argMatrix (env : Env) (ts : List (ℝ × ℝ)) (names : List String) :
    Except PyErr (List (List Arg)) :=
  if names.all env.known then .ok (ts.map (fun t => names.map (env.args t.1 t.2)))
  else .error .valueError

/-- `a[k]` for a nonnegative index. -/
def item {α : Type} (l : List α) (k : ℕ) : Except PyErr α :=
  match l[k]? with
  | some a => .ok a
  | none => .error .indexError

/-- `a[:,k]` -/
def column {α : Type} (m : List (List α)) (k : ℕ) : Except PyErr (List α) :=
  pyMap (fun row => item row k) m

/-- predict.py 157-160: `ht.data += pf*re*cos(th) - pf*im*sin(th)` and
`ht.mask |= re.mask | im.mask`, for one element. -/
noncomputable def accum (h : MR) (a : Arg) (th : ℝ) (z : MC) : MR :=
  (h.1 + (a.pf * z.re * Real.cos th - a.pf * z.im * Real.sin th), h.2 || (z.mask || z.mask))

/-- predict.py 148-160: the loop over constituents of `map`; `row` is row 0 of `pu`, `pf`, `G`. -/
noncomputable def mapLoop (env : Env) (corr : String) (t : ℝ) (row : List Arg)
    (hc : List (List MC)) : ℕ → List String → List MR → Except PyErr (List MR)
  | _, [], ht => .ok ht
  | k, c :: cs, ht => do
    let a ← item row k
    let th := phase env corr c t a
    let col ← column hc k
    mapLoop env corr t row hc (k + 1) cs (List.zipWith (fun h z => accum h a th z) ht col)

/-- predict.py 105-162, `map`: one time, all points (`hc` lists the points).  `np.squeeze` is not
modelled. -/
noncomputable def map (env : Env) (t deltat : ℝ) (hc : List (List MC)) (names : List String)
    (corr : String) : Except PyErr (List MR) := do
  let A ← argMatrix env [(t, deltat)] names
  let row ← item A 0
  mapLoop env corr t row hc 0 names (List.replicate hc.length (0, false))

/-- Broadcasting of a column to the number of times: lengths must agree, or be one. -/
def broadcast {α : Type} (n : ℕ) (col : List α) : Except PyErr (List α) :=
  if col.length = n then .ok col
  else match col with
    | [z] => .ok (List.replicate n z)
    | _ => .error .valueError

/-- predict.py 208-220: the loop of `drift`. -/
noncomputable def driftLoop (env : Env) (corr : String) (ts : List (ℝ × ℝ)) (A : List (List Arg))
    (hc : List (List MC)) : ℕ → List String → List MR → Except PyErr (List MR)
  | _, [], ht => .ok ht
  | k, c :: cs, ht => do
    let a ← column A k
    let col ← column hc k
    let col ← broadcast ts.length col
    driftLoop env corr ts A hc (k + 1) cs
      (List.zipWith (fun h p => accum h p.1.2 (phase env corr c p.1.1.1 p.1.2) p.2) ht
        ((ts.zip a).zip col))

/-- predict.py 165-223, `drift`: time `j` at point `j`. -/
noncomputable def drift (env : Env) (ts : List (ℝ × ℝ)) (hc : List (List MC))
    (names : List String) (corr : String) : Except PyErr (List MR) := do
  let A ← argMatrix env ts names
  driftLoop env corr ts A hc 0 names (List.replicate ts.length (0, false))

/-- predict.py 268-280: the loop of `time_series`. -/
noncomputable def seriesLoop (env : Env) (corr : String) (ts : List (ℝ × ℝ)) (A : List (List Arg))
    (hc : List (List MC)) : ℕ → List String → List MR → Except PyErr (List MR)
  | _, [], ht => .ok ht
  | k, c :: cs, ht => do
    let a ← column A k
    let r0 ← item hc 0
    let z ← item r0 k
    seriesLoop env corr ts A hc (k + 1) cs
      (List.zipWith (fun h p => accum h p.2 (phase env corr c p.1.1 p.2) z) ht (ts.zip a))

/-- predict.py 225-282, `time_series`: all times at the first point. -/
noncomputable def timeSeries (env : Env) (ts : List (ℝ × ℝ)) (hc : List (List MC))
    (names : List String) (corr : String) : Except PyErr (List MR) := do
  let A ← argMatrix env ts names
  seriesLoop env corr ts A hc 0 names (List.replicate ts.length (0, false))

/-! ### Harmonic analysis -/

/-- constants.py 102-118: a row of the design matrix, for one time. -/
noncomputable def designRow (env : Env) (corr : String) (t : ℝ × ℝ) (names : List String) :
    List ℝ :=
  1 :: names.flatMap (fun c =>
    let a := env.args t.1 t.2 c
    let th := phase env corr c t.1 a
    [a.pf * Real.cos th, -a.pf * Real.sin th])

/-- The product of a row of the design matrix with the parameters. -/
noncomputable def dot (row p : List ℝ) : ℝ := (List.zipWith (· * ·) row p).sum

/-- Sum of squared residuals. -/
noncomputable def misfit (M : List (List ℝ)) (ht p : List ℝ) : ℝ :=
  (List.zipWith (fun row h => (dot row p - h) ^ 2) M ht).sum

/-- The solvers accepted (constants.py 122-130). -/
def solvers : List String := ["lstsq", "gelsd", "gelsy", "gelss", "bvls"]

/-- What the numerical solver returns: parameters within the bounds `B` (no constraint except for
`'bvls'`) which minimise the sum of squared residuals among them. -/
def IsSolution (M : List (List ℝ)) (ht : List ℝ) (B : List ℝ → Prop) (p : List ℝ) : Prop :=
  p.length = (M.headD []).length ∧ B p ∧
    ∀ q : List ℝ, q.length = (M.headD []).length → B q → misfit M ht p ≤ misfit M ht q

/-- constants.py 132-141: amplitude and phase (degrees) from the two parameters of a
constituent. -/
noncomputable def ampPhase (p1 p2 : ℝ) : ℝ × ℝ :=
  let ph := Complex.arg ⟨p1, -p2⟩ * 180 / Real.pi
  (‖(Complex.I * p2 + p1 : ℂ)‖, if ph < 0 then ph + 360 else ph)

/-- The parameters of the constituents after the constant term, in pairs. -/
noncomputable def ampPhases : List ℝ → List (ℝ × ℝ)
  | p1 :: p2 :: t => ampPhase p1 p2 :: ampPhases t
  | _ => []

/-- solve/constants.py 40-144, `constants`, given the numerical solver as a function. -/
noncomputable def constants (env : Env) (solve : List (List ℝ) → List ℝ → List ℝ)
    (ts : List (ℝ × ℝ)) (ht : List ℝ) (names : List String) (corr solver : String) :
    Except PyErr (List (ℝ × ℝ)) :=
  if ts.length ≤ 2 * names.length then .error .valueError
  else if ts.length ≠ ht.length then .error .valueError
  else if names.all env.known = false then .error .valueError
  else if solver ∈ solvers then
    .ok (ampPhases (solve (ts.map (fun t => designRow env corr t names)) ht).tail)
  else .error .unbound

end Verif.Predict
