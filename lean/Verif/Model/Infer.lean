import Verif.Model.Predict
/-!
Model of the inference of minor constituents (`/repo/pyTMD/predict.py` 285-922).

Floats are reals (the code keeps constants in `complex64`).  Frequencies, tilt factors and the
arguments of the constituents are arbitrary functions.  Arrays are lists of points; the value
stored under a mask is not meant to be that of numpy.
-/
namespace Verif.Infer
open Verif Verif.Predict

/-- What `pyTMD.arguments` provides. -/
structure Env where
  /-- `arguments` (time, time correction, constituent) -/
  args : ℝ × ℝ → String → Arg
  /-- `minor_arguments` (time, time correction, column) -/
  margs : ℝ × ℝ → ℕ → Arg
  /-- `frequency` (arguments.py 1172-1225) -/
  freq : String → ℝ
  /-- `1.0 + k2 - h2` from `_love_numbers` (arguments.py 1414-1492) -/
  tilt : ℝ → ℝ

/-- `a*z` for a masked complex array, an element. -/
noncomputable def smul (a : ℝ) (z : MC) : MC := ⟨a * z.re, a * z.im, z.mask⟩
/-- `z + w` -/
noncomputable def add (z w : MC) : MC := ⟨z.re + w.re, z.im + w.im, z.mask || w.mask⟩
/-- `z - w` -/
noncomputable def sub (z w : MC) : MC := ⟨z.re - w.re, z.im - w.im, z.mask || w.mask⟩
/-- Assignment to an array without mask. -/
noncomputable def unmask (z : MC) : MC := ⟨z.re, z.im, false⟩

/-- A returned value: the float `0.0`, or a masked array. -/
inductive Res where
  | scalar (x : ℝ)
  | array (l : List MR)

/-- `dh += r` -/
noncomputable def Res.add : Res → Res → Res
  | .scalar x, .scalar y => .scalar (x + y)
  | .scalar x, .array l => .array (l.map (fun v => (x + v.1, v.2)))
  | .array l, .scalar y => .array (l.map (fun v => (v.1 + y, v.2)))
  | .array l, .array m => .array (List.zipWith (fun v w => (v.1 + w.1, v.2 || w.2)) l m)

/-- predict.py 397 (and 536, 692, 852): `[j for j,val in enumerate(constituents) if val.lower()
== c]`, from position `n`. -/
def positions (c : String) : ℕ → List String → List ℕ
  | _, [] => []
  | n, v :: t => if v.toLower = c then n :: positions c (n + 1) t else positions c (n + 1) t

/-- predict.py 397-399: `if j: j1, = j`; more than one match does not unpack (`ValueError`). -/
def findMajor (constituents : List String) (c : String) : Except PyErr (Option ℕ) :=
  match positions c 0 constituents with
  | [] => .ok none
  | [j] => .ok (some j)
  | _ => .error .valueError

/-- predict.py 400 (and 540, 700, 856): the value of one major constituent at a point, divided by
its normalisation; zero if the constituent is missing. -/
noncomputable def pick (row : List MC) (p : Option ℕ × ℝ) : Except PyErr MC :=
  match p.1 with
  | none => .ok ⟨0, 0, false⟩
  | some j => do
    let z ← item row j
    .ok (smul (1 / p.2) z)

/-- predict.py 418-419: indices of the minor constituents to infer, from position `n`. -/
def indices (constituents requested : List String) : ℕ → List String → List ℕ
  | _, [] => []
  | n, m :: t =>
    if m ∉ constituents ∧ m ∈ requested then n :: indices constituents requested (n + 1) t
    else indices constituents requested (n + 1) t

/-- predict.py 415: `kwargs['minor'] or minor_constituents` -/
def requested (minor : Option (List String)) (all : List String) : List String :=
  match minor with
  | none => all
  | some [] => all
  | some l => l

/-- A function that infers a band. -/
structure Band where
  /-- the major constituents `cindex` -/
  cindex : List String
  /-- their normalisations -/
  norm : List ℝ
  /-- smallest number of them -/
  need : ℕ
  /-- the minor constituents -/
  minors : List String
  /-- the constant inferred for minor `k` from the ordered majors -/
  constant : ℕ → List MC → MC
  /-- nodal corrections and argument of minor `k` -/
  arg : ℝ × ℝ → ℕ → Arg

/-- predict.py 381-384 and the broadcasting of 464-468: which time goes with which point. -/
def pairs {α : Type} (ts : List (ℝ × ℝ)) (rows : List α) : Except PyErr (List ((ℝ × ℝ) × α)) :=
  match rows, ts with
  | [row], _ :: _ => .ok (ts.map (fun t => (t, row)))
  | rows, [t] => .ok (rows.map (fun r => (t, r)))
  | rows, ts => if rows.length = ts.length then .ok (ts.zip rows) else .error .valueError

/-- predict.py 464-468: the sum over minor constituents at one point. -/
noncomputable def total (b : Band) (idx : List ℕ) (t : ℝ × ℝ) (z : List MC) : MR :=
  idx.foldl (fun h k =>
    accum h (b.arg t k) ((b.arg t k).G * Real.pi / 180 + (b.arg t k).pu) (b.constant k z)) (0, false)

/-- The common body of `_infer_short_period` (predict.py 341-470), `_infer_semi_diurnal` (474-627),
`_infer_diurnal` (629-795) and `_infer_long_period` (797-922). -/
noncomputable def infer (b : Band) (ts : List (ℝ × ℝ)) (zmajor : List (List MC))
    (constituents : List String) (minor : Option (List String)) (raising : Bool) :
    Except PyErr Res := do
  let js ← pyMap (findMajor constituents) b.cindex
  let zs ← pyMap (fun row => pyMap (pick row) (js.zip b.norm)) zmajor
  if (js.filter Option.isSome).length < b.need then
    if raising then .error .exception else .ok (.scalar 0)
  else
    let idx := indices constituents (requested minor b.minors) 0 b.minors
    -- `if not np.any(minor_indices): return 0.0`
    if idx.all (fun k => k = 0) then .ok (.scalar 0)
    else do
      let ps ← pairs ts zs
      .ok (.array (ps.map (fun p => total b idx p.1 p.2)))

/-- `z[:,i]` -/
noncomputable def zc (z : List MC) (i : ℕ) : MC := z.getD i ⟨0, 0, false⟩

/-- `a*z[:,i] + b*z[:,j]` -/
noncomputable def two (a : ℝ) (i : ℕ) (b : ℝ) (j : ℕ) (z : List MC) : MC :=
  add (smul a (zc z i)) (smul b (zc z j))

/-- `a*z[:,7] + b*z[:,4] + c*z[:,5]` -/
noncomputable def three (a b c : ℝ) (z : List MC) : MC :=
  add (add (smul a (zc z 7)) (smul b (zc z 4))) (smul c (zc z 5))

/-- predict.py 427-445: relations between major and minor constituents; columns 18 and 19 stay
zero. -/
noncomputable def shortTable (k : ℕ) (z : List MC) : MC :=
  match k with
  | 0 => two 0.263 0 (-0.0252) 1 z
  | 1 => two 0.297 0 (-0.0264) 1 z
  | 2 => two 0.164 0 0.0048 1 z
  | 3 => two 0.0140 1 0.0101 3 z
  | 4 => two 0.0389 1 0.0282 3 z
  | 5 => two 0.0064 1 0.0060 3 z
  | 6 => two 0.0030 1 0.0171 3 z
  | 7 => two (-0.0015) 1 0.0152 3 z
  | 8 => two (-0.0065) 1 0.0155 3 z
  | 9 => two (-0.0389) 1 0.0836 3 z
  | 10 => two (-0.0431) 1 0.0613 3 z
  | 11 => two 0.264 4 (-0.0253) 5 z
  | 12 => two 0.298 4 (-0.0264) 5 z
  | 13 => two 0.165 4 0.00487 5 z
  | 14 => two 0.0040 5 0.0074 6 z
  | 15 => two 0.0131 5 0.0326 6 z
  | 16 => two 0.0033 5 0.0082 6 z
  | 17 => smul 0.0585 (zc z 6)
  | _ => ⟨0, 0, false⟩

/-- predict.py 446-461: the columns replaced for FES. -/
noncomputable def fesTable (k : ℕ) (z : List MC) : MC :=
  match k with
  | 12 => three 0.069439968323 0.351535557706 (-0.046278307672) z
  | 13 => three (-0.006104695053) 0.156878802427 0.006755704028 z
  | 14 => three 0.016503557465 (-0.013307812292) 0.007753383202 z
  | 16 => three 0.077137765667 (-0.051653455134) 0.027869916824 z
  | 17 => three 0.180480173707 (-0.020101177502) 0.008331518844 z
  | 18 => two 0.53285 8 (-0.03304) 4 z
  | 19 => two (-0.0034925) 5 0.0831707 7 z
  | k => shortTable k z

/-- predict.py 341-470, `_infer_short_period`.  `zmin` has no mask. -/
noncomputable def shortPeriod (env : Env) (corrections : String) : Band where
  cindex := ["q1", "o1", "p1", "k1", "n2", "m2", "s2", "k2", "2n2"]
  norm := [1, 1, 1, 1, 1, 1, 1, 1, 1]
  need := 6
  minors := ["2q1", "sigma1", "rho1", "m1b", "m1", "chi1", "pi1", "phi1", "theta1", "j1", "oo1",
    "2n2", "mu2", "nu2", "lambda2", "l2", "l2b", "t2", "eps2", "eta2"]
  constant := fun k z =>
    unmask (if corrections = "FES" then fesTable k z else shortTable k z)
  arg := env.margs

/-- predict.py 591-597 (and 760-766, 906-911): linear interpolation of the admittance at frequency
`w` from pivots at `o0`, `o1`, `o2`. -/
noncomputable def linear (o0 o1 o2 w : ℝ) (z0 z1 z2 : MC) : MC :=
  if o0 < o1 ∧ w < o1 then
    let slope := smul (1 / (o1 - o0)) (sub z1 z0)
    add z0 (smul (w - o0) slope)
  else
    let slope := smul (1 / (o2 - o1)) (sub z2 z1)
    add z1 (smul (w - o1) slope)

/-- predict.py 598-610 (and 767-779): Munk-Cartwright admittance, with the rows of `Ainv`.
`np.dot` drops the mask. -/
noncomputable def munk (A : List (ℝ × ℝ × ℝ)) (w : ℝ) (z0 z1 z2 : MC) : MC :=
  let coef (i : ℕ) : MC :=
    let r := A.getD i (0, 0, 0)
    unmask (add (add (smul r.1 z0) (smul r.2.1 z1)) (smul r.2.2 z2))
  let f := 2 * w * 86400
  add (add (coef 0) (smul (Real.cos f) (coef 1))) (smul (Real.sin f) (coef 2))

/-- The interpolation selected by `method`. -/
noncomputable def interpolate (method : String) (A : List (ℝ × ℝ × ℝ)) (o : List ℝ) (w : ℝ)
    (z : List MC) : MC :=
  if method.toLower = "linear" then
    linear (o.getD 0 0) (o.getD 1 0) (o.getD 2 0) w (zc z 0) (zc z 1) (zc z 2)
  else munk A w (zc z 0) (zc z 1) (zc z 2)

/-- predict.py 600-602 -/
noncomputable def semiMatrix : List (ℝ × ℝ × ℝ) :=
  [(3.3133, -4.2538, 1.9405), (-3.3133, 4.2538, -0.9405), (1.5018, -3.2579, 1.7561)]

/-- predict.py 769-771 -/
noncomputable def diurnalMatrix : List (ℝ × ℝ × ℝ) :=
  [(3.1214, -3.8494, 1.728), (-3.1727, 3.9559, -0.7832), (1.438, -3.0297, 1.5917)]

/-- predict.py 474-627, `_infer_semi_diurnal`. -/
noncomputable def semiDiurnal (env : Env) (method : String) : Band where
  cindex := ["n2", "m2", "s2"]
  norm := [0.121006, 0.631931, 0.294019]
  need := 3
  minors := ["eps2", "2n2", "mu2", "nu2", "gamma2", "alpha2", "beta2", "delta2", "lambda2", "l2",
    "t2", "r2", "k2", "eta2"]
  constant := fun k z =>
    let amin : List ℝ := [0.004669, 0.016011, 0.019316, 0.022983, 0.001902, 0.002178, 0.001921,
      0.000714, 0.004662, 0.017862, 0.017180, 0.002463, 0.079924, 0.004467]
    let names := ["eps2", "2n2", "mu2", "nu2", "gamma2", "alpha2", "beta2", "delta2", "lambda2",
      "l2", "t2", "r2", "k2", "eta2"]
    smul (amin.getD k 0) (interpolate method semiMatrix [env.freq "n2", env.freq "m2", env.freq "s2"]
      (env.freq (names.getD k "")) z)
  arg := fun t k => env.args t (["eps2", "2n2", "mu2", "nu2", "gamma2", "alpha2", "beta2", "delta2",
    "lambda2", "l2", "t2", "r2", "k2", "eta2"].getD k "")

/-- predict.py 629-795, `_infer_diurnal`. -/
noncomputable def diurnal (env : Env) (method : String) : Band where
  cindex := ["q1", "o1", "k1"]
  norm := [0.050184 * env.tilt (env.freq "q1"), 0.262163 * env.tilt (env.freq "o1"),
    0.368731 * env.tilt (env.freq "k1")]
  need := 3
  minors := ["2q1", "sigma1", "rho1", "tau1", "beta1", "m1a", "m1b", "chi1", "pi1", "p1", "psi1",
    "phi1", "theta1", "j1", "so1", "oo1", "ups1"]
  constant := fun k z =>
    let amin : List ℝ := [0.006638, 0.008023, 0.009540, 0.003430, 0.001941, 0.020604, 0.007420,
      0.003925, 0.007125, 0.122008, 0.002929, 0.005247, 0.003966, 0.020618, 0.003417, 0.011293,
      0.002157]
    let names := ["2q1", "sigma1", "rho1", "tau1", "beta1", "m1a", "m1b", "chi1", "pi1", "p1",
      "psi1", "phi1", "theta1", "j1", "so1", "oo1", "ups1"]
    let w := env.freq (names.getD k "")
    smul (amin.getD k 0 * env.tilt w)
      (interpolate method diurnalMatrix [env.freq "q1", env.freq "o1", env.freq "k1"] w z)
  arg := fun t k => env.args t (["2q1", "sigma1", "rho1", "tau1", "beta1", "m1a", "m1b", "chi1",
    "pi1", "p1", "psi1", "phi1", "theta1", "j1", "so1", "oo1", "ups1"].getD k "")

/-- predict.py 797-922, `_infer_long_period`. -/
noncomputable def longPeriod (env : Env) : Band where
  cindex := ["node", "mm", "mf"]
  norm := [0.027929, 0.035184, 0.066607]
  need := 3
  minors := ["sa", "ssa", "sta", "msm", "msf", "mst", "mt", "msqm", "mq"]
  constant := fun k z =>
    let amin : List ℝ := [0.004922, 0.030988, 0.001809, 0.006728, 0.005837, 0.002422, 0.012753,
      0.002037, 0.001687]
    let names := ["sa", "ssa", "sta", "msm", "msf", "mst", "mt", "msqm", "mq"]
    smul (amin.getD k 0) (linear (env.freq "node") (env.freq "mm") (env.freq "mf")
      (env.freq (names.getD k "")) (zc z 0) (zc z 1) (zc z 2))
  arg := fun t k => env.args t (["sa", "ssa", "sta", "msm", "msf", "mst", "mt", "msqm",
    "mq"].getD k "")

/-- predict.py 285-338, `infer_minor`; the default `method` is `'linear'`, any other than linear
and admittance is refused by the functions that use it. -/
noncomputable def inferMinor (env : Env) (ts : List (ℝ × ℝ)) (zmajor : List (List MC))
    (constituents : List String) (corrections method : String) (minor : Option (List String))
    (raising : Bool) : Except PyErr Res := do
  let short ←
    if corrections = "GOT" then
      if method.toLower = "linear" ∨ method.toLower = "admittance" then do
        let a ← infer (semiDiurnal env method) ts zmajor constituents minor raising
        let b ← infer (diurnal env method) ts zmajor constituents minor raising
        .ok ((Res.scalar 0).add a |>.add b)
      else .error .assertionError
    else do
      let a ← infer (shortPeriod env corrections) ts zmajor constituents minor raising
      .ok ((Res.scalar 0).add a)
  let c ← infer (longPeriod env) ts zmajor constituents minor raising
  .ok (short.add c)

/-- compute.py 397-405, 412-416 and 428-434: the prediction plus the inferred tides.  All three
forms read `.data` or `.mask` of the value returned by `infer_minor`, which a float does not
have. -/
noncomputable def addMinor (tide : List MR) (minor : Res) : Except PyErr (List MR) :=
  match minor with
  | .scalar _ => .error .attributeError
  | .array l => .ok (List.zipWith (fun v w => (v.1 + w.1, v.2 || w.2)) tide l)

end Verif.Infer
