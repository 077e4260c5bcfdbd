import Verif.Model.MinorArguments
/-!
The predictions in floating point arithmetic: `map`, `drift` and `time_series`
(`/repo/pyTMD/predict.py` 105-282) with the tidal arguments they use
(`/repo/pyTMD/arguments.py` 144-176, `/repo/pyTMD/astro.py` 162-203,
`/repo/pyTMD/math.py` 35-68), where every operation is rounded.

The numbers are reals and the arithmetic is a parameter: `rd` is applied to the exact result of
every addition, subtraction, multiplication and division and to every decimal constant, and the
functions of numpy are functions of their own.  `np.sum` and `np.dot` add in an order of their own.
Infinities and NaN are left out.  The nodal corrections are an input.
-/
namespace Verif.Rounded
open Verif

/-- Floating point arithmetic. -/
structure Arith where
  /-- the rounding of a result -/
  rd : ℝ → ℝ
  /-- `np.cos`, `np.sin`, `t ** i`, `np.sum`, `np.dot` with integers, `np.pi` -/
  cos : ℝ → ℝ
  sin : ℝ → ℝ
  pow : ℝ → ℕ → ℝ
  sum : List ℝ → ℝ
  dot : List ℝ → List ℤ → ℝ
  pi : ℝ

/-- The quotient of `fmod`: rounded towards zero. -/
noncomputable def truncate (x : ℝ) : ℤ := if 0 ≤ x then ⌊x⌋ else ⌈x⌉

open Classical in
/-- `np.mod(x, y)` for floats (`npy_divmod` of numpy): the remainder of `fmod`, which is exact, and
`y` is added if the signs are different. -/
noncomputable def npmod (A : Arith) (x y : ℝ) : ℝ :=
  let m := x - y * (truncate (x / y) : ℝ)
  if m ≠ 0 ∧ (y < 0) ≠ (m < 0) then A.rd (m + y) else m

/-- math.py 35-52, `polynomial_sum` -/
noncomputable def polynomialSum (A : Arith) (coefficients : List ℝ) (t : ℝ) : ℝ :=
  A.sum (coefficients.zipIdx.map fun (c, i) => A.rd (c * A.pow t i))

/-- astro.py 162-203, `mean_longitudes` with `ASTRO5`.  The decimal constants are rounded, the
others are floats. -/
noncomputable def meanLongitudes (A : Arith) (MJD : ℝ) : Astro.Longitudes :=
  let T := A.rd (A.rd (MJD - 51544.5) / 36525)
  let lunar := [218.3164477, 481267.88123421, -1.5786e-3, 1.855835e-6, -1.53388e-8].map A.rd
  let elongation := [297.8501921, 445267.1114034, -1.8819e-3, 1.83195e-6, -8.8445e-9].map A.rd
  { s := npmod A (polynomialSum A lunar T) 360
    h := npmod A (polynomialSum A (List.zipWith (fun a b => A.rd (a - b)) lunar elongation) T) 360
    p := npmod A (polynomialSum A ([83.3532465, 4069.0137287, -1.032e-2, -1.249172e-5].map A.rd) T)
      360
    n := npmod A (polynomialSum A ([125.04452, -1934.136261, 2.0708e-3, 2.22222e-6].map A.rd) T) 360
    pp := A.rd (A.rd 282.94 + A.rd (A.rd 1.7192 * T)) }

/-- arguments.py 152-168: `fargs`, for the corrections that use `ASTRO5`. -/
noncomputable def fargs (A : Arith) (deltat MJD : ℝ) : List ℝ :=
  let l := meanLongitudes A (A.rd (MJD + deltat))
  let hour := A.rd (24 * npmod A MJD 1)
  [A.rd (A.rd (A.rd (15 * hour) - l.s) + l.h), l.s, l.h, l.p, l.n, l.pp, 90]

/-- What `pyTMD.arguments` provides to the predictions in floating point arithmetic: `nodal` gives
the angle and the factor for a time, a time correction and a constituent.  The arguments `G` are
those of `ASTRO5` (they are not used with other corrections). -/
noncomputable def env (A : Arith) (nodal : ℝ → ℝ → String → ℝ × ℝ) : Predict.Env where
  known c := (Coef.table.lookup c).isSome
  args t deltat c := ⟨(nodal t deltat c).1, (nodal t deltat c).2,
    A.dot (fargs A deltat (A.rd (t + 48622))) ((Coef.table.lookup c).getD [])⟩
  ph c := match Parameters.parameters c false with
    | .ok q => A.rd q.phase
    | .error _ => 0
  omega c := match Parameters.parameters c false with
    | .ok q => A.rd q.omega
    | .error _ => 0

/-- predict.py 149-156 (and 209-216, 269-276): the phase of a constituent. -/
noncomputable def phase (A : Arith) (env : Predict.Env) (corrections : String) (c : String) (t : ℝ)
    (a : Predict.Arg) : ℝ :=
  if Predict.usesParameters corrections then
    A.rd (A.rd (A.rd (A.rd (env.omega c * t) * 86400) + env.ph c) + a.pu)
  else A.rd (A.rd (A.rd (a.G * A.pi) / 180) + a.pu)

/-- predict.py 157-160: one element. -/
noncomputable def accum (A : Arith) (h : Predict.MR) (a : Predict.Arg) (th : ℝ) (z : Predict.MC) :
    Predict.MR :=
  (A.rd (h.1 + A.rd (A.rd (A.rd (a.pf * z.re) * A.cos th) - A.rd (A.rd (a.pf * z.im) * A.sin th))),
    h.2 || (z.mask || z.mask))

/-- predict.py 148-160: the loop of `map`. -/
noncomputable def mapLoop (A : Arith) (env : Predict.Env) (corr : String) (t : ℝ)
    (row : List Predict.Arg) (hc : List (List Predict.MC)) :
    ℕ → List String → List Predict.MR → Except PyErr (List Predict.MR)
  | _, [], ht => .ok ht
  | k, c :: cs, ht => do
    let a ← Predict.item row k
    let th := phase A env corr c t a
    let col ← Predict.column hc k
    mapLoop A env corr t row hc (k + 1) cs (List.zipWith (fun h z => accum A h a th z) ht col)

/-- predict.py 105-162, `map` -/
noncomputable def map (A : Arith) (env : Predict.Env) (t deltat : ℝ) (hc : List (List Predict.MC))
    (names : List String) (corr : String) : Except PyErr (List Predict.MR) := do
  let M ← Predict.argMatrix env [(t, deltat)] names
  let row ← Predict.item M 0
  mapLoop A env corr t row hc 0 names (List.replicate hc.length (0, false))

/-- predict.py 208-220: the loop of `drift`. -/
noncomputable def driftLoop (A : Arith) (env : Predict.Env) (corr : String) (ts : List (ℝ × ℝ))
    (M : List (List Predict.Arg)) (hc : List (List Predict.MC)) :
    ℕ → List String → List Predict.MR → Except PyErr (List Predict.MR)
  | _, [], ht => .ok ht
  | k, c :: cs, ht => do
    let a ← Predict.column M k
    let col ← Predict.column hc k
    let col ← Predict.broadcast ts.length col
    driftLoop A env corr ts M hc (k + 1) cs
      (List.zipWith (fun h p => accum A h p.1.2 (phase A env corr c p.1.1.1 p.1.2) p.2) ht
        ((ts.zip a).zip col))

/-- predict.py 165-223, `drift` -/
noncomputable def drift (A : Arith) (env : Predict.Env) (ts : List (ℝ × ℝ))
    (hc : List (List Predict.MC)) (names : List String) (corr : String) :
    Except PyErr (List Predict.MR) := do
  let M ← Predict.argMatrix env ts names
  driftLoop A env corr ts M hc 0 names (List.replicate ts.length (0, false))

/-- predict.py 268-280: the loop of `time_series`. -/
noncomputable def seriesLoop (A : Arith) (env : Predict.Env) (corr : String) (ts : List (ℝ × ℝ))
    (M : List (List Predict.Arg)) (hc : List (List Predict.MC)) :
    ℕ → List String → List Predict.MR → Except PyErr (List Predict.MR)
  | _, [], ht => .ok ht
  | k, c :: cs, ht => do
    let a ← Predict.column M k
    let r0 ← Predict.item hc 0
    let z ← Predict.item r0 k
    seriesLoop A env corr ts M hc (k + 1) cs
      (List.zipWith (fun h p => accum A h p.2 (phase A env corr c p.1.1 p.2) z) ht (ts.zip a))

/-- predict.py 225-282, `time_series` -/
noncomputable def timeSeries (A : Arith) (env : Predict.Env) (ts : List (ℝ × ℝ))
    (hc : List (List Predict.MC)) (names : List String) (corr : String) :
    Except PyErr (List Predict.MR) := do
  let M ← Predict.argMatrix env ts names
  seriesLoop A env corr ts M hc 0 names (List.replicate ts.length (0, false))

end Verif.Rounded
