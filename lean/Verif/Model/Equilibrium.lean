import Verif.Model.Astro

/-!
# Long-period equilibrium tides

Model of `equilibrium_tide` (/repo/pyTMD/predict.py 924-1053), `LPET_elevations`
(/repo/pyTMD/compute.py 796-898) and `node_equilibrium` (/repo/pyTMD/io/model.py 1177-1209).
Floating point numbers become reals.  Coordinates arrive in `LPET_elevations` already projected to
latitudes, and times already converted to days since 1992-01-01; `deltat` is one number.
-/

namespace Verif.Equilibrium

open Verif Verif.Astro Real

/-- predict.py 953-955: names, with the amplitudes (cm) of lines 982-1003 and the coefficients of
s, h, p, N', p' of lines 1017-1039. -/
def lines : List (String × ℚ × List ℤ) := [
  ("node", 2.7929, [0, 0, 0, 1, 0]),
  ("sa", -0.4922, [0, 1, 0, 0, -1]),
  ("ssa", -3.0988, [0, 2, 0, 0, 0]),
  ("msm", -0.6728, [1, -2, 1, 0, 0]),
  ("065.445", 0.231, [1, 0, -1, -1, 0]),
  ("mm", -3.5184, [1, 0, -1, 0, 0]),
  ("065.465", 0.228, [1, 0, -1, 1, 0]),
  ("msf", -0.5837, [2, -2, 0, 0, 0]),
  ("075.355", -0.288, [2, 0, -2, 0, 0]),
  ("mf", -6.6607, [2, 0, 0, 0, 0]),
  ("mf+", -2.763, [2, 0, 0, 1, 0]),
  ("075.575", -0.258, [2, 0, 0, 2, 0]),
  ("mst", -0.2422, [3, -2, 1, 0, 0]),
  ("mt", -1.2753, [3, 0, -1, 0, 0]),
  ("085.465", -0.528, [3, 0, -1, 1, 0])]

/-- The keyword `constituents` (predict.py 956, 1006-1009): absent, a string or a list. -/
inductive Names where
  | all | one (c : String) | many (cs : List String)

/-- predict.py 1006-1009: lower case names. -/
def Names.toList : Names → List String
  | .all => lines.map (·.1.toLower)
  | .one c => [c.toLower]
  | .many cs => cs.map (·.toLower)

/-- predict.py 967-979: s, h, p, N', p' (degrees); `t` in days since 1992-01-01. -/
noncomputable def fargs (corrections : String) (deltat t : ℝ) : List ℝ :=
  let l := meanLongitudes (modeOf corrections) (t + 48622 + deltat)
  [l.s, l.h, l.p, Math.normalizeAngle (360 - l.n) 360, l.pp]

/-- predict.py 1011-1015, 1042-1043: `Z = inner(cos(G), CTE)` at one time. -/
noncomputable def Z (corrections : String) (names : Names) (deltat t : ℝ) : ℝ :=
  (lines.map fun q =>
    cos (dot (fargs corrections deltat t) q.2.2 * π / 180) *
      (if q.1 ∈ names.toList then (q.2.1 : ℝ) else 0)).sum

/-- predict.py 1046-1049. -/
noncomputable def gamma2 : ℝ := 1 + 0.299 - 0.606

/-- predict.py 1051. -/
noncomputable def P20 (lat : ℝ) : ℝ := 0.5 * (3 * sin (lat * π / 180) ^ 2 - 1)

/-- Arrays of one or two dimensions. -/
inductive Arr where
  | vec (v : List ℝ) | mat (m : List (List ℝ))

/-- `flatten` -/
def Arr.flat : Arr → List ℝ
  | .vec v => v
  | .mat m => m.flatten

/-- predict.py 924-1053, `equilibrium_tide` for one-dimensional `t` and `lat` (a number is an
array of length one: `atleast_1d`, `c_` and `outer` treat it so). -/
noncomputable def equilibriumTide (corrections : String) (names : Names) (deltat : ℝ)
    (ts lats : List ℝ) : Arr :=
  let k := gamma2 * sqrt ((4 + 1) / (4 * π))
  if lats.length ≠ ts.length then
    .mat (lats.map fun lat => ts.map fun t =>
      k * (P20 lat * (Z corrections names deltat t / 100)))
  else
    .vec (List.zipWith (fun lat t => k * P20 lat * (Z corrections names deltat t / 100)) lats ts)

/-- Results of `LPET_elevations`: grids are listed time by time, each flattened. -/
inductive Out where
  | grid (times : List (List ℝ)) | drift (a : Arr) | series (stations : List (List ℝ))

/-- `np.reshape(a, (ny,nx))` into one time of the grid, and the row assignment
`tide_lpe[s,:] = ...`: they need the number of elements to match. -/
def fit (n : ℕ) (a : Arr) : Except PyErr (List ℝ) :=
  if a.flat.length = n then .ok a.flat else .error .valueError

/-- compute.py 796-898, `LPET_elevations` after the projection of coordinates; `ny` and `nx` are
the shape of the grid.  A `TYPE` that passes the assertion and matches no branch leaves the
result unbound. -/
noncomputable def lpetElevations (type : String) (ny nx : ℕ) (lats ts : List ℝ) :
    Except PyErr Out := do
  if type.toLower ∉ ["grid", "drift", "time series"] then .error .assertionError
  if type = "grid" then
    let a ← pyMap (fun t => fit (ny * nx) (equilibriumTide "OTIS" .all 0 [t] lats)) ts
    .ok (.grid a)
  else if type = "drift" then
    .ok (.drift (equilibriumTide "OTIS" .all 0 ts lats))
  else if type = "time series" then
    let a ← pyMap (fun lat => fit ts.length (equilibriumTide "OTIS" .all 0 ts [lat])) lats
    .ok (.series a)
  else .error .unbound

/-- io/model.py 1177-1209, `node_equilibrium`: amplitude (m) and phase (degrees). -/
noncomputable def nodeEquilibrium (lat : ℝ) : ℝ × ℝ :=
  (0.027929 * gamma2 * P20 lat * sqrt ((4 + 1) / (4 * π)), 180)

end Verif.Equilibrium
