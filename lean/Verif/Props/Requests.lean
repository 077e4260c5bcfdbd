import Verif.Lemmas.Case
import Verif.Props.Compute
import Verif.Props.Equilibrium
import Verif.Props.SolidRequests
import Verif.Props.PoleTide
/-!
C43: the keyword `TYPE`, and the names of corrections.
-/
namespace Verif.Compute
open Verif Verif.Predict Verif.Infer

/-- The kinds of request. -/
def kinds : List String := ["grid", "drift", "time series"]

/-- C43, ocean and load tides: the case of `TYPE` plays no part, and complete input of a fitting
shape has a result. -/
theorem C43_elevations (P : Predict.Env) (I : Infer.Env) (o : Options) (ny nx : ℕ)
    (m : Extracted) (times : List (ℝ × ℝ)) :
    (∀ type, type.toLower = o.type.toLower →
      tideElevations P I { o with type := type } ny nx m times
        = tideElevations P I o ny nx m times) ∧
    (o.type.toLower ∈ kinds → Complete P I o m → times ≠ [] →
      (o.type.toLower = "grid" → m.amp.length = ny * nx) →
      (o.type.toLower = "drift" → m.amp.length = times.length) →
      ∃ r, tideElevations P I o ny nx m times = .ok r) := by
  constructor
  · intro type h
    simp only [tideElevations, predict, h]
  · intro ht hc ht0 hg hd
    simp only [kinds, List.mem_cons, List.not_mem_nil, or_false] at ht
    rcases ht with ht | ht | ht
    · exact ⟨_, C59_grid P I o ny nx m times hc ht (hg ht)⟩
    · exact ⟨_, C59_drift P I o ny nx m times hc ht (hd ht)⟩
    · exact ⟨_, C59_series P I o ny nx m times hc ht ht0⟩

/-- C43, currents: the same. -/
theorem C43_currents (P : Predict.Env) (I : Infer.Env) (o : Options) (ny nx : ℕ)
    (components : List (String × Extracted)) (times : List (ℝ × ℝ)) (type : String)
    (h : type.toLower = o.type.toLower) :
    tideCurrents P I { o with type := type } ny nx components times
      = tideCurrents P I o ny nx components times := by
  simp only [tideCurrents, predict, h]

/-- C43, the other corrections, for a `TYPE` in lower case: every request of fitting shape has a
result.  Missing from the full claim: other cases, `C43_case_false`. -/
theorem C43_lower_partial (type : String) (ht : type ∈ kinds) (ny nx : ℕ)
    (pts : List (ℝ × ℝ)) (hpts : ∀ q ∈ pts, -90 ≤ q.2 ∧ q.2 ≤ 90)
    (times : List (ℝ × ℝ)) (solar : List SolidEarth.Time)
    (hg : type = "grid" → pts.length = ny * nx ∧ 0 < ny * nx)
    (hd : type = "drift" → pts.length = times.length ∧ pts.length = solar.length)
    (ellipsoid convention method system ephemerides : String)
    (he : ellipsoid.toUpper ∈ CRS.ellipsoids) (hc : convention ∈ PoleTide.conventions)
    (hm : method.toLower ∈ ["bilinear", "spline", "linear", "nearest"])
    (hs : system.toLower = "tide_free" ∨ system.toLower = "mean_tide")
    (hj : ephemerides.toLower = "approximate" ∨ ephemerides.toLower = "jpl")
    (dm : CRS.Datum) (sun moon : ℝ → SolidEarth.Vec) (P : PoleTide.Poles)
    (coef : ℝ → ℝ → Option (ℂ × ℂ × ℂ)) :
    (∃ r, Equilibrium.lpetElevations type ny nx (pts.map Prod.snd) (times.map Prod.fst) = .ok r) ∧
    (∃ r, PoleTide.lptDisplacements P type ellipsoid convention ny nx pts times = .ok r) ∧
    (∃ r, PoleTide.optDisplacements P coef type ellipsoid convention method ny nx pts times
      = .ok r) ∧
    (∃ r, SolidEarth.setDisplacements type system ephemerides dm sun moon ny nx pts solar
      = .ok r) := by
  obtain ⟨d1, -, L⟩ := PoleTide.C58_load P ellipsoid convention he hc
  obtain ⟨d2, -, O⟩ := PoleTide.C58_ocean P coef ellipsoid convention method he hc hm
  obtain ⟨F, S1, S2, S3⟩ := SolidEarth.C42_requests_partial system ephemerides dm sun moon hs hj
  have L := L pts times ny nx hpts
  have O := O pts times ny nx hpts
  simp only [kinds, List.mem_cons, List.not_mem_nil, or_false] at ht
  rcases ht with rfl | rfl | rfl
  · obtain ⟨h1, h2⟩ := hg rfl
    exact ⟨⟨_, Equilibrium.C31_grid ny nx _ _ (by simpa using h1)⟩, ⟨_, L.2.2 h1 h2⟩,
      ⟨_, O.2.2 h1 h2⟩, ⟨_, S3 ny nx pts solar h1⟩⟩
  · obtain ⟨h1, h2⟩ := hd rfl
    exact ⟨⟨_, Equilibrium.C31_drift ny nx _ _ (by simpa using h1)⟩, ⟨_, L.1 h1⟩, ⟨_, O.1 h1⟩,
      ⟨_, S1 ny nx pts solar h2⟩⟩
  · exact ⟨⟨_, Equilibrium.C31_series ny nx _ _⟩, ⟨_, L.2.1⟩, ⟨_, O.2.1⟩, ⟨_, S2 ny nx pts solar⟩⟩

/-- Refuted: whenever `TYPE` passes the validation of these four functions but is not in lower
case, none of them has a result (`UnboundLocalError`), whatever the rest of the request. -/
theorem C43_case_false (type : String) (ht : type.toLower ∈ kinds) (hne : type ≠ type.toLower)
    (ny nx : ℕ) (pts times : List (ℝ × ℝ)) (solar : List SolidEarth.Time)
    (ellipsoid convention method system ephemerides : String)
    (he : ellipsoid.toUpper ∈ CRS.ellipsoids) (hc : convention ∈ PoleTide.conventions)
    (hm : method.toLower ∈ ["bilinear", "spline", "linear", "nearest"])
    (hs : system.toLower ∈ ["mean_tide", "tide_free"])
    (hj : ephemerides.toLower ∈ ["approximate", "jpl"])
    (dm : CRS.Datum) (sun moon : ℝ → SolidEarth.Vec) (P : PoleTide.Poles)
    (coef : ℝ → ℝ → Option (ℂ × ℂ × ℂ)) :
    Equilibrium.lpetElevations type ny nx (pts.map Prod.snd) (times.map Prod.fst)
      = .error .unbound ∧
    PoleTide.lptDisplacements P type ellipsoid convention ny nx pts times = .error .unbound ∧
    PoleTide.optDisplacements P coef type ellipsoid convention method ny nx pts times
      = .error .unbound ∧
    SolidEarth.setDisplacements type system ephemerides dm sun moon ny nx pts solar
      = .error .unbound := by
  have low : ∀ k ∈ kinds, k.toLower = k := by decide +kernel
  have h1 : type ≠ "grid" := by rintro rfl; exact hne (low _ (by simp [kinds])).symm
  have h2 : type ≠ "drift" := by rintro rfl; exact hne (low _ (by simp [kinds])).symm
  have h3 : type ≠ "time series" := by rintro rfl; exact hne (low _ (by simp [kinds])).symm
  have ht' : type.toLower ∈ ["grid", "drift", "time series"] := ht
  obtain ⟨dm', hdm, -⟩ := (CRS.C38_names ellipsoid).1 he
  refine ⟨?_, ?_, ?_, ?_⟩
  · unfold Equilibrium.lpetElevations
    rw [if_neg (not_not.mpr ht')]
    dsimp only
    rw [if_neg h1, if_neg h2, if_neg h3]
  · rw [PoleTide.lptDisplacements, if_neg (not_not.mpr he), if_neg (not_not.mpr hc),
      if_neg (not_not.mpr ht'), hdm, ok_bind, PoleTide.byType, if_neg h1, if_neg h2, if_neg h3]
  · rw [PoleTide.optDisplacements, if_neg (not_not.mpr he), if_neg (not_not.mpr hc),
      if_neg (not_not.mpr hm), if_neg (not_not.mpr ht'), hdm, ok_bind, PoleTide.byType, if_neg h1,
      if_neg h2, if_neg h3]
  · rw [SolidEarth.setDisplacements, if_neg (not_not.mpr hs), if_neg (not_not.mpr hj),
      if_neg (not_not.mpr ht')]
    dsimp only
    rw [if_neg h1, if_neg h2, if_neg h3]

/-- Such requests exist. -/
example : "Grid".toLower ∈ kinds ∧ "Grid" ≠ "Grid".toLower ∧
    "DRIFT".toLower ∈ kinds ∧ "DRIFT" ≠ "DRIFT".toLower := by decide +kernel

/-- C43, the wrapper: the name of a correction is recognised in any case, each name selects its own
function, and every other name is refused. -/
theorem C43_corrections {α : Type} (name : String) (elevations lpet lpt opt set : Except PyErr α) :
    corrections name elevations lpet lpt opt set =
      match name.toLower with
      | "ocean" => elevations
      | "load" => elevations
      | "lpet" => lpet
      | "lpt" => lpt
      | "opt" => opt
      | "set" => set
      | _ => .error .valueError := by
  have up : ∀ s : String, (name.toUpper = s.toUpper) = (name.toLower = s.toLower) :=
    fun s => propext (upper_eq_iff name s)
  have e1 : (name.toUpper = "LPET") = (name.toLower = "lpet") := by
    have := up "lpet"
    rwa [show "lpet".toUpper = "LPET" by decide +kernel,
      show "lpet".toLower = "lpet" by decide +kernel] at this
  have e2 : (name.toUpper = "LPT") = (name.toLower = "lpt") := by
    have := up "lpt"
    rwa [show "lpt".toUpper = "LPT" by decide +kernel,
      show "lpt".toLower = "lpt" by decide +kernel] at this
  have e3 : (name.toUpper = "OPT") = (name.toLower = "opt") := by
    have := up "opt"
    rwa [show "opt".toUpper = "OPT" by decide +kernel,
      show "opt".toLower = "opt" by decide +kernel] at this
  have e4 : (name.toUpper = "SET") = (name.toLower = "set") := by
    have := up "set"
    rwa [show "set".toUpper = "SET" by decide +kernel,
      show "set".toLower = "set" by decide +kernel] at this
  unfold corrections
  simp only [e1, e2, e3, e4]
  generalize name.toLower = n
  split
  · rename_i h
    rcases h with rfl | rfl <;> rfl
  · rename_i h0
    split
    · rename_i h; subst h; rfl
    · rename_i h1
      split
      · rename_i h; subst h; rfl
      · rename_i h2
        split
        · rename_i h; subst h; rfl
        · rename_i h3
          split
          · rename_i h; subst h; rfl
          · rename_i h4
            split <;> simp_all

end Verif.Compute
