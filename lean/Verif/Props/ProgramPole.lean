import Verif.Model.ProgramPole
import Verif.Props.ProgramFiles
import Verif.Props.PoleTide
/-!
C96: the programs for pole tides write the displacement of every point and time.
-/
namespace Verif.Program
open Verif Verif.Listing Verif.Store Verif.Compute Verif.Spec.Store Real

/-- The file that a program writes shows for every point and time the value `F`. -/
def Writes (s : FileSetup) (file : Dict (Var ℝ)) (x y t : List ℝ) (d : Input ℝ)
    (F : ℝ × ℝ → ℝ × ℝ → Option ℝ) : Prop :=
  (s.type = "drift" → x.length = t.length → y.length = t.length →
    Legible s (pointsOf s x y) (timesOf s d t) (List.zipWith F (pointsOf s x y) (timesOf s d t)) →
    ∃ out, programNetCDF s file = .ok out ∧ Holds s out [t.length] [t.length] (pointsOf s x y) (timesOf s d t)
      (List.zipWith F (pointsOf s x y) (timesOf s d t))) ∧
  (s.type = "time series" → x.length = y.length →
    Legible s (pointsOf s x y) (timesOf s d t) ((pointsOf s x y).flatMap fun q => (timesOf s d t).map (F q)) →
    ∃ out, programNetCDF s file = .ok out ∧ Holds s out [x.length] [x.length, t.length] (pointsOf s x y)
      (timesOf s d t) ((pointsOf s x y).flatMap fun q => (timesOf s d t).map (F q))) ∧
  (s.type = "grid" → x ≠ [] → y ≠ [] →
    Legible s (pointsOf s x y) (timesOf s d t) ((pointsOf s x y).flatMap fun q => (timesOf s d t).map (F q)) →
    ∃ out, programNetCDF s file = .ok out ∧
      Holds s out [y.length, x.length] [y.length, x.length, t.length] (pointsOf s x y) (timesOf s d t)
        ((pointsOf s x y).flatMap fun q => (timesOf s d t).map (F q)))

theorem writes_of (s : FileSetup) (h : Labelled s) (file : Dict (Var ℝ)) (x y t : List ℝ) (d : Input ℝ)
    (ha : Asked s file x y t d) (h0 : s.time = none) (F : ℝ × ℝ → ℝ × ℝ → Option ℝ)
    (hF : ∀ pts times ny nx, pts = pointsOf s x y →
      (s.type = "drift" → pts.length = times.length →
        s.compute ny nx pts times = .ok (.drift (List.zipWith F pts times))) ∧
      (s.type = "time series" → s.compute ny nx pts times = .ok (.series (pts.map fun q => times.map (F q)))) ∧
      (s.type = "grid" → pts.length = ny * nx → 0 < ny * nx →
        s.compute ny nx pts times = .ok (.grid (times.map fun t => pts.map fun q => F q t)))) :
    Writes s file x y t d F := by
  obtain ⟨f1, f2, f3⟩ := hF (pointsOf s x y) (timesOf s d t) y.length x.length rfl
  have htl : (timesOf s d t).length = t.length := by rw [timesOf, List.length_map]
  refine ⟨fun ht hx hy hv => ?_, fun ht hx hv => ?_, fun ht hx hy hv => ?_⟩
  · have hp : (pointsOf s x y).length = t.length := by
      rw [pointsOf, if_neg (by rw [ht]; decide), List.length_map, List.length_zip, hx, hy, Nat.min_self]
    refine C96_drift s h file x y t d ha h0 ht hx hy _ (f1 ht (hp.trans htl.symm)) ?_ hv
    rw [List.length_zipWith, hp, htl, Nat.min_self]
  · have hp : (pointsOf s x y).length = x.length := by
      rw [pointsOf, if_neg (by rw [ht]; decide), List.length_map, List.length_zip, hx, Nat.min_self]
    have := C96_series s h file x y t d ha h0 ht hx _ (f2 ht) (by rw [List.length_map, hp])
    rw [← List.flatMap_def] at this
    exact this hv
  · have hp : (pointsOf s x y).length = y.length * x.length := by
      rw [pointsOf, if_pos ht, List.length_map, mesh_length]
    have := C96_grid s h file x y t d ha h0 ht _ (f3 ht hp
      (Nat.mul_pos (List.length_pos_of_ne_nil hy) (List.length_pos_of_ne_nil hx)))
    rw [← hp, byPoint_eq] at this
    exact this hv

/-- Load pole tides: the file holds for every point and time the displacement of `loadValue`. -/
theorem C96_load_pole (P : PoleTide.Poles) (ellipsoid convention : String)
    (he : ellipsoid.toUpper ∈ CRS.ellipsoids) (hc : convention ∈ PoleTide.conventions) :
    ∃ dm, CRS.datum ellipsoid "MKS" none none none none = .ok dm ∧
    ∀ (s : FileSetup) (file : Dict (Var ℝ)) (x y t : List ℝ) (d : Input ℝ), Labelled s →
      s.compute = lptValues P s.type ellipsoid convention → Asked s file x y t d → s.time = none →
      (∀ q ∈ pointsOf s x y, -90 ≤ q.2 ∧ q.2 ≤ 90) →
      Writes s file x y t d fun q t => some (PoleTide.loadValue P convention dm q t) := by
  obtain ⟨dm, hdm, key⟩ := PoleTide.C58_load P ellipsoid convention he hc
  refine ⟨dm, hdm, ?_⟩
  intro s file x y t d h hs ha h0 hlat
  refine writes_of s h file x y t d ha h0 _ ?_
  rintro pts times ny nx rfl
  have red : ∀ type ∈ ["grid", "drift", "time series"],
      lptValues P type ellipsoid convention ny nx (pointsOf s x y) times =
      PoleTide.lptDisplacements P type ellipsoid convention ny nx (pointsOf s x y) times >>= (fun o => .ok (laidOut o)) := by
    intro type ht
    rw [PoleTide.lptDisplacements, if_neg (not_not.2 he), if_neg (not_not.2 hc), PoleTide.lower_types _ ht,
      if_neg (not_not.2 ht), lptValues, hdm, ok_bind, ok_bind]
  obtain ⟨k1, k2, k3⟩ := key (pointsOf s x y) times ny nx hlat
  rw [hs]
  refine ⟨fun e hl => ?_, fun e => ?_, fun e hl hp => ?_⟩
  · rw [e, red _ (by simp), k1 hl]; rfl
  · rw [e, red _ (by simp), k2]; rfl
  · rw [e, red _ (by simp), k3 hl hp]; rfl

/-- Ocean pole tides: the file holds for every point and time `K Re(conj(m) γ u)`, where `u` is the radial
coefficient at the longitude and geocentric latitude of the point, and nothing where there is no coefficient. -/
theorem C96_ocean_pole (P : PoleTide.Poles) (coef : ℝ → ℝ → Option (ℂ × ℂ × ℂ)) (ellipsoid convention : String)
    (he : ellipsoid.toUpper ∈ CRS.ellipsoids) (hc : convention ∈ PoleTide.conventions) :
    ∃ dm, CRS.datum ellipsoid "MKS" none none none none = .ok dm ∧
    ∀ (s : FileSetup) (file : Dict (Var ℝ)) (x y t : List ℝ) (d : Input ℝ), Labelled s →
      s.compute = optValues P coef s.type ellipsoid convention → Asked s file x y t d → s.time = none →
      (∀ q ∈ pointsOf s x y, -90 ≤ q.2 ∧ q.2 ≤ 90) →
      Writes s file x y t d fun q t =>
        let Hp := sqrt (8 * π / 15) * (dm.omega ^ 2 * dm.a ^ 4 / dm.GM)
        let K := 4 * π * 6.67430e-11 * dm.a * 1025 * Hp / (3 * 9.7803278)
        let X := SolidEarth.place dm q
        let m := PoleTide.poleOffset P convention t
        (coef q.1 (arcsin (X 2 / Spec.length3 X) * 180 / π)).map fun u =>
          K * Spec.arcsec * (starRingEnd ℂ ⟨m.1, m.2⟩ * ⟨0.6870, 0.0036⟩ * u.1).re := by
  obtain ⟨dm, hdm, key⟩ := PoleTide.C58_ocean P coef ellipsoid convention "spline" he hc (by decide +kernel)
  refine ⟨dm, hdm, ?_⟩
  intro s file x y t d h hs ha h0 hlat
  refine writes_of s h file x y t d ha h0 _ ?_
  rintro pts times ny nx rfl
  have red : ∀ type ∈ ["grid", "drift", "time series"],
      optValues P coef type ellipsoid convention ny nx (pointsOf s x y) times =
      PoleTide.optDisplacements P coef type ellipsoid convention "spline" ny nx (pointsOf s x y) times >>=
        (fun o => .ok (laidOut o)) := by
    intro type ht
    rw [PoleTide.optDisplacements, if_neg (not_not.2 he), if_neg (not_not.2 hc), if_neg (not_not.2 (by decide +kernel)),
      PoleTide.lower_types _ ht, if_neg (not_not.2 ht), optValues, hdm, ok_bind, ok_bind]
  obtain ⟨k1, k2, k3⟩ := key (pointsOf s x y) times ny nx hlat
  rw [hs]
  refine ⟨fun e hl => ?_, fun e => ?_, fun e hl hp => ?_⟩
  · rw [e, red _ (by simp), k1 hl]; rfl
  · rw [e, red _ (by simp), k2]; rfl
  · rw [e, red _ (by simp), k3 hl hp]; rfl

/-- The hypotheses can be met: a track of two points with a map that has coefficients for the first one. -/
example (P : PoleTide.Poles) : ∃ out, programNetCDF { walk with
      compute := optValues P (fun lon _ => if lon = 10 then some (0, 1, 1) else none) "drift" "WGS84" "2018" }
      walkFile = .ok out ∧ Finds 1000 out "tide_ocean" [2] [some 0, none] := by
  obtain ⟨dm, -, key⟩ := C96_ocean_pole P (fun lon _ => if lon = 10 then some (0, 1, 1) else none) "WGS84" "2018"
    (by decide +kernel) (by decide)
  have hw := key { walk with
      compute := optValues P (fun lon _ => if lon = 10 then some (0, 1, 1) else none) "drift" "WGS84" "2018" }
    walkFile [10, 11] [60, 61] [0, 1] _ ?_ rfl
    ⟨rfl, ⟨"lon", _, rfl, rfl, rfl⟩, ⟨"lat", _, rfl, rfl, rfl⟩, ⟨"time", _, rfl, rfl, rfl⟩⟩ rfl ?_
  · have fin := hw.1 rfl rfl rfl
    refine Exists.elim (fin ?_) ?_
    rotate_left
    · rintro out ⟨e, -, -, -, hv⟩
      refine ⟨out, e, ?_⟩
      simpa [pointsOf, timesOf, walk] using hv
    · refine ⟨?_, ?_, ?_⟩
      · intro p hp
        simp only [pointsOf, walk, List.zip_cons_cons, List.zip_nil_right, List.map_cons, List.map_nil, id,
          List.mem_cons, List.not_mem_nil, or_false] at hp
        simp only [show ("drift" = "grid") = False by simp, if_false, List.mem_cons, List.not_mem_nil, or_false] at hp
        rcases hp with rfl | rfl <;> constructor <;> norm_num [walk]
      · intro p hp
        simp only [timesOf, walk, List.map_cons, List.map_nil, List.mem_cons, List.not_mem_nil, or_false] at hp
        rcases hp with rfl | rfl <;> norm_num [walk]
      · intro v hv
        simp [pointsOf, timesOf, walk] at hv
        subst hv
        norm_num [walk]
  · refine ⟨by simp [walk, reserved], by simp [walk], ?_, by simp [walk]⟩
    intro attr h1 n h2 h3
    simp only [walk, List.map_cons, List.map_nil, List.mem_singleton] at h2
    subst h2
    revert attr
    decide
  · intro q hq
    simp [pointsOf, walk] at hq
    rcases hq with rfl | rfl <;> norm_num

end Verif.Program
