import Verif.Props.SolidCorrections
import Verif.Lemmas.Num
import Mathlib.Topology.Order.IntermediateValue
import Mathlib.Analysis.Real.Pi.Bounds
import Mathlib.Analysis.SpecialFunctions.Trigonometric.Bounds
import Mathlib.Tactic.NormNum
import Mathlib.Tactic.IntervalCases

/-!
# Solid Earth tides: continuity in time (C40) and kinds of request (C42)
-/

namespace Verif.SolidEarth

open Verif Real Spec

/-! ### Phases -/

theorem normalized (x : ℝ) : ∃ k : ℤ, π / 180 * Math.normalizeAngle x 360 =
    π / 180 * x - k * (2 * π) := by
  refine ⟨⌊x / 360⌋, ?_⟩
  rw [Math.normalizeAngle, Num.fmod]
  ring

/-- The phase of a row from the angles before they are reduced to a full turn. -/
theorem combination_raw (MJD : ℝ) (n : List ℤ) : ∃ k : ℤ,
    combination (doodsonArguments MJD) n = π / 180 * combination (rawDoodson MJD) n -
      k * (2 * π) := by
  obtain ⟨k1, h1⟩ := normalized (rawDoodson MJD).s
  obtain ⟨k2, h2⟩ := normalized (rawDoodson MJD).h
  obtain ⟨k3, h3⟩ := normalized (rawDoodson MJD).p
  obtain ⟨k4, h4⟩ := normalized (rawDoodson MJD).np
  obtain ⟨k5, h5⟩ := normalized (rawDoodson MJD).ps
  have key : ∀ (x y : List ℝ) (k : List ℤ) (n : List ℤ),
      List.Forall₂ (fun (p : ℝ × ℝ) (k : ℤ) => p.1 = π / 180 * p.2 - k * (2 * π)) (x.zip y) k →
      x.length = y.length →
      ∃ j : ℤ, (List.zipWith (fun (x : ℝ) (m : ℤ) => (m : ℝ) * x) x n).sum =
        π / 180 * (List.zipWith (fun (x : ℝ) (m : ℤ) => (m : ℝ) * x) y n).sum - j * (2 * π) := by
    intro x
    induction x with
    | nil =>
      intro y k n _ hl
      have : y = [] := List.length_eq_zero_iff.1 hl.symm
      subst this
      exact ⟨0, by simp⟩
    | cons a x ih =>
      intro y k n hf hl
      match y, n, k, hf with
      | b :: y, [], _, _ => exact ⟨0, by simp⟩
      | b :: y, m :: n, q :: k, .cons h hf =>
        obtain ⟨j, hj⟩ := ih y k n hf (by simpa using hl)
        refine ⟨j + m * q, ?_⟩
        simp only [List.zipWith_cons_cons, List.sum_cons, hj]
        dsimp only at h
        rw [h]
        push_cast
        ring
  exact key _ _ [k1, k2, k3, k4, k5] n (.cons h1 (.cons h2 (.cons h3 (.cons h4 (.cons h5 .nil)))))
    rfl

/-- The mean lunar time before it is reduced to a full turn; the time of day has been replaced by
the time. -/
noncomputable def lunarTime (MJD : ℝ) : ℝ :=
  360 * MJD - Math.polynomialSum [218.3164477, 481267.88123421, -1.5786e-3, 1.855835e-6,
    -1.53388e-8] ((MJD - 51544.5) / 36525) + Math.polynomialSum [280.4606184, 36000.7700536,
    3.8793e-4, -2.58e-8] ((MJD - 51544.5) / 36525)

theorem tau_raw (MJD : ℝ) : ∃ k : ℤ,
    (doodsonArguments MJD).tau = π / 180 * lunarTime MJD - k * (2 * π) := by
  obtain ⟨k, h⟩ := normalized (rawDoodson MJD).tau
  refine ⟨k + ⌊MJD⌋, h.trans ?_⟩
  have : (rawDoodson MJD).tau = lunarTime MJD - 360 * ⌊MJD⌋ := by
    simp only [rawDoodson, lunarTime, Num.fmod, div_one]
    ring
  rw [this]
  push_cast
  ring

theorem continuous_poly (c : List ℝ) : Continuous fun t => Math.polynomialSum c t := by
  unfold Math.polynomialSum
  induction c with
  | nil => simpa using continuous_const
  | cons a c ih => fun_prop

theorem continuous_raw (n : List ℤ) : Continuous fun t : ℝ => combination (rawDoodson t) n := by
  have h1 : Continuous fun t => (rawDoodson t).s := by
    unfold rawDoodson
    exact ((continuous_poly _).comp (by fun_prop)).add ((continuous_poly _).comp (by fun_prop))
  have h2 : Continuous fun t => (rawDoodson t).h := (continuous_poly _).comp (by fun_prop)
  have h3 : Continuous fun t => (rawDoodson t).p := (continuous_poly _).comp (by fun_prop)
  have h4 : Continuous fun t => (rawDoodson t).np := (continuous_poly _).comp (by fun_prop)
  have h5 : Continuous fun t => (rawDoodson t).ps := (continuous_poly _).comp (by fun_prop)
  have key : ∀ (fs : List (ℝ → ℝ)) (n : List ℤ), (∀ f ∈ fs, Continuous f) →
      Continuous fun t => (List.zipWith (fun (x : ℝ) (m : ℤ) => (m : ℝ) * x)
        (fs.map (· t)) n).sum := by
    intro fs
    induction fs with
    | nil => intro n _; simpa using continuous_const
    | cons f fs ih =>
      intro n h
      cases n with
      | nil => simpa using continuous_const
      | cons m n =>
        simp only [List.map_cons, List.zipWith_cons_cons, List.sum_cons]
        exact (continuous_const.mul (h f (by simp))).add
          (ih n fun g hg => h g (List.mem_cons_of_mem _ hg))
  exact key [fun t => (rawDoodson t).s, fun t => (rawDoodson t).h, fun t => (rawDoodson t).p,
    fun t => (rawDoodson t).np, fun t => (rawDoodson t).ps] n (by simp [h1, h2, h3, h4, h5])

theorem phase_eq (MJD l : ℝ) (n : List ℤ) :
    sin ((doodsonArguments MJD).tau + combination (doodsonArguments MJD) n + l) =
      sin (π / 180 * (lunarTime MJD + combination (rawDoodson MJD) n) + l) ∧
    cos ((doodsonArguments MJD).tau + combination (doodsonArguments MJD) n + l) =
      cos (π / 180 * (lunarTime MJD + combination (rawDoodson MJD) n) + l) := by
  obtain ⟨j, hj⟩ := tau_raw MJD
  obtain ⟨k, hk⟩ := combination_raw MJD n
  have e : (doodsonArguments MJD).tau + combination (doodsonArguments MJD) n + l =
      π / 180 * (lunarTime MJD + combination (rawDoodson MJD) n) + l -
        ((j + k : ℤ) : ℝ) * (2 * π) := by
    rw [hj, hk]; push_cast; ring
  rw [e, sin_sub_int_mul_two_pi, cos_sub_int_mul_two_pi]
  exact ⟨rfl, rfl⟩

theorem slow_phase_eq (MJD : ℝ) (n : List ℤ) :
    sin (combination (doodsonArguments MJD) n) = sin (π / 180 * combination (rawDoodson MJD) n) ∧
    cos (combination (doodsonArguments MJD) n) = cos (π / 180 * combination (rawDoodson MJD) n) := by
  obtain ⟨k, hk⟩ := combination_raw MJD n
  rw [hk, sin_sub_int_mul_two_pi, cos_sub_int_mul_two_pi]
  exact ⟨rfl, rfl⟩

theorem continuous_lunarTime : Continuous lunarTime := by
  unfold lunarTime
  exact ((by fun_prop : Continuous fun t : ℝ => 360 * t).sub
    ((continuous_poly _).comp (by fun_prop))).add ((continuous_poly _).comp (by fun_prop))

theorem continuous_local3 {u n e : ℝ → ℝ} (hu : Continuous u) (hn : Continuous n)
    (he : Continuous e) (p l : ℝ) : Continuous fun t => local3 (u t) (n t) (e t) p l := by
  unfold local3
  exact ((hu.smul continuous_const).add (hn.smul continuous_const)).add (he.smul continuous_const)

theorem continuous_sum {α : Type} (t : List α) (f : α → ℝ → ℝ) (h : ∀ q, Continuous (f q)) :
    Continuous fun x => (t.map fun q => f q x).sum := by
  induction t with
  | nil => simpa using continuous_const
  | cons q t ih => simp only [List.map_cons, List.sum_cons]; exact (h q).add ih

/-- C40.  For fixed Sun and Moon the displacement is a continuous function of time: the reduction
of angles and of the time of day to a full turn causes no jumps, at midnight or elsewhere. -/
theorem C40_continuous (k : Keywords) (a : ℝ) (meanTide : Bool) (X S L : Vec)
    (h : ¬ (X 0 = 0 ∧ X 1 = 0)) : Continuous fun t => tideRow k a meanTide t X S L := by
  obtain ⟨r, p, l, hr, hp, rfl⟩ := exists_point X h
  have hd : Continuous fun t : ℝ =>
      frequencyDiurnal (point r p l) (doodsonArguments (t + 48622)) := by
    simp only [C40_frequency_diurnal hr hp, (phase_eq _ _ _).1, (phase_eq _ _ _).2]
    have hc : ∀ n : List ℤ, Continuous fun t : ℝ =>
        π / 180 * (lunarTime (t + 48622) + combination (rawDoodson (t + 48622)) n) + l := fun n =>
      (continuous_const.mul ((continuous_lunarTime.comp (by fun_prop)).add
        ((continuous_raw n).comp (by fun_prop)))).add continuous_const
    refine continuous_local3 (continuous_sum _ _ fun q => ?_) (continuous_sum _ _ fun q => ?_)
      (continuous_sum _ _ fun q => ?_) p l
    · exact continuous_const.mul (((continuous_const.mul (continuous_sin.comp (hc q.n))).add
        (continuous_const.mul (continuous_cos.comp (hc q.n)))).mul continuous_const)
    · exact continuous_const.mul (((continuous_const.mul (continuous_sin.comp (hc q.n))).add
        (continuous_const.mul (continuous_cos.comp (hc q.n)))).mul continuous_const)
    · exact continuous_const.mul (((continuous_const.mul (continuous_cos.comp (hc q.n))).sub
        (continuous_const.mul (continuous_sin.comp (hc q.n)))).mul continuous_const)
  have hl : Continuous fun t : ℝ =>
      frequencyLongPeriod (point r p l) (doodsonArguments (t + 48622)) := by
    simp only [C40_frequency_long_period hr hp, (slow_phase_eq _ _).1, (slow_phase_eq _ _).2]
    have hc : ∀ n : List ℤ, Continuous fun t : ℝ =>
        π / 180 * combination (rawDoodson (t + 48622)) n := fun n =>
      continuous_const.mul ((continuous_raw n).comp (by fun_prop))
    refine continuous_local3 (continuous_sum _ _ fun q => ?_) (continuous_sum _ _ fun q => ?_)
      continuous_const p l
    · exact continuous_const.mul (continuous_const.mul ((continuous_const.mul
        (continuous_cos.comp (hc q.n))).add (continuous_const.mul (continuous_sin.comp (hc q.n)))))
    · exact continuous_const.mul (((continuous_const.mul (continuous_cos.comp (hc q.n))).add
        (continuous_const.mul (continuous_sin.comp (hc q.n)))).mul continuous_const)
  cases meanTide
  · simp only [tideRow, Bool.false_eq_true, if_false]
    exact (continuous_const.add hd).add hl
  · simp only [tideRow, if_true]
    exact ((continuous_const.add hd).add hl).add continuous_const

/-! ### Requests -/

theorem radialRow_point {r p : ℝ} (hr : 0 < r) (hp : 0 < cos p) (l : ℝ) :
    radialRow (point r p l) = up p l := by
  have hrho : sqrt (point r p l 0 ^ 2 + point r p l 1 ^ 2) = r * cos p := by
    rw [sqrt_eq_iff_mul_self_eq (by positivity) (by positivity), point_0, point_1]
    have h2 := sin_sq_add_cos_sq l
    linear_combination r ^ 2 * cos p ^ 2 * h2
  have ha := angle_point hr hp l 0
  rw [zero_add, zero_add] at ha
  have ht : point r p l 2 / (r * cos p) = tan p := by
    rw [point_2, tan_eq_sin_div_cos]; field_simp
  have hc : sqrt (1 + tan p ^ 2) = 1 / cos p := by
    rw [sqrt_eq_iff_mul_self_eq (by positivity) (by positivity), tan_eq_sin_div_cos]
    have h1 := sin_sq_add_cos_sq p
    field_simp
    linear_combination h1
  rw [radialRow, hrho, if_neg (by positivity), ht, sin_pi_div_two_sub, cos_pi_div_two_sub,
    cos_arctan, sin_arctan, hc, ha.1, ha.2, up]
  refine vec_ext ?_ ?_ ?_ <;>
    simp only [Matrix.cons_val_zero, Matrix.cons_val_one, Matrix.cons_val, tan_eq_sin_div_cos] <;>
    field_simp

/-- Displacement at one location and time. -/
noncomputable def displacement (system : String) (dm : CRS.Datum) (sun moon : ℝ → Vec) (q : ℝ × ℝ)
    (t : Time) : Option ℝ :=
  radial (place dm q) (tideOrNaN {} dm.a (system.toLower == "mean_tide")
    (t.tide + t.ttUt1) (place dm q) (sun t.mjd) (moon t.mjd))

theorem requests (system ephemerides : String) (dm : CRS.Datum) (sun moon : ℝ → Vec)
    (hs : system.toLower = "tide_free" ∨ system.toLower = "mean_tide")
    (he : ephemerides.toLower = "approximate" ∨ ephemerides.toLower = "jpl") :
    (∀ ny nx pts times, pts.length = times.length →
      setDisplacements "drift" system ephemerides dm sun moon ny nx pts times =
        .ok (.drift (List.zipWith (displacement system dm sun moon) pts times))) ∧
    (∀ ny nx pts times,
      setDisplacements "time series" system ephemerides dm sun moon ny nx pts times =
        .ok (.series (pts.map fun q => times.map (displacement system dm sun moon q)))) ∧
    (∀ ny nx pts times, pts.length = ny * nx →
      setDisplacements "grid" system ephemerides dm sun moon ny nx pts times =
        .ok (.grid (times.map fun t => pts.map fun q =>
          displacement system dm sun moon q { t with tide := t.tide + 1 }))) := by
  have hm1 : ¬ system.toLower ∉ ["mean_tide", "tide_free"] := by
    rw [not_not]; rcases hs with h | h <;> rw [h] <;> decide
  have hm2 : ¬ ephemerides.toLower ∉ ["approximate", "jpl"] := by
    rw [not_not]; rcases he with h | h <;> rw [h] <;> decide
  have key : ∀ (ts : List ℝ) (X S L : List Vec), X.length = ts.length → S.length = ts.length →
      L.length = ts.length → solidEarthTide {} dm.a system ts X S L =
        .ok ((ts.zip (X.zip (S.zip L))).map fun (t, x, s, l) =>
          tideOrNaN {} dm.a (system.toLower == "mean_tide") t x s l) := by
    intro ts X S L h1 h2 h3
    have hm : ¬ system.toLower ∉ ["tide_free", "mean_tide"] := by
      rw [not_not]; rcases hs with h | h <;> rw [h] <;> decide
    rw [solidEarthTide, if_neg hm, rows_eq h1, rows_eq h2, rows_eq h3, ok_bind, ok_bind, ok_bind]
  unfold displacement
  refine ⟨?_, ?_, ?_⟩
  · intro ny nx pts times hl
    rw [setDisplacements, if_neg hm1, if_neg hm2, if_neg (by decide +kernel)]
    dsimp only
    rw [if_neg (by decide), if_pos rfl, key _ _ _ _ (by simp [hl]) (by simp) (by simp), ok_bind,
      rows_eq (by simp [hl]), ok_bind]
    refine congrArg _ (congrArg _ ?_)
    apply List.ext_getElem
    · simp [hl]
    · intro i h1 h2
      simp
  · intro ny nx pts times
    rw [setDisplacements, if_neg hm1, if_neg hm2, if_neg (by decide +kernel)]
    dsimp only
    rw [if_neg (by decide), if_neg (by decide), if_pos rfl]
    rw [pyMap_ok_of_forall (g := fun X => times.map fun t => radial X (tideOrNaN {} dm.a
      (system.toLower == "mean_tide") (t.tide + t.ttUt1) X (sun t.mjd) (moon t.mjd)))]
    · rw [ok_bind, List.map_map]; rfl
    · intro X _
      rw [key _ _ _ _ (by simp) (by simp) (by simp), ok_bind]
      refine congrArg _ ?_
      apply List.ext_getElem
      · simp
      · intro i h1 h2
        simp
  · intro ny nx pts times hl
    rw [setDisplacements, if_neg hm1, if_neg hm2, if_neg (by decide +kernel)]
    dsimp only
    rw [if_pos rfl]
    rw [pyMap_ok_of_forall (g := fun t : Time => pts.map fun q => radial (place dm q)
      (tideOrNaN {} dm.a (system.toLower == "mean_tide") (t.tide + 1 + t.ttUt1) (place dm q)
        (sun t.mjd) (moon t.mjd)))]
    · rw [ok_bind]
    · intro t _
      rw [key _ _ _ _ (by simp [hl]) (by simp) (by simp), ok_bind, reshape, if_pos (by simp [hl])]
      refine congrArg _ ?_
      apply List.ext_getElem
      · simp [hl]
      · intro i h1 h2
        have e : t.tide + t.ttUt1 + 1 = t.tide + 1 + t.ttUt1 := by ring
        simp [e]

/-- C42, for the part that is right.  There is one function `F` of location and time such that a
drift track returns `F` at its locations and times, a set of time series returns `F` at all
stations and times, and a grid returns `F` at all nodes - but one day late: for the time `t`, the
grid takes the ephemerides at `t` and everything else at `t + 1`. -/
theorem C42_requests_partial (system ephemerides : String) (dm : CRS.Datum) (sun moon : ℝ → Vec)
    (hs : system.toLower = "tide_free" ∨ system.toLower = "mean_tide")
    (he : ephemerides.toLower = "approximate" ∨ ephemerides.toLower = "jpl") :
    ∃ F : ℝ × ℝ → Time → Option ℝ,
      (∀ ny nx pts times, pts.length = times.length →
        setDisplacements "drift" system ephemerides dm sun moon ny nx pts times =
          .ok (.drift (List.zipWith F pts times))) ∧
      (∀ ny nx pts times,
        setDisplacements "time series" system ephemerides dm sun moon ny nx pts times =
          .ok (.series (pts.map fun q => times.map (F q)))) ∧
      (∀ ny nx pts times, pts.length = ny * nx →
        setDisplacements "grid" system ephemerides dm sun moon ny nx pts times =
          .ok (.grid (times.map fun t => pts.map fun q => F q { t with tide := t.tide + 1 }))) :=
  ⟨displacement system dm sun moon, requests system ephemerides dm sun moon hs he⟩

theorem lipschitz (a b c x y : ℝ) (hc : 0 ≤ c) (h : a ^ 2 + b ^ 2 ≤ c ^ 2) :
    |(a * cos x + b * sin x) - (a * cos y + b * sin y)| ≤ c * |x - y| := by
  have e : (a * cos x + b * sin x) - (a * cos y + b * sin y) =
      2 * sin ((x - y) / 2) * (-a * sin ((x + y) / 2) + b * cos ((x + y) / 2)) := by
    have h1 := cos_sub_cos x y
    have h2 := sin_sub_sin x y
    linear_combination a * h1 + b * h2
  have h1 : |2 * sin ((x - y) / 2)| ≤ |x - y| := by
    rw [abs_mul, abs_two]
    have := abs_sin_le_abs (x := (x - y) / 2)
    rw [abs_div, abs_two] at this
    linarith
  have h2 : |-a * sin ((x + y) / 2) + b * cos ((x + y) / 2)| ≤ c := by
    apply abs_le_of_sq_le_sq _ hc
    have h3 := sin_sq_add_cos_sq ((x + y) / 2)
    have h4 := sq_nonneg (a * cos ((x + y) / 2) + b * sin ((x + y) / 2))
    have h5 : (-a * sin ((x + y) / 2) + b * cos ((x + y) / 2)) ^ 2 +
        (a * cos ((x + y) / 2) + b * sin ((x + y) / 2)) ^ 2 = a ^ 2 + b ^ 2 := by
      linear_combination (a ^ 2 + b ^ 2) * h3
    linarith
  rw [e, abs_mul]
  calc _ ≤ |x - y| * c := mul_le_mul h1 h2 (abs_nonneg _) (abs_nonneg _)
    _ = c * |x - y| := mul_comm _ _

/-- The growth of a polynomial of degree 4 over a small step. -/
theorem poly_step (c0 c1 c2 c3 c4 T h : ℝ) (hT : 0 ≤ T) (hT' : T ≤ 1) (hh : 0 ≤ h) (hh' : h ≤ 1) :
    |(c0 + c1 * (T + h) + c2 * (T + h) ^ 2 + c3 * (T + h) ^ 3 + c4 * (T + h) ^ 4) -
      (c0 + c1 * T + c2 * T ^ 2 + c3 * T ^ 3 + c4 * T ^ 4) - c1 * h| ≤
      h * (3 * |c2| + 7 * |c3| + 15 * |c4|) := by
  have hTT : T * T ≤ 1 := by nlinarith
  have hThh : T * h ≤ 1 := by nlinarith
  have hhh : h * h ≤ 1 := by nlinarith
  have e : (c0 + c1 * (T + h) + c2 * (T + h) ^ 2 + c3 * (T + h) ^ 3 + c4 * (T + h) ^ 4) -
      (c0 + c1 * T + c2 * T ^ 2 + c3 * T ^ 3 + c4 * T ^ 4) - c1 * h =
      h * (c2 * (2 * T + h) + c3 * (3 * T ^ 2 + 3 * T * h + h ^ 2) +
        c4 * (4 * T ^ 3 + 6 * T ^ 2 * h + 4 * T * h ^ 2 + h ^ 3)) := by ring
  have b2 : |2 * T + h| ≤ 3 := by rw [abs_of_nonneg (by positivity)]; linarith
  have b3 : |3 * T ^ 2 + 3 * T * h + h ^ 2| ≤ 7 := by
    rw [abs_of_nonneg (by positivity)]; nlinarith
  have b4 : |4 * T ^ 3 + 6 * T ^ 2 * h + 4 * T * h ^ 2 + h ^ 3| ≤ 15 := by
    rw [abs_of_nonneg (by positivity)]
    have p1 : T ^ 3 ≤ 1 := pow_le_one₀ hT hT'
    have p2 : h ^ 3 ≤ 1 := pow_le_one₀ hh hh'
    have p3 : T ^ 2 * h ≤ 1 := mul_le_one₀ (pow_le_one₀ hT hT') hh hh'
    have p4 : T * h ^ 2 ≤ 1 := mul_le_one₀ hT' (by positivity) (pow_le_one₀ hh hh')
    nlinarith
  rw [e, abs_mul, abs_of_nonneg hh]
  refine mul_le_mul_of_nonneg_left ?_ hh
  refine (abs_add_le _ _).trans (add_le_add ((abs_add_le _ _).trans (add_le_add ?_ ?_)) ?_)
  · rw [abs_mul, mul_comm]; exact mul_le_mul_of_nonneg_right b2 (abs_nonneg _)
  · rw [abs_mul, mul_comm]; exact mul_le_mul_of_nonneg_right b3 (abs_nonneg _)
  · rw [abs_mul, mul_comm]; exact mul_le_mul_of_nonneg_right b4 (abs_nonneg _)

/-- The angles that enter the long period corrections, as polynomials of the centuries since
2000. -/
theorem raw_angles (T : ℝ) :
    (rawDoodson (51544.5 + 36525 * T)).s = 218.3164477 + 481269.278205488 * T +
      -0.001269711 * T ^ 2 + 0.000001876835 * T ^ 3 + -0.0000000083388 * T ^ 4 ∧
    (rawDoodson (51544.5 + 36525 * T)).h = 280.46645 + 36000.7697489 * T +
      3.0322222e-4 * T ^ 2 + 2.0e-8 * T ^ 3 + -6.54e-9 * T ^ 4 ∧
    (rawDoodson (51544.5 + 36525 * T)).p = 83.3532465 + 4069.0137287 * T +
      -1.032172222e-2 * T ^ 2 + -1.24991e-5 * T ^ 3 + 5.263e-8 * T ^ 4 ∧
    (rawDoodson (51544.5 + 36525 * T)).np = 234.95544499 + 1934.13626197 * T +
      -2.07561111e-3 * T ^ 2 + -2.13944e-6 * T ^ 3 + 1.65e-8 * T ^ 4 := by
  have e : (51544.5 + 36525 * T - 51544.5) / 36525 = T := by ring
  simp only [rawDoodson, e, Math.polynomialSum, List.zipIdx_cons, List.zipIdx_nil, List.map_cons,
    List.map_nil, List.sum_cons, List.sum_nil]
  refine ⟨?_, ?_, ?_, ?_⟩ <;> norm_num <;> ring

/-- What the code sums for the radial long period correction at the equator. -/
noncomputable def longSum (MJD : ℝ) : ℝ :=
  (longPeriodTable.map fun q => (q.r5 : ℝ) * cos (π / 180 * combination (rawDoodson MJD) q.n) +
    q.r7 * sin (π / 180 * combination (rawDoodson MJD) q.n)).sum

theorem longSum_eq (MJD : ℝ) : longSum MJD =
    (0.47 * cos (π / 180 * (rawDoodson MJD).np) + 0.16 * sin (π / 180 * (rawDoodson MJD).np)) +
    ((-0.20) * cos (π / 180 * (2 * (rawDoodson MJD).h)) +
      (-0.11) * sin (π / 180 * (2 * (rawDoodson MJD).h))) +
    ((-0.11) * cos (π / 180 * ((rawDoodson MJD).s - (rawDoodson MJD).p)) +
      (-0.09) * sin (π / 180 * ((rawDoodson MJD).s - (rawDoodson MJD).p))) +
    ((-0.13) * cos (π / 180 * (2 * (rawDoodson MJD).s)) +
      (-0.15) * sin (π / 180 * (2 * (rawDoodson MJD).s))) +
    ((-0.05) * cos (π / 180 * (2 * (rawDoodson MJD).s + (rawDoodson MJD).np)) +
      (-0.06) * sin (π / 180 * (2 * (rawDoodson MJD).s + (rawDoodson MJD).np))) := by
  simp only [longSum, longPeriodTable, combination, List.map_cons, List.map_nil, List.sum_cons,
    List.sum_nil, List.zipWith_cons_cons, List.zipWith_nil_left]
  push_cast
  norm_num
  simp only [← sub_eq_add_neg]
  ring

/-- The change of the fortnightly term over the angle `D`. -/
theorem fortnight (x D : ℝ) (hD1 : 0.459 ≤ D) (hD2 : D ≤ 0.461)
    (hx : x = π - π / 4 + D + 2 * π) :
    0.0859 ≤ ((-0.13) * cos x + (-0.15) * sin x) -
      ((-0.13) * cos (π / 180 * (2 * 247.5)) + (-0.15) * sin (π / 180 * (2 * 247.5))) := by
  have e0 : π / 180 * (2 * 247.5) = π - π / 4 + 2 * π := by ring
  rw [hx, e0, cos_add_two_pi, sin_add_two_pi, cos_add_two_pi, sin_add_two_pi, cos_add, sin_add,
    cos_pi_sub, sin_pi_sub, cos_pi_div_four, sin_pi_div_four]
  have hsin : 0.434 ≤ sin D := by
    have := sin_gt_sub_cube (by linarith : 0 < D)
    have h3 : D ^ 3 ≤ 0.461 ^ 3 := pow_le_pow_left₀ (by linarith) hD2 3
    norm_num at h3
    linarith
  have hcos := cos_le_one D
  have hsq : (1.414 : ℝ) ≤ √2 := le_sqrt_of_sq_le (by norm_num)
  have h1 : (0.1215 : ℝ) ≤ 0.28 * sin D - 0.02 * cos D + 0.02 := by linarith
  have h2 : (1.414 : ℝ) / 2 * 0.1215 ≤ √2 / 2 * (0.28 * sin D - 0.02 * cos D + 0.02) :=
    mul_le_mul (by linarith) h1 (by norm_num) (by positivity)
  have e4 : √2 / 2 * (0.28 * sin D - 0.02 * cos D + 0.02) =
      -0.13 * (-(√2 / 2) * cos D - √2 / 2 * sin D) + -0.15 * (√2 / 2 * cos D + -(√2 / 2) * sin D) -
        (-0.13 * -(√2 / 2) + -0.15 * (√2 / 2)) := by ring
  rw [← e4]
  linarith

/-- The correction changes from one day to the next, at some time. -/
theorem longSum_changes : ∃ MJD : ℝ, longSum (MJD + 1) ≠ longSum MJD := by
  -- a time at which twice the longitude of the moon is 135 degrees
  obtain ⟨T, ⟨hT0, hT1⟩, hT⟩ : ∃ T ∈ Set.Icc (0 : ℝ) 0.001,
      (rawDoodson (51544.5 + 36525 * T)).s = 247.5 := by
    have hc : ContinuousOn (fun T : ℝ => (rawDoodson (51544.5 + 36525 * T)).s)
        (Set.Icc 0 0.001) := by
      simp only [(raw_angles _).1]
      fun_prop
    have := intermediate_value_Icc (by norm_num : (0 : ℝ) ≤ 0.001) hc
    apply this
    simp only [(raw_angles _).1]
    constructor <;> norm_num
  refine ⟨51544.5 + 36525 * T, fun hg => ?_⟩
  have hM : 51544.5 + 36525 * T + 1 = 51544.5 + 36525 * (T + 1 / 36525) := by ring
  rw [hM, longSum_eq, longSum_eq] at hg
  have hT2 : T ≤ 1 := by linarith
  have a0 := raw_angles T
  have a1 := raw_angles (T + 1 / 36525)
  have bs := poly_step 218.3164477 481269.278205488 (-0.001269711) 0.000001876835
    (-0.0000000083388) T (1 / 36525) hT0 hT2 (by norm_num) (by norm_num)
  have bh := poly_step 280.46645 36000.7697489 3.0322222e-4 2.0e-8 (-6.54e-9) T (1 / 36525) hT0 hT2
    (by norm_num) (by norm_num)
  have bp := poly_step 83.3532465 4069.0137287 (-1.032172222e-2) (-1.24991e-5) 5.263e-8 T
    (1 / 36525) hT0 hT2 (by norm_num) (by norm_num)
  have bn := poly_step 234.95544499 1934.13626197 (-2.07561111e-3) (-2.13944e-6) 1.65e-8 T
    (1 / 36525) hT0 hT2 (by norm_num) (by norm_num)
  rw [← a0.1, ← a1.1] at bs
  rw [← a0.2.1, ← a1.2.1] at bh
  rw [← a0.2.2.1, ← a1.2.2.1] at bp
  rw [← a0.2.2.2, ← a1.2.2.2] at bn
  clear a0 a1
  generalize (rawDoodson (51544.5 + 36525 * T)).h = h0 at *
  generalize (rawDoodson (51544.5 + 36525 * T)).p = p0 at *
  generalize (rawDoodson (51544.5 + 36525 * T)).np = n0 at *
  rw [hT] at bs hg
  generalize (rawDoodson (51544.5 + 36525 * (T + 1 / 36525))).h = h1 at *
  generalize (rawDoodson (51544.5 + 36525 * (T + 1 / 36525))).s = s1 at *
  generalize (rawDoodson (51544.5 + 36525 * (T + 1 / 36525))).p = p1 at *
  generalize (rawDoodson (51544.5 + 36525 * (T + 1 / 36525))).np = n1 at *
  clear hT0 hT1 hT hM hT2
  norm_num [abs_le] at bs bh bp bn
  have l1 := lipschitz 0.47 0.16 0.497 (π / 180 * n1) (π / 180 * n0) (by norm_num) (by norm_num)
  have l2 := lipschitz (-0.20) (-0.11) 0.2283 (π / 180 * (2 * h1)) (π / 180 * (2 * h0))
    (by norm_num) (by norm_num)
  have l3 := lipschitz (-0.11) (-0.09) 0.1422 (π / 180 * (s1 - p1)) (π / 180 * (247.5 - p0))
    (by norm_num) (by norm_num)
  have l5 := lipschitz (-0.05) (-0.06) 0.0782 (π / 180 * (2 * s1 + n1))
    (π / 180 * (2 * 247.5 + n0)) (by norm_num) (by norm_num)
  have d1 : |π / 180 * n1 - π / 180 * n0| ≤ π / 180 * 0.053 := by
    rw [← mul_sub, abs_mul, abs_of_pos (by positivity : (0 : ℝ) < π / 180)]
    refine mul_le_mul_of_nonneg_left ?_ (by positivity)
    rw [abs_le]; constructor <;> linarith [bn.1, bn.2]
  have d2 : |π / 180 * (2 * h1) - π / 180 * (2 * h0)| ≤ π / 180 * 1.972 := by
    rw [← mul_sub, abs_mul, abs_of_pos (by positivity : (0 : ℝ) < π / 180)]
    refine mul_le_mul_of_nonneg_left ?_ (by positivity)
    rw [abs_le]; constructor <;> linarith [bh.1, bh.2]
  have d3 : |π / 180 * (s1 - p1) - π / 180 * (247.5 - p0)| ≤ π / 180 * 13.066 := by
    rw [← mul_sub, abs_mul, abs_of_pos (by positivity : (0 : ℝ) < π / 180)]
    refine mul_le_mul_of_nonneg_left ?_ (by positivity)
    rw [abs_le]; constructor <;> linarith [bs.1, bs.2, bp.1, bp.2]
  have d5 : |π / 180 * (2 * s1 + n1) - π / 180 * (2 * 247.5 + n0)| ≤ π / 180 * 26.407 := by
    rw [← mul_sub, abs_mul, abs_of_pos (by positivity : (0 : ℝ) < π / 180)]
    refine mul_le_mul_of_nonneg_left ?_ (by positivity)
    rw [abs_le]; constructor <;> linarith [bs.1, bs.2, bn.1, bn.2]
  have hpi1 := pi_gt_d4
  have hpi2 := pi_lt_d4
  have hD1 : 0.459 ≤ π / 180 * (2 * s1 - 495) := by
    have : (26.35 : ℝ) ≤ 2 * s1 - 495 := by linarith [bs.1]
    have := mul_le_mul (by linarith : (3.1415 : ℝ) / 180 ≤ π / 180) this (by norm_num)
      (by positivity)
    norm_num at this ⊢
    linarith
  have hD2 : π / 180 * (2 * s1 - 495) ≤ 0.461 := by
    have : 2 * s1 - 495 ≤ (26.354 : ℝ) := by linarith [bs.2]
    have := mul_le_mul (by linarith : π / 180 ≤ (3.1416 : ℝ) / 180) this (by linarith [bs.1])
      (by norm_num)
    norm_num at this ⊢
    linarith
  have main := fortnight (π / 180 * (2 * s1)) (π / 180 * (2 * s1 - 495)) hD1 hD2 (by ring)
  have b1 := (abs_le.1 (l1.trans (mul_le_mul_of_nonneg_left d1 (by norm_num)))).1
  have b2 := (abs_le.1 (l2.trans (mul_le_mul_of_nonneg_left d2 (by norm_num)))).1
  have b3 := (abs_le.1 (l3.trans (mul_le_mul_of_nonneg_left d3 (by norm_num)))).1
  have b5 := (abs_le.1 (l5.trans (mul_le_mul_of_nonneg_left d5 (by norm_num)))).1
  clear l1 l2 l3 l5 d1 d2 d3 d5 hD1 hD2 bs bh bp bn
  generalize 0.47 * cos (π / 180 * n1) + 0.16 * sin (π / 180 * n1) = u1 at *
  generalize 0.47 * cos (π / 180 * n0) + 0.16 * sin (π / 180 * n0) = v1 at *
  generalize (-0.20) * cos (π / 180 * (2 * h1)) + (-0.11) * sin (π / 180 * (2 * h1)) = u2 at *
  generalize (-0.20) * cos (π / 180 * (2 * h0)) + (-0.11) * sin (π / 180 * (2 * h0)) = v2 at *
  generalize (-0.11) * cos (π / 180 * (s1 - p1)) + (-0.09) * sin (π / 180 * (s1 - p1)) = u3 at *
  generalize (-0.11) * cos (π / 180 * (247.5 - p0)) + (-0.09) * sin (π / 180 * (247.5 - p0)) = v3
    at *
  generalize (-0.13) * cos (π / 180 * (2 * s1)) + (-0.15) * sin (π / 180 * (2 * s1)) = u4 at *
  generalize (-0.13) * cos (π / 180 * (2 * 247.5)) + (-0.15) * sin (π / 180 * (2 * 247.5)) = v4
    at *
  generalize (-0.05) * cos (π / 180 * (2 * s1 + n1)) + (-0.06) * sin (π / 180 * (2 * s1 + n1)) = u5
    at *
  generalize (-0.05) * cos (π / 180 * (2 * 247.5 + n0)) +
    (-0.06) * sin (π / 180 * (2 * 247.5 + n0)) = v5 at *
  linarith only [hg, main, b1, b2, b3, b5, hpi2]

/-- C42 is refuted for grids: whatever the ephemerides, ellipsoid and tide system, there is a time
for which a grid of one node on the equator and a track of the same location get different
displacements. -/
theorem C42_grid_false (system ephemerides : String) (dm : CRS.Datum) (sun moon : ℝ → Vec)
    (hs : system.toLower = "tide_free" ∨ system.toLower = "mean_tide")
    (he : ephemerides.toLower = "approximate" ∨ ephemerides.toLower = "jpl") (ha : 0 < dm.a)
    (hsun : ∀ t, sun t ≠ 0) (hmoon : ∀ t, moon t ≠ 0) :
    ∃ (t : Time) (g d : ℝ),
      setDisplacements "grid" system ephemerides dm sun moon 1 1 [(0, 0)] [t] =
        .ok (.grid [[some g]]) ∧
      setDisplacements "drift" system ephemerides dm sun moon 1 1 [(0, 0)] [t] =
        .ok (.drift [some d]) ∧ g ≠ d := by
  obtain ⟨MJD, hMJD⟩ := longSum_changes
  obtain ⟨hd, -, hg⟩ := requests system ephemerides dm sun moon hs he
  have hplace : place dm (0, 0) = point dm.a 0 0 := by
    refine vec_ext ?_ ?_ ?_ <;>
      simp [place, Spatial.toCartesian, Spatial.primeVertical]
  have h0 : (0 : ℝ) < cos 0 := by simp
  have hval : ∀ t : Time, displacement system dm sun moon (0, 0) t = some
      (dotProduct (tideRow {} dm.a (system.toLower == "mean_tide") (t.tide + t.ttUt1)
        (point dm.a 0 0) (sun t.mjd) (moon t.mjd)) (up 0 0)) := by
    intro t
    have hdeg : ¬ Degenerate (point dm.a 0 0) (sun t.mjd) (moon t.mjd) := by
      rintro (⟨h, -⟩ | h | h)
      · rw [point_0] at h
        simp at h
        exact ha.ne' h
      · exact hsun _ h
      · exact hmoon _ h
    rw [displacement, hplace, tideOrNaN, if_neg hdeg, radial, Option.map_some,
      radialRow_point ha h0]
    simp [dotProduct, Fin.sum_univ_three]
  refine ⟨⟨MJD - 48622, 0, MJD⟩, _, _, by
    rw [hg _ _ _ _ rfl]; simp only [List.map_cons, List.map_nil, hval]; rfl, by
    rw [hd _ _ _ _ rfl]; simp only [List.zipWith_cons_cons, List.zipWith_nil_left, hval]; rfl, ?_⟩
  -- only the long period correction differs
  intro hEq
  have hdiff : ∀ t X S L, (system.toLower = "tide_free" ∨ system.toLower = "mean_tide") →
      tideRow {} dm.a (system.toLower == "mean_tide") t X S L =
        (tideRow {} dm.a (system.toLower == "mean_tide") 0 X S L -
          frequencyDiurnal X (doodsonArguments (0 + 48622)) -
          frequencyLongPeriod X (doodsonArguments (0 + 48622))) +
        frequencyDiurnal X (doodsonArguments (t + 48622)) +
        frequencyLongPeriod X (doodsonArguments (t + 48622)) := by
    intro t X S L _
    rw [tideRow, tideRow]
    split <;> abel
  have hup : ∀ t : ℝ, dotProduct (frequencyDiurnal (point dm.a 0 0) (doodsonArguments t)) (up 0 0) =
        0 ∧ dotProduct (frequencyLongPeriod (point dm.a 0 0) (doodsonArguments t)) (up 0 0) =
        -(1 / 2) * 1e-3 * longSum t := by
    intro t
    constructor
    · rw [C40_frequency_diurnal ha h0]
      simp [dotProduct, Fin.sum_univ_three, up, local3_0, local3_1, local3_2]
    · rw [C40_frequency_long_period ha h0]
      simp only [dotProduct, Fin.sum_univ_three, up, local3_0, local3_1, local3_2,
        (slow_phase_eq _ _).1, (slow_phase_eq _ _).2, Matrix.cons_val_zero, Matrix.cons_val_one,
        Matrix.cons_val, sin_zero, cos_zero, longSum]
      rw [← List.sum_map_mul_left]
      simp only [mul_zero, add_zero, mul_one, sub_zero]
      congr 1
      apply List.map_congr_left
      intro q _
      ring
  rw [hdiff _ _ _ _ hs, hdiff (MJD - 48622 + 0) _ _ _ hs] at hEq
  rw [add_dotProduct, add_dotProduct, add_dotProduct, add_dotProduct, (hup _).1, (hup _).2,
    (hup _).1, (hup _).2] at hEq
  have e1 : MJD - 48622 + 1 + 0 + 48622 = MJD + 1 := by ring
  have e2 : MJD - 48622 + 0 + 48622 = MJD := by ring
  rw [e1, e2] at hEq
  apply hMJD
  linarith

end Verif.SolidEarth
