import Verif.Model.Longitudes
import Verif.Model.Astro
import Verif.Model.Celestial
import Verif.Props.Arguments
import Verif.Lemmas.Angle
import Mathlib.Tactic.NormNum
import Mathlib.Tactic.Linarith
import Mathlib.Tactic.Positivity
/-!
C97: the formulas of the library for the same astronomical angle agree with each other.
-/
namespace Verif.Longitudes
open Verif Real Verif.Spec.Angle Verif.Math Verif.Astro Verif.Sky

/-! ### Polynomials -/

theorem poly3 (a b c d t : ℝ) : polynomialSum [a, b, c, d] t = a + b * t + c * t ^ 2 + d * t ^ 3 := by
  simp [polynomialSum]; ring

theorem poly4 (a b c d e t : ℝ) :
    polynomialSum [a, b, c, d, e] t = a + b * t + c * t ^ 2 + d * t ^ 3 + e * t ^ 4 := by
  simp [polynomialSum]; ring

theorem poly2 (a b c t : ℝ) : polynomialSum [a, b, c] t = a + b * t + c * t ^ 2 := by
  simp [polynomialSum]; ring

theorem small (a b c d e t : ℝ) (ht : |t| ≤ 1) :
    |a + b * t + c * t ^ 2 + d * t ^ 3 + e * t ^ 4| ≤ |a| + |b| + |c| + |d| + |e| := by
  have p : ∀ (x : ℝ) (n : ℕ), |x * t ^ n| ≤ |x| := by
    intro x n
    rw [abs_mul, abs_pow]
    exact mul_le_of_le_one_right (abs_nonneg _) (pow_le_one₀ (abs_nonneg _) ht)
  have p1 : |b * t| ≤ |b| := by simpa using p b 1
  calc _ ≤ |a + b * t + c * t ^ 2 + d * t ^ 3| + |e * t ^ 4| := abs_add_le _ _
    _ ≤ |a + b * t + c * t ^ 2| + |d * t ^ 3| + |e * t ^ 4| := by gcongr; exact abs_add_le _ _
    _ ≤ |a + b * t| + |c * t ^ 2| + |d * t ^ 3| + |e * t ^ 4| := by gcongr; exact abs_add_le _ _
    _ ≤ |a| + |b * t| + |c * t ^ 2| + |d * t ^ 3| + |e * t ^ 4| := by gcongr; exact abs_add_le _ _
    _ ≤ _ := add_le_add (add_le_add (add_le_add (add_le_add le_rfl p1) (p c 2)) (p d 3)) (p e 4)

/-- A difference of formulas that is a polynomial with small coefficients. -/
theorem near {ε x y : ℝ} (k : ℤ) (c0 c1 c2 c3 c4 t : ℝ) (ht : |t| ≤ 1)
    (e : x - y - k * 360 = c0 + c1 * t + c2 * t ^ 2 + c3 * t ^ 3 + c4 * t ^ 4)
    (h : |c0| + |c1| + |c2| + |c3| + |c4| ≤ ε) : Within 360 ε x y :=
  ⟨k, by rw [e]; exact (small _ _ _ _ _ _ ht).trans h⟩

/-- Centuries since 2000. -/
theorem century {MJD : ℝ} (h : |MJD - 51544.5| ≤ 36525) : |(MJD - 51544.5) / 36525| ≤ 1 := by
  rw [abs_div, abs_of_pos (by norm_num : (0 : ℝ) < 36525)]
  exact (div_le_one (by norm_num)).2 h

/-! ### The longitudes -/

/-- The formulas `MEEUS` and `ASTRO5` of `mean_longitudes` agree to 0.0004 degrees for two centuries. -/
theorem C97_meeus (MJD : ℝ) (h : |MJD - 51544.5| ≤ 36525) :
    Within 360 0.0004 (meanLongitudes .meeus MJD).s (meanLongitudes .astro5 MJD).s ∧
      Within 360 0.0004 (meanLongitudes .meeus MJD).h (meanLongitudes .astro5 MJD).h ∧
      Within 360 0.0004 (meanLongitudes .meeus MJD).p (meanLongitudes .astro5 MJD).p ∧
      Within 360 0.0004 (meanLongitudes .meeus MJD).n (meanLongitudes .astro5 MJD).n ∧
      (meanLongitudes .meeus MJD).pp = (meanLongitudes .astro5 MJD).pp := by
  have ht := century h
  have hd : MJD - 51544.5 = 36525 * ((MJD - 51544.5) / 36525) := by ring
  simp only [meanLongitudes, rawLongitudes, List.zipWith_cons_cons, List.zipWith_nil_right]
  generalize (MJD - 51544.5) / 36525 = T at ht hd
  rw [hd]
  refine ⟨Within.normalize (by norm_num) ?_, Within.normalize (by norm_num) ?_, Within.normalize (by norm_num) ?_,
    Within.normalize (by norm_num) ?_, by ring⟩
  · rw [poly4, poly4]
    refine near 0 (218.3164591 - 218.3164477) (13.17639647754579 * 36525 - 481267.88123421)
      (-9.9454632e-13 * 36525 ^ 2 + 1.5786e-3) (3.8086292e-20 * 36525 ^ 3 - 1.855835e-6)
      (-8.6184958e-27 * 36525 ^ 4 + 1.53388e-8) T ht ?_ ?_
    · ring
    · norm_num [abs_le, abs_of_pos, abs_of_neg]
  · rw [poly2, poly4]
    refine near 1 (280.46645 - (218.3164477 - 297.8501921) - 360) (0.985647360164271 * 36525 - (481267.88123421 - 445267.1114034))
      (2.2727347e-13 * 36525 ^ 2 - (-1.5786e-3 + 1.8819e-3)) (-(1.855835e-6 - 1.83195e-6))
      (-(-1.53388e-8 + 8.8445e-9)) T ht ?_ ?_
    · push_cast; ring
    · norm_num [abs_le, abs_of_pos, abs_of_neg]
  · rw [poly4, poly3]
    refine near 0 (83.3532430 - 83.3532465) (0.11140352391786447 * 36525 - 4069.0137287)
      (-7.7385418e-12 * 36525 ^ 2 + 1.032e-2) (-2.5636086e-19 * 36525 ^ 3 + 1.249172e-5)
      (2.95738836e-26 * 36525 ^ 4) T ht ?_ ?_
    · ring
    · norm_num [abs_le, abs_of_pos, abs_of_neg]
  · rw [poly4, poly3]
    refine near 0 (125.0445550 - 125.04452) (-0.052953762762491446 * 36525 + 1934.136261)
      (1.55628359e-12 * 36525 ^ 2 - 2.0708e-3) (4.390675353e-20 * 36525 ^ 3 - 2.22222e-6)
      (-9.26940435e-27 * 36525 ^ 4) T ht ?_ ?_
    · ring
    · norm_num [abs_le, abs_of_pos, abs_of_neg]

/-- The formulas of Cartwright agree with them to 0.01 degrees, for the years 1990 to 2010 that they were made for. -/
theorem C97_cartwright (MJD : ℝ) (h : |MJD - 51544.5| ≤ 3652.5) :
    Within 360 0.01 (meanLongitudes .cartwright MJD).s (meanLongitudes .astro5 MJD).s ∧
      Within 360 0.001 (meanLongitudes .cartwright MJD).h (meanLongitudes .astro5 MJD).h ∧
      Within 360 0.001 (meanLongitudes .cartwright MJD).p (meanLongitudes .astro5 MJD).p ∧
      Within 360 0.001 (meanLongitudes .cartwright MJD).n (meanLongitudes .astro5 MJD).n := by
  have ht : |(MJD - 51544.5) / 3652.5| ≤ 1 := by
    rw [abs_div, abs_of_pos (by norm_num : (0 : ℝ) < 3652.5)]
    exact (div_le_one (by norm_num)).2 h
  have hd : (MJD - 51544.5) / 36525 = (MJD - 51544.5) / 3652.5 / 10 := by ring
  have hc : MJD - 51544.4993 = 3652.5 * ((MJD - 51544.5) / 3652.5) + 0.0007 := by ring
  simp only [meanLongitudes, rawLongitudes, List.zipWith_cons_cons, List.zipWith_nil_right]
  rw [hd, hc]
  generalize (MJD - 51544.5) / 3652.5 = T at ht
  refine ⟨Within.normalize (by norm_num) ?_, Within.normalize (by norm_num) ?_, Within.normalize (by norm_num) ?_,
    Within.normalize (by norm_num) ?_⟩
  · rw [poly4]
    refine near 0 (218.3164 + 13.17639648 * 0.0007 - 218.3164477) (13.17639648 * 3652.5 - 481267.88123421 / 10)
      (1.5786e-3 / 100) (-1.855835e-6 / 1000) (1.53388e-8 / 10000) T ht ?_ ?_
    · ring
    · norm_num [abs_le, abs_of_pos, abs_of_neg]
  · rw [poly4]
    refine near 1 (280.4661 + 0.98564736 * 0.0007 - (218.3164477 - 297.8501921) - 360)
      (0.98564736 * 3652.5 - (481267.88123421 - 445267.1114034) / 10)
      (-(-1.5786e-3 + 1.8819e-3) / 100) (-(1.855835e-6 - 1.83195e-6) / 1000)
      (-(-1.53388e-8 + 8.8445e-9) / 10000) T ht ?_ ?_
    · push_cast; ring
    · norm_num [abs_le, abs_of_pos, abs_of_neg]
  · rw [poly3]
    refine near 0 (83.3535 + 0.11140353 * 0.0007 - 83.3532465) (0.11140353 * 3652.5 - 4069.0137287 / 10)
      (1.032e-2 / 100) (1.249172e-5 / 1000) 0 T ht ?_ ?_
    · ring
    · norm_num [abs_le, abs_of_pos, abs_of_neg]
  · rw [poly3]
    refine near 0 (125.0445 - 0.05295377 * 0.0007 - 125.04452) (-0.05295377 * 3652.5 + 1934.136261 / 10)
      (-2.0708e-3 / 100) (-2.22222e-6 / 1000) 0 T ht ?_ ?_
    · ring
    · norm_num [abs_le, abs_of_pos, abs_of_neg]

/-- Not so the solar perigee: in those years it differs by up to a third of a degree, and by 0.14 degrees at 2000, the
epoch that the program names. -/
theorem C97_perigee_false (MJD : ℝ) (h : |MJD - 51544.5| ≤ 3652.5) :
    |(meanLongitudes .astro5 MJD).pp - (meanLongitudes .cartwright MJD).pp| ≤ 0.312 ∧
      (51544.5 ≤ MJD → 0.13 < (meanLongitudes .astro5 MJD).pp - (meanLongitudes .cartwright MJD).pp) := by
  simp only [meanLongitudes, rawLongitudes]
  rw [abs_le] at h ⊢
  obtain ⟨h1, h2⟩ := h
  refine ⟨⟨?_, ?_⟩, fun h3 => ?_⟩ <;> norm_num at * <;> linarith

/-! ### Doodson's angles -/

/-- The model of all keywords extends that of the defaults. -/
theorem doodson_default (st MJD : ℝ) : doodsonArguments false true st MJD = SolidEarth.doodsonArguments MJD := by
  simp [doodsonArguments, SolidEarth.doodsonArguments, rawDoodson, SolidEarth.rawDoodson]

/-- What `doodson_arguments` gives for sun, perigee, node and solar perigee is what `mean_longitudes` gives, for two
centuries, whatever its keywords. -/
theorem C97_doodson (equinox correct : Bool) (st MJD : ℝ) (h : |MJD - 51544.5| ≤ 36525) :
    Within (2 * π) (π / 180 * 0.0003) (doodsonArguments equinox correct st MJD).h
        (π / 180 * (meanLongitudes .astro5 MJD).h) ∧
      Within (2 * π) (π / 180 * 0.0003) (doodsonArguments equinox correct st MJD).p
        (π / 180 * (meanLongitudes .astro5 MJD).p) ∧
      Within (2 * π) (π / 180 * 0.0003) (doodsonArguments equinox correct st MJD).np
        (π / 180 * -(meanLongitudes .astro5 MJD).n) ∧
      Within (2 * π) (π / 180 * 0.0034) (doodsonArguments equinox correct st MJD).ps
        (π / 180 * (meanLongitudes .astro5 MJD).pp) := by
  have ht := century h
  simp only [meanLongitudes, rawLongitudes, doodsonArguments, rawDoodson, List.zipWith_cons_cons,
    List.zipWith_nil_right]
  generalize (MJD - 51544.5) / 36525 = T at ht
  refine ⟨(Within.normalize (by norm_num) ?_).radians, (Within.normalize (by norm_num) ?_).radians,
    Within.radians ?_, Within.radians ?_⟩
  · rw [poly4, poly4]
    refine near 1 (280.46645 - (218.3164477 - 297.8501921) - 360)
      (36000.7697489 - (481267.88123421 - 445267.1114034))
      (3.0322222e-4 - (-1.5786e-3 + 1.8819e-3)) (2.0e-8 - (1.855835e-6 - 1.83195e-6))
      (-6.54e-9 - (-1.53388e-8 + 8.8445e-9)) T ht ?_ ?_
    · push_cast; ring
    · norm_num [abs_le, abs_of_pos, abs_of_neg]
  · rw [poly4, poly3]
    refine near 0 0 0 (-1.032172222e-2 + 1.032e-2) (-1.24991e-5 + 1.249172e-5) 5.263e-8 T ht ?_ ?_
    · ring
    · norm_num [abs_le, abs_of_pos, abs_of_neg]
  · have hn : ∀ x : ℝ, Within 360 0 (-normalizeAngle x 360) (-x) := fun x => by
      have := Within.sub (within_normal 0 360 (by norm_num)) (within_normal x 360 (by norm_num))
      have z : normalizeAngle 0 360 = 0 := by simp [normalizeAngle, Num.fmod]
      rw [z] at this
      simpa using this
    have key : ∀ x y : ℝ, Within 360 0.0003 x (-y) →
        Within 360 0.0003 (normalizeAngle x 360) (-normalizeAngle y 360) := fun x y hxy => by
      have := ((within_normal x 360 (by norm_num)).trans hxy).trans (hn y).symm
      exact this.le (by norm_num)
    refine key _ _ ?_
    rw [poly4, poly3]
    refine near 1 (234.95544499 + 125.04452 - 360) (1934.13626197 - 1934.136261) (-2.07561111e-3 + 2.0708e-3)
      (-2.13944e-6 + 2.22222e-6) 1.65e-8 T ht ?_ ?_
    · push_cast; ring
    · norm_num [abs_le, abs_of_pos, abs_of_neg]
  · refine ((within_normal _ 360 (by norm_num)).trans (ε := 0) (δ := 0.0034) ?_).le (by norm_num)
    rw [poly4]
    refine near 0 (282.93734098 - 282.94) (1.71945766667 - 1.7192) 4.5688889e-4 (-1.778e-8) (-3.34e-9) T ht ?_ ?_
    · ring
    · norm_num [abs_le, abs_of_pos, abs_of_neg]

/-- Without the correction the longitude of the moon is the same. -/
theorem C97_moon (equinox : Bool) (st MJD : ℝ) :
    (doodsonArguments equinox false st MJD).s = π / 180 * (meanLongitudes .astro5 MJD).s := by
  simp [doodsonArguments, rawDoodson, meanLongitudes, rawLongitudes]

/-- With the correction, which is the default, it is not: the difference grows by almost 1.4 degrees in a century. -/
theorem C97_moon_false (equinox : Bool) (st MJD : ℝ) (h0 : 51544.5 < MJD) (h1 : MJD ≤ 51544.5 + 36525) :
    ¬ Within (2 * π) (π / 180 * (1.39 * ((MJD - 51544.5) / 36525))) (doodsonArguments equinox true st MJD).s
        (π / 180 * (meanLongitudes .astro5 MJD).s) := by
  have t0 : 0 < (MJD - 51544.5) / 36525 := div_pos (by linarith) (by norm_num)
  have t1 : (MJD - 51544.5) / 36525 ≤ 1 := (div_le_one (by norm_num)).2 (by linarith)
  simp only [doodsonArguments, rawDoodson, meanLongitudes, rawLongitudes, if_true]
  generalize (MJD - 51544.5) / 36525 = T at t0 t1
  generalize polynomialSum [218.3164477, 481267.88123421, -1.5786e-3, 1.855835e-6, -1.53388e-8] T = S
  rw [poly4]
  set PR := (0 : ℝ) + 1.396971278 * T + 3.08889e-4 * T ^ 2 + 2.1e-8 * T ^ 3 + 7.0e-9 * T ^ 4 with hP
  have p2 : 0 ≤ T ^ 2 ∧ T ^ 2 ≤ T := ⟨by positivity, by nlinarith⟩
  have p3 : 0 ≤ T ^ 3 ∧ T ^ 3 ≤ T := ⟨by positivity, by nlinarith [p2.1, p2.2]⟩
  have p4 : 0 ≤ T ^ 4 ∧ T ^ 4 ≤ T := ⟨by positivity, by nlinarith [p2.1, p2.2, p3.1, p3.2, sq_nonneg T]⟩
  have lo : 1.39 * T < PR := by rw [hP]; norm_num; nlinarith [p2.1, p3.1, p4.1]
  have hi : PR ≤ 1.4 * T := by rw [hP]; norm_num; nlinarith [p2.2, p3.2, p4.2]
  obtain ⟨m, hm⟩ := normal (S + PR) 360 (by norm_num)
  obtain ⟨n, hn⟩ := normal S 360 (by norm_num)
  rintro ⟨k, hk⟩
  rw [hm, hn] at hk
  have e : π / 180 * (S + PR - m * 360) - π / 180 * (S - n * 360) - k * (2 * π) =
      π / 180 * (PR + 360 * ((n - m - k : ℤ) : ℝ)) := by push_cast; ring
  rw [e, abs_mul, abs_of_pos (by positivity : (0 : ℝ) < π / 180)] at hk
  have hk := le_of_mul_le_mul_left hk (by positivity : (0 : ℝ) < π / 180)
  rw [abs_le] at hk
  obtain ⟨k1, k2⟩ := hk
  rcases lt_trichotomy (n - m - k) 0 with hz | hz | hz
  · have : ((n - m - k : ℤ) : ℝ) ≤ -1 := by exact_mod_cast Int.le_sub_one_of_lt hz
    nlinarith
  · rw [hz] at k2
    norm_num at k2
    linarith
  · have : (1 : ℝ) ≤ ((n - m - k : ℤ) : ℝ) := by exact_mod_cast hz
    nlinarith

/-- Mean lunar time from the hour is that of the tidal arguments (`15*hour - S + H`); from sidereal time it is the hour
angle of the mean moon. -/
theorem C97_tau (correct : Bool) (st MJD : ℝ) (h : |MJD - 51544.5| ≤ 36525) :
    Within (2 * π) (π / 180 * 0.006) (doodsonArguments false correct st MJD).tau
        (π / 180 * (15 * (24 * Num.fmod MJD 1) - (meanLongitudes .astro5 MJD).s + (meanLongitudes .astro5 MJD).h)) ∧
      Within (2 * π) 0 (doodsonArguments true correct st MJD).tau
        (2 * π * st + π - π / 180 * (meanLongitudes .astro5 MJD).s) := by
  have ht := century h
  simp only [meanLongitudes, rawLongitudes, doodsonArguments, rawDoodson, List.zipWith_cons_cons,
    List.zipWith_nil_right, if_true, Bool.false_eq_true, if_false]
  generalize (MJD - 51544.5) / 36525 = T at ht
  constructor
  · refine Within.radians ?_
    refine ((within_normal _ 360 (by norm_num)).trans (ε := 0) (δ := 0 + 0 + (0.00595 + 0)) ?_).le (by norm_num)
    refine Within.add (Within.sub ⟨0, ?_⟩ (Within.symm (within_normal _ _ (by norm_num))))
      (Within.trans ?_ (Within.symm (within_normal _ _ (by norm_num))))
    · rw [show Num.fmod MJD 1 * 24 * 15 - 15 * (24 * Num.fmod MJD 1) - ((0 : ℤ) : ℝ) * 360 = 0 by push_cast; ring,
        abs_zero]
    · rw [poly3, poly4]
      refine near 1 (280.4606184 - (218.3164477 - 297.8501921) - 360)
        (36000.7700536 - (481267.88123421 - 445267.1114034))
        (3.8793e-4 - (-1.5786e-3 + 1.8819e-3)) (-2.58e-8 - (1.855835e-6 - 1.83195e-6))
        (-(-1.53388e-8 + 8.8445e-9)) T ht ?_ ?_
      · push_cast; ring
      · norm_num [abs_le, abs_of_pos, abs_of_neg]
  · have := (within_normal (360 * st + 180 -
      polynomialSum [218.3164477, 481267.88123421, -1.5786e-3, 1.855835e-6, -1.53388e-8] T) 360
      (by norm_num)).trans (Within.sub (⟨0, by simp⟩ : Within 360 0 (360 * st + 180) (360 * st + 180))
        (within_normal (polynomialSum [218.3164477, 481267.88123421, -1.5786e-3, 1.855835e-6, -1.53388e-8] T) 360
          (by norm_num)).symm)
    have := this.radians
    norm_num at this ⊢
    convert this using 1
    ring

/-! ### Delaunay's angles -/

/-- Angles in seconds of arc, reduced and converted to radians. -/
theorem arcseconds {ε x y : ℝ} (h : Within 360 ε (x / 3600) y) :
    Within (2 * π) (π / 180 * ε) (π / 648000 * normalizeAngle x 1296000) (π / 180 * y) := by
  have a := (within_normal x 1296000 (by norm_num)).mul (π / 648000) (by positivity)
  rw [show π / 648000 * 1296000 = 2 * π by ring, show π / 648000 * x = π / 180 * (x / 3600) by ring] at a
  exact (a.trans h.radians).le (by simp)

/-- The mean longitudes with the whole turns that they are reduced by. -/
theorem reduced (MJD : ℝ) : Within 360 0 (rawLongitudes .astro5 MJD).s (meanLongitudes .astro5 MJD).s ∧
    Within 360 0 (rawLongitudes .astro5 MJD).h (meanLongitudes .astro5 MJD).h ∧
    Within 360 0 (rawLongitudes .astro5 MJD).p (meanLongitudes .astro5 MJD).p ∧
    Within 360 0 (rawLongitudes .astro5 MJD).n (meanLongitudes .astro5 MJD).n :=
  ⟨(within_normal _ _ (by norm_num)).symm, (within_normal _ _ (by norm_num)).symm,
    (within_normal _ _ (by norm_num)).symm, (within_normal _ _ (by norm_num)).symm⟩

/-- The angles of the deprecated function, in its order: moon, sun, perigee, mean lunar time, node and solar perigee.
The first is the corrected longitude, which is not the mean longitude after 2000. -/
theorem C97_phase_angles (st MJD : ℝ) (h : |MJD - 51544.5| ≤ 36525) :
    let L := meanLongitudes .astro5 MJD
    ∃ s h' p tau np ps, phaseAngles st MJD = [s, h', p, tau, np, ps] ∧
      (51544.5 < MJD → ¬ Within (2 * π) (π / 180 * (1.39 * ((MJD - 51544.5) / 36525))) s (π / 180 * L.s)) ∧
      Within (2 * π) (π / 180 * 0.0003) h' (π / 180 * L.h) ∧
      Within (2 * π) (π / 180 * 0.0003) p (π / 180 * L.p) ∧
      Within (2 * π) (π / 180 * 0.006) tau (π / 180 * (15 * (24 * Num.fmod MJD 1) - L.s + L.h)) ∧
      Within (2 * π) (π / 180 * 0.0003) np (π / 180 * -L.n) ∧
      Within (2 * π) (π / 180 * 0.0034) ps (π / 180 * L.pp) := by
  intro L
  obtain ⟨h1, h2, h3, h4⟩ := C97_doodson false true st MJD h
  refine ⟨_, _, _, _, _, _, rfl, fun h0 => ?_, h1, h2, (C97_tau true st MJD h).1, h3, h4⟩
  exact C97_moon_false false st MJD h0 (by linarith [(abs_le.1 h).2])

/-- What `delaunay_arguments` gives are the anomalies, the argument of latitude, the elongation and the node that follow
from the mean longitudes, for two centuries. -/
theorem C97_delaunay (MJD : ℝ) (h : |MJD - 51544.5| ≤ 36525) :
    ∃ l l' F D N, delaunayArguments MJD = [l, l', F, D, N] ∧
      Within (2 * π) (π / 180 * 0.0004) l
        (π / 180 * ((meanLongitudes .astro5 MJD).s - (meanLongitudes .astro5 MJD).p)) ∧
      Within (2 * π) (π / 180 * 0.0037) l'
        (π / 180 * ((meanLongitudes .astro5 MJD).h - (meanLongitudes .astro5 MJD).pp)) ∧
      Within (2 * π) (π / 180 * 0.0004) F
        (π / 180 * ((meanLongitudes .astro5 MJD).s - (meanLongitudes .astro5 MJD).n)) ∧
      Within (2 * π) (π / 180 * 0.0002) D
        (π / 180 * ((meanLongitudes .astro5 MJD).s - (meanLongitudes .astro5 MJD).h)) ∧
      Within (2 * π) (π / 180 * 0.0001) N (π / 180 * (meanLongitudes .astro5 MJD).n) := by
  have ht := century h
  obtain ⟨rs, rh, rp, rn⟩ := reduced MJD
  have pp : (meanLongitudes .astro5 MJD).pp = (rawLongitudes .astro5 MJD).pp := rfl
  rw [pp]
  refine ⟨_, _, _, _, _, rfl, arcseconds ?_, arcseconds ?_, arcseconds ?_, arcseconds ?_, arcseconds ?_⟩
  · refine (Within.trans (ε := 0.0004) ?_ (rs.sub rp)).le (by norm_num)
    simp only [rawLongitudes]
    generalize (MJD - 51544.5) / 36525 = T at ht
    rw [poly4, poly4, poly3]
    refine near 0 (485868.249036 / 3600 - (218.3164477 - 83.3532465))
      (1717915923.2178 / 3600 - (481267.88123421 - 4069.0137287)) (31.8792 / 3600 - (-1.5786e-3 + 1.032e-2))
      (0.051635 / 3600 - (1.855835e-6 + 1.249172e-5)) (-2.447e-04 / 3600 + 1.53388e-8) T ht ?_ ?_
    · push_cast; ring
    · norm_num [abs_le, abs_of_pos, abs_of_neg]
  · refine (Within.trans (ε := 0.0037) ?_ (rh.sub Within.rfl')).le (by norm_num)
    simp only [rawLongitudes, List.zipWith_cons_cons, List.zipWith_nil_right]
    generalize (MJD - 51544.5) / 36525 = T at ht
    rw [poly4, poly4]
    refine near 2 (1287104.79305 / 3600 - (218.3164477 - 297.8501921 - 282.94) - 720)
      (129596581.0481 / 3600 - (481267.88123421 - 445267.1114034 - 1.7192)) (-0.5532 / 3600 - (-1.5786e-3 + 1.8819e-3))
      (1.36e-4 / 3600 - (1.855835e-6 - 1.83195e-6)) (-1.149e-05 / 3600 - (-1.53388e-8 + 8.8445e-9)) T ht ?_ ?_
    · push_cast; ring
    · norm_num [abs_le, abs_of_pos, abs_of_neg]
  · refine (Within.trans (ε := 0.0004) ?_ (rs.sub rn)).le (by norm_num)
    simp only [rawLongitudes]
    generalize (MJD - 51544.5) / 36525 = T at ht
    rw [poly4, poly4, poly3]
    refine near 0 (335779.526232 / 3600 - (218.3164477 - 125.04452))
      (1739527262.8478 / 3600 - (481267.88123421 + 1934.136261)) (-12.7512 / 3600 - (-1.5786e-3 - 2.0708e-3))
      (-1.037e-3 / 3600 - (1.855835e-6 - 2.22222e-6)) (4.17e-6 / 3600 + 1.53388e-8) T ht ?_ ?_
    · push_cast; ring
    · norm_num [abs_le, abs_of_pos, abs_of_neg]
  · refine (Within.trans (ε := 0.0002) ?_ (rs.sub rh)).le (by norm_num)
    simp only [rawLongitudes, List.zipWith_cons_cons, List.zipWith_nil_right]
    generalize (MJD - 51544.5) / 36525 = T at ht
    rw [poly4, poly4, poly4]
    refine near 0 (1072260.70369 / 3600 - 297.8501921) (1602961601.2090 / 3600 - 445267.1114034)
      (-6.3706 / 3600 + 1.8819e-3) (6.593e-3 / 3600 - 1.83195e-6) (-3.169e-05 / 3600 + 8.8445e-9) T ht ?_ ?_
    · push_cast; ring
    · norm_num [abs_le, abs_of_pos, abs_of_neg]
  · refine (Within.trans (ε := 0.0001) ?_ rn).le (by norm_num)
    simp only [rawLongitudes]
    generalize (MJD - 51544.5) / 36525 = T at ht
    rw [poly4, poly3]
    refine near 0 (450160.398036 / 3600 - 125.04452) (-6962890.5431 / 3600 + 1934.136261) (7.4722 / 3600 - 2.0708e-3)
      (7.702e-3 / 3600 - 2.22222e-6) (-5.939e-05 / 3600) T ht ?_ ?_
    · push_cast; ring
    · norm_num [abs_le, abs_of_pos, abs_of_neg]

/-- The angles that the approximate ephemerides of the moon start from are those longitudes, and their anomalies are
those of `delaunay_arguments` to a hundredth of a degree. -/
theorem C97_ephemerides (MJD : ℝ) (h : |MJD - 51544.5| ≤ 36525) :
    let m := lunarMeans ((MJD - 51544.5) / 36525)
    let L := meanLongitudes .astro5 MJD
    Within (2 * π) 0 m.s (π / 180 * L.s) ∧ Within (2 * π) 0 m.D (π / 180 * (L.s - L.h)) ∧
      Within (2 * π) 0 m.F (π / 180 * (L.s - L.n)) ∧
      ∃ l l' F D N, delaunayArguments MJD = [l, l', F, D, N] ∧
        Within (2 * π) (π / 180 * 0.01) m.l l ∧ Within (2 * π) (π / 180 * 0.005) m.M l' := by
  intro m L
  have ht := century h
  obtain ⟨rs, rh, rp, rn⟩ := reduced MJD
  refine ⟨?_, ?_, ?_, _, _, _, _, _, rfl, Within.symm (arcseconds ?_), Within.symm (arcseconds ?_)⟩
  · have := rs.radians
    rwa [mul_zero] at this
  · have := (rs.sub rh).radians
    rw [add_zero, mul_zero] at this
    convert this using 1
    simp only [m, lunarMeans, rawLongitudes, List.zipWith_cons_cons, List.zipWith_nil_right, deg2rad]
    rw [poly4, poly4, poly4]
    ring
  · have := (rs.sub rn).radians
    rw [add_zero, mul_zero] at this
    convert this using 1
    simp only [m, lunarMeans, rawLongitudes, deg2rad]
    ring
  · generalize (MJD - 51544.5) / 36525 = T at ht
    rw [poly4]
    refine near 0 (485868.249036 / 3600 - 134.96292) (1717915923.2178 / 3600 - 477198.86753) (31.8792 / 3600)
      (0.051635 / 3600) (-2.447e-04 / 3600) T ht ?_ ?_
    · push_cast; ring
    · norm_num [abs_le, abs_of_pos, abs_of_neg]
  · generalize (MJD - 51544.5) / 36525 = T at ht
    rw [poly4]
    refine near 0 (1287104.79305 / 3600 - 357.5256) (129596581.0481 / 3600 - 35999.049) (-0.5532 / 3600)
      (1.36e-4 / 3600) (-1.149e-05 / 3600) T ht ?_ ?_
    · push_cast; ring
    · norm_num [abs_le, abs_of_pos, abs_of_neg]

/-! ### Tidal arguments -/

theorem argument_row {corrections m1 : String} {deltat MJD : ℝ} {cs : List String}
    {a : List (ℝ × ℝ) × List ℝ} (h : arguments corrections m1 deltat MJD cs = .ok a) (i : ℕ) {c : String}
    (hi : cs[i]? = some c) :
    ∃ r, row corrections c = .ok r ∧ a.2[i]? = some (Astro.dot (fargs corrections deltat MJD) r) := by
  obtain ⟨rows, hr, e⟩ := arguments_ok h
  have hlen := pyMap_length hr
  have hlt : i < cs.length := (List.getElem?_eq_some_iff.1 hi).1
  obtain ⟨r, hir⟩ : ∃ r, rows[i]? = some r := ⟨rows[i], List.getElem?_eq_getElem (hlen ▸ hlt)⟩
  obtain ⟨c', hc', hc⟩ := pyMap_getElem hr i r hir
  cases hi.symm.trans hc'
  exact ⟨r, hc, by rw [e, List.getElem?_map, hir, Option.map_some]⟩

/-- Arguments with the longitudes of two kinds differ little. -/
theorem dots (r : List ℤ) (hr : r.length = 7) (co cf : String) (ho : otisType co = true) (hf : otisType cf = false)
    (deltat MJD : ℝ) (h : |MJD + deltat - 51544.5| ≤ 3652.5) :
    Within 360 (0.01 * |((r.getD 1 0 - r.getD 0 0 : ℤ) : ℝ)| + 0.001 * (|((r.getD 2 0 + r.getD 0 0 : ℤ) : ℝ)| +
      |((r.getD 3 0 : ℤ) : ℝ)| + |((r.getD 4 0 : ℤ) : ℝ)|) + 0.312 * |((r.getD 5 0 : ℤ) : ℝ)|)
      (Astro.dot (fargs co deltat MJD) r) (Astro.dot (fargs cf deltat MJD) r) := by
  obtain ⟨a, b, c, d, e, f, g, rfl⟩ : ∃ a b c d e f g, r = [a, b, c, d, e, f, g] := by
    match r, hr with
    | [a, b, c, d, e, f, g], _ => exact ⟨a, b, c, d, e, f, g, rfl⟩
  obtain ⟨hs, hh, hp, hn⟩ := C97_cartwright _ h
  have hq := (C97_perigee_false _ h).1
  have hpp : Within 360 0.312 (meanLongitudes .cartwright (MJD + deltat)).pp
      (meanLongitudes .astro5 (MJD + deltat)).pp := ⟨0, by rw [← abs_neg]; convert hq using 2; push_cast; ring⟩
  simp only [fargs, modeOf, ho, hf, if_true, Bool.false_eq_true, if_false, Astro.dot, List.zipWith_cons_cons,
    List.zipWith_nil_right, List.sum_cons, List.sum_nil, List.getD_cons_zero, List.getD_cons_succ]
  have key := ((((hs.mulInt (b - a)).add (hh.mulInt (c + a))).add (hp.mulInt d)).add (hn.mulInt e)).add (hpp.mulInt f)
  have fix : Within 360 0 (15 * (24 * Num.fmod MJD 1) * a + 90 * g) (15 * (24 * Num.fmod MJD 1) * a + 90 * g) :=
    Within.rfl'
  have key := key.add fix
  obtain ⟨k, hk⟩ := key
  refine ⟨k, ?_⟩
  push_cast at hk ⊢
  refine le_trans (le_of_eq ?_) (hk.trans (le_of_eq ?_))
  · congr 1; ring
  · ring

theorem small_rows : ∀ q ∈ Coef.table, q.2.getD 5 0 = 0 →
    10 * (q.2.getD 1 0 - q.2.getD 0 0).natAbs + (q.2.getD 2 0 + q.2.getD 0 0).natAbs + (q.2.getD 3 0).natAbs +
      (q.2.getD 4 0).natAbs ≤ 154 := by decide +kernel

/-- The two kinds of corrections give the same argument (to 0.16 degrees, in the years from 1990 to 2010) for every
constituent without solar perigee except S1. -/
theorem C97_phase (co cf m1 m1' : String) (ho : otisType co = true) (hf : otisType cf = false) (deltat MJD : ℝ)
    (h : |MJD + deltat - 51544.5| ≤ 3652.5) (cs : List String) {a b : List (ℝ × ℝ) × List ℝ}
    (ha : arguments co m1 deltat MJD cs = .ok a) (hb : arguments cf m1' deltat MJD cs = .ok b)
    (i : ℕ) {c : String} (hi : cs[i]? = some c) (hc : c ≠ "s1")
    (hp : ∀ r, Coef.table.lookup c = some r → r.getD 5 0 = 0) :
    ∃ x y, a.2[i]? = some x ∧ b.2[i]? = some y ∧ Within 360 0.16 x y := by
  obtain ⟨r, hr, hx⟩ := argument_row ha i hi
  obtain ⟨r', hr', hy⟩ := argument_row hb i hi
  have hl := row_length hr
  have t : Coef.table.lookup c = some r := by
    unfold row Coef.lookup at hr
    rw [if_neg (by simp [hc])] at hr
    split at hr
    · rename_i q hq
      cases hr
      exact hq
    · cases hr
  have t' : r' = r := by
    unfold row Coef.lookup at hr'
    rw [if_neg (by simp [hc]), t] at hr'
    cases hr'
    rfl
  subst t'
  refine ⟨_, _, hx, hy, (dots r' hl co cf ho hf deltat MJD h).le ?_⟩
  have h5 := hp _ t
  have hm := small_rows _ (Coef.lookup_mem _ _ _ t) h5
  dsimp only at hm
  rw [h5]
  have hm : (10 * ((r'.getD 1 0 - r'.getD 0 0).natAbs : ℝ) + ((r'.getD 2 0 + r'.getD 0 0).natAbs : ℝ) +
      ((r'.getD 3 0).natAbs : ℝ) + ((r'.getD 4 0).natAbs : ℝ)) ≤ 154 := by exact_mod_cast hm
  simp only [Nat.cast_natAbs, Int.cast_abs] at hm
  push_cast at hm ⊢
  rw [abs_zero, mul_zero, add_zero]
  linarith

/-- The arguments of S1 differ by a right angle. -/
theorem C97_s1 (co cf m1 m1' : String) (ho : otisType co = true) (hf : otisType cf = false) (deltat MJD : ℝ)
    {a b : List (ℝ × ℝ) × List ℝ} (ha : arguments co m1 deltat MJD ["s1"] = .ok a)
    (hb : arguments cf m1' deltat MJD ["s1"] = .ok b) :
    ∃ x y, a.2 = [x] ∧ b.2 = [y] ∧ y = x + 90 := by
  have e : Coef.table.lookup "s1" = some [1, 1, -1, 0, 0, 0, 2] := by decide +kernel
  obtain ⟨rows, hr, e1⟩ := arguments_ok ha
  obtain ⟨rows', hr', e2⟩ := arguments_ok hb
  have r1 : row co "s1" = .ok [1, 1, -1, 0, 0, 0, 1] := by simp [row, Coef.lookup, ho]
  have r2 : row cf "s1" = .ok [1, 1, -1, 0, 0, 0, 2] := by simp [row, Coef.lookup, hf, e]
  simp only [coefficients, pyMap, r1, Except.ok.injEq] at hr
  simp only [coefficients, pyMap, r2, Except.ok.injEq] at hr'
  subst hr hr'
  refine ⟨_, _, e1, e2, ?_⟩
  simp only [fargs, Astro.dot, List.zipWith_cons_cons, List.zipWith_nil_right, List.sum_cons, List.sum_nil]
  push_cast
  ring

/-- The two kinds of corrections, a constituent and a time (2 January 2005). -/
example : otisType "OTIS" = true ∧ otisType "GOT" = false ∧ |(53372 : ℝ) + 0 - 51544.5| ≤ 3652.5 ∧
    (∃ a, arguments "OTIS" "" 0 53372 ["m2"] = .ok a) ∧ (∃ b, arguments "GOT" "" 0 53372 ["m2"] = .ok b) ∧
    ∀ r, Coef.table.lookup "m2" = some r → r.getD 5 0 = 0 := by
  have e : Coef.table.lookup "m2" = some [2, 0, 0, 0, 0, 0, 0] := by decide +kernel
  refine ⟨by decide, by decide, by norm_num [abs_le], (C53_defined _ _ _ _ _).2 ?_, (C53_defined _ _ _ _ _).2 ?_, ?_⟩
  · intro c hc
    rw [List.mem_singleton] at hc
    exact ⟨_, hc ▸ e⟩
  · intro c hc
    rw [List.mem_singleton] at hc
    exact ⟨_, hc ▸ e⟩
  · intro r hr
    rw [e] at hr
    cases hr
    rfl

end Verif.Longitudes
