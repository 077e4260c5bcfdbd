import Verif.Model.Celestial
import Verif.Model.Astro
import Verif.Props.Ephemerides
import Verif.Spec.Celestial
import Verif.Props.Rotations
import Verif.Lemmas.Num
import Mathlib.LinearAlgebra.Matrix.NonsingularInverse
/-!
C79: arguments of the motion of sun and moon, nutation, sidereal time and the rotation to terrestrial
coordinates.
-/
namespace Verif.Sky
open Verif Verif.Math Verif.Spec Real

/-! ## Arguments -/

theorem poly (a b c d e x : ℝ) : polynomialSum [a, b, c, d, e] x = a + b * x + c * x ^ 2 + d * x ^ 3 + e * x ^ 4 := by
  simp only [polynomialSum, List.zipIdx_cons, List.zipIdx_nil, List.map_cons, List.map_nil, List.sum_cons,
    List.sum_nil]
  ring

/-- One argument, computed in arcseconds or as arcseconds and turns. -/
theorem same_argument (a b b' c d e k : ℝ) (hk : b' = b + 1296000 * k) (T : ℝ) :
    Num.fmod (asec2rad * polynomialSum [a, b, c, d, e] T + 2 * π * Num.fmod (k * T) 1) (2 * π)
      = π / 648000 * normalizeAngle (polynomialSum [a, b', c, d, e] T) 1296000 := by
  have hp := pi_pos
  unfold normalizeAngle
  have l0 := Num.fmod_nonneg (x := polynomialSum [a, b', c, d, e] T) (show (0 : ℝ) < 1296000 by norm_num)
  have l1 := Num.fmod_lt (x := polynomialSum [a, b', c, d, e] T) (show (0 : ℝ) < 1296000 by norm_num)
  refine Num.fmod_unique (by positivity) (by positivity) ?_
    (-⌊k * T / 1⌋ + ⌊polynomialSum [a, b', c, d, e] T / 1296000⌋) ?_
  · calc π / 648000 * Num.fmod (polynomialSum [a, b', c, d, e] T) 1296000
        < π / 648000 * 1296000 := mul_lt_mul_of_pos_left l1 (by positivity)
      _ = 2 * π := by ring
  · unfold Num.fmod asec2rad
    rw [poly, poly, hk]
    push_cast
    ring

/-- **C79**: the arguments of sun and moon in the equation of the equinoxes are the Delaunay arguments of
the same time. -/
theorem C79_arguments (T : ℝ) :
    (lunisolarArguments T).map (fun a => Num.fmod a (2 * π)) = delaunayArguments (T * 36525 + 51544.5) := by
  have e : (T * 36525 + 51544.5 - 51544.5) / 36525 = T := by ring
  simp only [lunisolarArguments, delaunayArguments, e, List.map_cons, List.map_nil]
  rw [same_argument _ _ 1717915923.2178 _ _ _ 1325 (by norm_num),
    same_argument _ _ 129596581.0481 _ _ _ 99 (by norm_num),
    same_argument _ _ 1739527262.8478 _ _ _ 1342 (by norm_num),
    same_argument _ _ 1602961601.2090 _ _ _ 1236 (by norm_num),
    same_argument _ _ (-6962890.5431) _ _ _ (-5) (by norm_num)]

/-- **C79**: the Delaunay arguments are angles from zero up to a turn. -/
theorem C79_turn (MJD : ℝ) : ∀ a ∈ delaunayArguments MJD, 0 ≤ a ∧ a < 2 * π := by
  have hp := pi_pos
  have key : ∀ x : ℝ, 0 ≤ π / 648000 * normalizeAngle x 1296000 ∧
      π / 648000 * normalizeAngle x 1296000 < 2 * π := by
    intro x
    have l0 := Num.fmod_nonneg (x := x) (show (0 : ℝ) < 1296000 by norm_num)
    have l1 := Num.fmod_lt (x := x) (show (0 : ℝ) < 1296000 by norm_num)
    refine ⟨by unfold normalizeAngle; positivity, ?_⟩
    calc π / 648000 * normalizeAngle x 1296000 < π / 648000 * 1296000 :=
          mul_lt_mul_of_pos_left l1 (by positivity)
      _ = 2 * π := by ring
  intro a ha
  simp only [delaunayArguments, List.mem_cons, List.not_mem_nil, or_false] at ha
  rcases ha with rfl | rfl | rfl | rfl | rfl <;> exact key _

/-- Two angles (radians) agree within some arcseconds, up to whole turns. -/
def Near (n a b : ℝ) : Prop := ∃ k : ℤ, |a - b - 2 * π * k| ≤ n * second

theorem small (a b c d e x : ℝ) (hx : |x| ≤ 1) :
    |a + b * x + c * x ^ 2 + d * x ^ 3 + e * x ^ 4| ≤ |a| + |b| + |c| + |d| + |e| := by
  have p : ∀ (k : ℝ) (n : ℕ), |k * x ^ n| ≤ |k| := by
    intro k n
    rw [abs_mul, abs_pow]
    have := pow_le_one₀ (n := n) (abs_nonneg x) hx
    nlinarith [abs_nonneg k]
  have h1 := p b 1
  rw [pow_one] at h1
  calc |a + b * x + c * x ^ 2 + d * x ^ 3 + e * x ^ 4|
      ≤ |a + b * x + c * x ^ 2 + d * x ^ 3| + |e * x ^ 4| := abs_add_le _ _
    _ ≤ |a + b * x + c * x ^ 2| + |d * x ^ 3| + |e * x ^ 4| := by gcongr; exact abs_add_le _ _
    _ ≤ |a + b * x| + |c * x ^ 2| + |d * x ^ 3| + |e * x ^ 4| := by gcongr; exact abs_add_le _ _
    _ ≤ |a| + |b * x| + |c * x ^ 2| + |d * x ^ 3| + |e * x ^ 4| := by gcongr; exact abs_add_le _ _
    _ ≤ _ := by linarith [p c 2, p d 3, p e 4]

/-- An argument in degrees against one in arcseconds. -/
theorem near_of {n a b c d e a' b' c' d' e' x k : ℝ} (hx : |x| ≤ 1)
    (h : |3600 * a' - a| + |3600 * b' - b| + |3600 * c' - c| + |3600 * d' - d| + |3600 * e' - e| ≤ n)
    (hk : k = π / 180 * (a' + b' * x + c' * x ^ 2 + d' * x ^ 3 + e' * x ^ 4)) :
    Near n k (π / 648000 * normalizeAngle (polynomialSum [a, b, c, d, e] x) 1296000) := by
  refine ⟨⌊polynomialSum [a, b, c, d, e] x / 1296000⌋, ?_⟩
  have e1 : k - π / 648000 * normalizeAngle (polynomialSum [a, b, c, d, e] x) 1296000
      - 2 * π * ⌊polynomialSum [a, b, c, d, e] x / 1296000⌋
      = ((3600 * a' - a) + (3600 * b' - b) * x + (3600 * c' - c) * x ^ 2 + (3600 * d' - d) * x ^ 3
        + (3600 * e' - e) * x ^ 4) * second := by
    rw [hk]
    unfold normalizeAngle Num.fmod second
    generalize (⌊polynomialSum [a, b, c, d, e] x / 1296000⌋ : ℝ) = z
    rw [poly]
    ring
  rw [e1, abs_mul, abs_of_pos second_pos]
  exact mul_le_mul_of_nonneg_right ((small _ _ _ _ _ _ hx).trans h) second_pos.le

/-- **C78**: within a century of 2000 the mean arguments of the position of the moon agree with the
Delaunay arguments within 34 arcseconds. -/
theorem C78_means (T : ℝ) (hT : |T| ≤ 1) : List.Forall₂ (Near 34)
    [(lunarMeans T).l, (lunarMeans T).M, (lunarMeans T).F, (lunarMeans T).D,
      (lunarMeans T).s - (lunarMeans T).F] (delaunayArguments (T * 36525 + 51544.5)) := by
  have e : (T * 36525 + 51544.5 - 51544.5) / 36525 = T := by ring
  have p4 : ∀ a b c d x : ℝ, polynomialSum [a, b, c, d] x = a + b * x + c * x ^ 2 + d * x ^ 3 := by
    intro a b c d x
    simp only [polynomialSum, List.zipIdx_cons, List.zipIdx_nil, List.map_cons, List.map_nil, List.sum_cons,
      List.sum_nil]
    ring
  simp only [delaunayArguments, e]
  refine .cons ?_ (.cons ?_ (.cons ?_ (.cons ?_ (.cons ?_ .nil))))
  · exact near_of (a' := 134.96292) (b' := 477198.86753) (c' := 0) (d' := 0) (e' := 0) hT
      (by norm_num [abs_le, abs_of_nonneg, abs_of_neg]) (by simp only [lunarMeans, deg2rad]; ring)
  · exact near_of (a' := 357.5256) (b' := 35999.049) (c' := 0) (d' := 0) (e' := 0) hT
      (by norm_num [abs_le, abs_of_nonneg, abs_of_neg]) (by simp only [lunarMeans, deg2rad]; ring)
  · exact near_of (a' := 218.3164477 - 125.04452) (b' := 481267.88123421 + 1934.136261)
      (c' := -1.5786e-3 - 2.0708e-3) (d' := 1.855835e-6 - 2.22222e-6) (e' := -1.53388e-8) hT
      (by norm_num [abs_le, abs_of_nonneg, abs_of_neg])
      (by simp only [lunarMeans, deg2rad, poly, p4]; ring)
  · exact near_of (a' := 297.8501921) (b' := 445267.1114034) (c' := -1.8819e-3) (d' := 1.83195e-6)
      (e' := -8.8445e-9) hT (by norm_num [abs_le, abs_of_nonneg, abs_of_neg])
      (by simp only [lunarMeans, deg2rad, poly])
  · exact near_of (a' := 125.04452) (b' := -1934.136261) (c' := 2.0708e-3) (d' := 2.22222e-6) (e' := 0) hT
      (by norm_num [abs_le, abs_of_nonneg, abs_of_neg])
      (by simp only [lunarMeans, deg2rad, poly, p4]; ring)

theorem Near.turns {n a b a' : ℝ} (h : Near n a b) (k : ℤ) (e : a' = a + 2 * π * k) : Near n a' b := by
  obtain ⟨j, hj⟩ := h
  refine ⟨j + k, ?_⟩
  have : a' - b - 2 * π * ((j + k : ℤ) : ℝ) = a - b - 2 * π * j := by rw [e]; push_cast; ring
  rw [this]
  exact hj

theorem norm_turns (x : ℝ) : normalizeAngle x 360 = x - 360 * ⌊x / 360⌋ := rfl

theorem Near.sub {n x y b : ℝ} (h : Near n (π / 180 * (x - y)) b) :
    Near n (π / 180 * (normalizeAngle x 360 - normalizeAngle y 360)) b := by
  refine h.turns (-⌊x / 360⌋ + ⌊y / 360⌋) ?_
  rw [norm_turns, norm_turns]
  push_cast
  ring

theorem Near.sub' {n x y b : ℝ} (h : Near n (π / 180 * (x - y)) b) :
    Near n (π / 180 * (normalizeAngle x 360 - y)) b := by
  refine h.turns (-⌊x / 360⌋) ?_
  rw [norm_turns]
  push_cast
  ring

theorem Near.norm {n x b : ℝ} (h : Near n (π / 180 * x) b) : Near n (π / 180 * normalizeAngle x 360) b := by
  refine h.turns (-⌊x / 360⌋) ?_
  rw [norm_turns]
  push_cast
  ring

theorem poly4 (a b c d x : ℝ) : polynomialSum [a, b, c, d] x = a + b * x + c * x ^ 2 + d * x ^ 3 := by
  simp only [polynomialSum, List.zipIdx_cons, List.zipIdx_nil, List.map_cons, List.map_nil, List.sum_cons,
    List.sum_nil]
  ring

/-- **C79**: within a century of 2000 the mean longitudes of the tidal arguments agree with the Delaunay
arguments: `s - p`, `h - pp`, `s - n`, `s - h` and `n` are the five of them within 70 arcseconds. -/
theorem C79_longitudes (T : ℝ) (hT : |T| ≤ 1) :
    let L := Astro.meanLongitudes .astro5 (T * 36525 + 51544.5)
    List.Forall₂ (Near 70)
      [π / 180 * (L.s - L.p), π / 180 * (L.h - L.pp), π / 180 * (L.s - L.n), π / 180 * (L.s - L.h),
        π / 180 * L.n]
      (delaunayArguments (T * 36525 + 51544.5)) := by
  intro L
  have e : (T * 36525 + 51544.5 - 51544.5) / 36525 = T := by ring
  simp only [delaunayArguments, e]
  refine .cons (Near.sub ?_) (.cons (Near.sub' ?_) (.cons (Near.sub ?_) (.cons (Near.sub ?_)
    (.cons (Near.norm ?_) .nil))))
  · exact near_of (a' := 218.3164477 - 83.3532465) (b' := 481267.88123421 - 4069.0137287)
      (c' := -1.5786e-3 + 1.032e-2) (d' := 1.855835e-6 + 1.249172e-5) (e' := -1.53388e-8) hT
      (by norm_num [abs_le, abs_of_nonneg, abs_of_neg])
      (by simp only [Astro.rawLongitudes, poly, poly4, e]; ring)
  · refine (near_of (a' := 218.3164477 - 297.8501921 - 282.94 + 720)
      (b' := 481267.88123421 - 445267.1114034 - 1.7192) (c' := -1.5786e-3 + 1.8819e-3)
      (d' := 1.855835e-6 - 1.83195e-6) (e' := -1.53388e-8 + 8.8445e-9) hT
      (by norm_num [abs_le, abs_of_nonneg, abs_of_neg]) rfl).turns (-2) ?_
    simp only [L, Astro.meanLongitudes, Astro.rawLongitudes, List.zipWith_cons_cons, List.zipWith_nil_left, poly,
      e]
    push_cast
    ring
  · exact near_of (a' := 218.3164477 - 125.04452) (b' := 481267.88123421 + 1934.136261)
      (c' := -1.5786e-3 - 2.0708e-3) (d' := 1.855835e-6 - 2.22222e-6) (e' := -1.53388e-8) hT
      (by norm_num [abs_le, abs_of_nonneg, abs_of_neg])
      (by simp only [Astro.rawLongitudes, poly, poly4, e]; ring)
  · exact near_of (a' := 297.8501921) (b' := 445267.1114034) (c' := -1.8819e-3) (d' := 1.83195e-6)
      (e' := -8.8445e-9) hT (by norm_num [abs_le, abs_of_nonneg, abs_of_neg])
      (by simp only [Astro.rawLongitudes, List.zipWith_cons_cons, List.zipWith_nil_left, poly, e]; ring)
  · exact near_of (a' := 125.04452) (b' := -1934.136261) (c' := 2.0708e-3) (d' := 2.22222e-6) (e' := 0) hT
      (by norm_num [abs_le, abs_of_nonneg, abs_of_neg])
      (by simp only [Astro.rawLongitudes, poly4, e]; ring)

/-- **C79**: within a century of 2000 the mean obliquity is 23.44 degrees up to 47 arcseconds. -/
theorem C79_obliquity (T : ℝ) (hT : |T| ≤ 1) :
    |meanObliquity (T * 36525 + 51544.5) - 84381.406 * second| ≤ 47 * second := by
  have e : (T * 36525 + 51544.5 - 51544.5) / 36525 = T := by ring
  have p6 : ∀ a b c d e f x : ℝ, polynomialSum [a, b, c, d, e, f] x
      = a + b * x + c * x ^ 2 + d * x ^ 3 + e * x ^ 4 + f * x ^ 5 := by
    intro a b c d e f x
    simp only [polynomialSum, List.zipIdx_cons, List.zipIdx_nil, List.map_cons, List.map_nil, List.sum_cons,
      List.sum_nil]
    ring
  have e1 : meanObliquity (T * 36525 + 51544.5) - 84381.406 * second
      = (0 + -46.836769 * T + -1.831e-4 * T ^ 2 + 2.00340e-4 * T ^ 3
        + (-5.76e-07 + -4.34e-08 * T) * T ^ 4) * second := by
    unfold meanObliquity second
    rw [e, p6]
    ring
  rw [e1, abs_mul, abs_of_pos second_pos]
  refine mul_le_mul_of_nonneg_right ((small _ _ _ _ _ _ hT).trans ?_) second_pos.le
  have : |(-5.76e-07 : ℝ) + -4.34e-08 * T| ≤ 1 / 1000 := by
    have := abs_le.1 hT
    rw [abs_le]
    constructor <;> norm_num at * <;> linarith
  norm_num [abs_of_neg, abs_of_nonneg] at this ⊢
  linarith

/-! ## Nutation -/

/-- A row of the tables as a wave. -/
noncomputable def wave (r : Row) : IersWave := ⟨r.s / 100, r.c / 100, fun i => (r.n.getD i 0 : ℤ)⟩

theorem dot_sum (n : List ℤ) (args : List ℝ) :
    dot n args = ∑ i : Fin args.length, ((n.getD i 0 : ℤ) : ℝ) * args[i] := by
  induction args generalizing n with
  | nil => simp [dot]
  | cons a t ih =>
    refine Eq.trans ?_ (Fin.sum_univ_succ (n := t.length)
      (fun i : Fin (t.length + 1) => ((n.getD i 0 : ℤ) : ℝ) * (a :: t)[i])).symm
    cases n with
    | nil => simp [dot]
    | cons k n =>
      have := ih n
      simp only [dot, List.zipWith_cons_cons, List.sum_cons] at this ⊢
      rw [this]
      simp

/-- The program sums the waves of a table. -/
theorem series_nutation (rows : List Row) (args : List ℝ) :
    series rows args = nutation (rows.map wave) args := by
  unfold series nutation
  rw [List.map_map]
  congr 1
  apply List.map_congr_left
  intro r _
  simp only [Function.comp, wave, dot_sum]

theorem series_cons (r : Row) (rows : List Row) (args : List ℝ) : series (r :: rows) args
    = ((r.s : ℝ) / 100 * sin (dot r.n args) + (r.c : ℝ) / 100 * cos (dot r.n args)) + series rows args := by
  simp [series]

/-- The sum of the amplitudes, in hundredths. -/
def total (rows : List Row) : ℕ := (rows.map fun r => r.s.natAbs + r.c.natAbs).sum

theorem total_cons (r : Row) (rows : List Row) : total (r :: rows) = r.s.natAbs + r.c.natAbs + total rows := by
  simp [total]

theorem wave_le (s c : ℤ) (a : ℝ) :
    |(s : ℝ) / 100 * sin a + (c : ℝ) / 100 * cos a| ≤ ((s.natAbs + c.natAbs : ℕ) : ℝ) / 100 := by
  have h1 : ((s.natAbs : ℕ) : ℝ) = |(s : ℝ)| := by rw [Nat.cast_natAbs]; push_cast; rfl
  have h2 : ((c.natAbs : ℕ) : ℝ) = |(c : ℝ)| := by rw [Nat.cast_natAbs]; push_cast; rfl
  push_cast
  rw [h1, h2]
  calc _ ≤ |(s : ℝ) / 100 * sin a| + |(c : ℝ) / 100 * cos a| := abs_add_le _ _
    _ = |(s : ℝ)| / 100 * |sin a| + |(c : ℝ)| / 100 * |cos a| := by simp [abs_mul, abs_div]
    _ ≤ |(s : ℝ)| / 100 * 1 + |(c : ℝ)| / 100 * 1 := by
        gcongr
        · exact abs_sin_le_one a
        · exact abs_cos_le_one a
    _ = _ := by ring

theorem series_le (rows : List Row) (args : List ℝ) : |series rows args| ≤ (total rows : ℝ) / 100 := by
  induction rows with
  | nil => simp [series, total]
  | cons r t ih =>
    rw [series_cons, total_cons]
    refine (abs_add_le _ _).trans ?_
    have := wave_le r.s r.c (dot r.n args)
    push_cast at this ⊢
    linarith

/-- **C79**: nutation is bounded by the sums of amplitudes of the tables, at every time. -/
theorem C79_bound (unit T MJD : ℝ) (hu : 0 ≤ unit) :
    |(nutationAngles unit T MJD).1| ≤ unit * (19467664.11 + 18289.73 * |T|) ∧
    |(nutationAngles unit T MJD).2| ≤ unit * (10088948.80 + 1421.34 * |T|) ∧
    |eqeqComplement unit T| ≤ unit * (2746.75 + 0.87 * |T|) := by
  have t1 : total psi0 = 1946766411 := by decide +kernel
  have t2 : total psi1 = 1828973 := by decide +kernel
  have t3 : total eps0 = 1008894880 := by decide +kernel
  have t4 : total eps1 = 142134 := by decide +kernel
  have t5 : total gst0 = 274675 := by decide +kernel
  have t6 : total gst1 = 87 := by decide +kernel
  have key : ∀ (a b : List Row) (x y : List ℝ),
      |unit * (series a x + T * series b y)| ≤ unit * ((total a : ℝ) / 100 + (total b : ℝ) / 100 * |T|) := by
    intro a b x y
    rw [abs_mul, abs_of_nonneg hu]
    refine mul_le_mul_of_nonneg_left ((abs_add_le _ _).trans ?_) hu
    rw [abs_mul]
    have h1 := series_le a x
    have h2 := mul_le_mul_of_nonneg_left (series_le b y) (abs_nonneg T)
    linarith
  refine ⟨(key psi0 psi1 _ _).trans (le_of_eq ?_), (key eps0 eps1 _ _).trans (le_of_eq ?_),
    (key gst0 gst1 _ _).trans (le_of_eq ?_)⟩
  · rw [t1, t2]; norm_num
  · rw [t3, t4]; norm_num
  · rw [t5, t6]; norm_num

/-- **C79**: the complement of the equation of the equinoxes is the sum of its table for all fourteen
arguments, those of sun and moon being Delaunay's. -/
theorem C79_complement (unit T : ℝ) :
    let args := delaunayArguments (T * 36525 + 51544.5)
      ++ (planetaryArguments T).map fun a => Num.fmod a (2 * π)
    eqeqComplement unit T = unit * (nutation (gst0.map wave) args + T * nutation (gst1.map wave) args) := by
  simp only [eqeqComplement, List.map_append, C79_arguments, series_nutation]

/-- Whether a row has multiples of planetary arguments. -/
def planetary (r : Row) : Bool := (r.n.drop 5).any (· != 0)

theorem dot_zero (n : List ℤ) (args : List ℝ) (h : n.any (· != 0) = false) : dot n args = 0 := by
  induction n generalizing args with
  | nil => simp [dot]
  | cons k n ih =>
    simp only [List.any_cons, Bool.or_eq_false_iff, bne_eq_false_iff_eq] at h
    cases args with
    | nil => simp [dot]
    | cons a t =>
      have := ih t h.2
      simp only [dot, List.zipWith_cons_cons, List.sum_cons] at this ⊢
      rw [this, h.1]
      simp

theorem dot_append (n : List ℤ) (x y : List ℝ) : dot n (x ++ y) = dot n x + dot (n.drop x.length) y := by
  induction x generalizing n with
  | nil => simp [dot]
  | cons a t ih =>
    cases n with
    | nil => simp [dot]
    | cons k n =>
      have := ih n
      simp only [dot, List.cons_append, List.zipWith_cons_cons, List.sum_cons, List.length_cons,
        List.drop_succ_cons] at this ⊢
      rw [this]
      ring

theorem dropped (rows : List Row) (x y : List ℝ) (hx : x.length = 5) :
    |series rows x - series rows (x ++ y)| ≤ 2 * ((total (rows.filter planetary) : ℝ) / 100) := by
  induction rows with
  | nil => simp [series, total]
  | cons r t ih =>
    rw [series_cons, series_cons]
    by_cases h : planetary r = true
    · rw [List.filter_cons_of_pos h, total_cons]
      have h1 := abs_le.1 (wave_le r.s r.c (dot r.n x))
      have h2 := abs_le.1 (wave_le r.s r.c (dot r.n (x ++ y)))
      have h3 := abs_le.1 ih
      push_cast at h1 h2 h3 ⊢
      rw [abs_le]
      constructor <;> linarith [h1.1, h1.2, h2.1, h2.2, h3.1, h3.2]
    · rw [List.filter_cons_of_neg h]
      have e : dot r.n (x ++ y) = dot r.n x := by
        rw [dot_append, hx, dot_zero (r.n.drop 5) y (by simpa [planetary] using h), add_zero]
      rw [e, add_sub_add_left_eq_sub]
      exact ih

/-- **C79** (partial: the claim is equality): the nutation is that of the tables for the arguments of sun,
moon and planets up to 11039 (longitude) and 3776 units (obliquity): multiples of planetary arguments are
read but not used. -/
theorem C79_nutation_partial (unit T MJD : ℝ) (hu : 0 ≤ unit) (planets : List ℝ) :
    let args := delaunayArguments MJD ++ planets
    |(nutationAngles unit T MJD).1
      - unit * (nutation (psi0.map wave) args + T * nutation (psi1.map wave) args)| ≤ unit * 11039 ∧
    |(nutationAngles unit T MJD).2
      - unit * (nutation (eps0.map wave) args + T * nutation (eps1.map wave) args)| ≤ unit * 3776 := by
  intro args
  have t1 : total (psi0.filter planetary) = 551950 := by decide +kernel
  have t2 : total (psi1.filter planetary) = 0 := by decide +kernel
  have t3 : total (eps0.filter planetary) = 188800 := by decide +kernel
  have t4 : total (eps1.filter planetary) = 0 := by decide +kernel
  have key : ∀ (a b : List Row) (n : ℕ), total (a.filter planetary) = n → total (b.filter planetary) = 0 →
      |unit * (series a (delaunayArguments MJD) + T * series b (delaunayArguments MJD))
        - unit * (nutation (a.map wave) args + T * nutation (b.map wave) args)| ≤ unit * (2 * (n / 100)) := by
    intro a b n ha hb
    have h1 := dropped a (delaunayArguments MJD) planets rfl
    have h2 := dropped b (delaunayArguments MJD) planets rfl
    rw [hb] at h2
    have h3 : series b (delaunayArguments MJD) = series b (delaunayArguments MJD ++ planets) := by
      have : |series b (delaunayArguments MJD) - series b (delaunayArguments MJD ++ planets)| = 0 :=
        le_antisymm (by simpa using h2) (abs_nonneg _)
      linarith [abs_eq_zero.1 this]
    rw [← series_nutation, ← series_nutation, h3, ← mul_sub, add_sub_add_right_eq_sub, abs_mul,
      abs_of_nonneg hu, ← ha]
    exact mul_le_mul_of_nonneg_left h1 hu
  refine ⟨(key psi0 psi1 _ t1 t2).trans (le_of_eq ?_), (key eps0 eps1 _ t3 t4).trans (le_of_eq ?_)⟩ <;> norm_num

/-- Whether a row has planetary arguments only. -/
def only (r : Row) : Bool := (r.n.take 5).all (· == 0)

theorem dot_take (n : List ℤ) (x : List ℝ) : dot n x = dot (n.take x.length) x := by
  induction x generalizing n with
  | nil => simp [dot]
  | cons a t ih =>
    cases n with
    | nil => simp [dot]
    | cons k n =>
      have := ih n
      simp only [dot, List.zipWith_cons_cons, List.sum_cons, List.length_cons, List.take_succ_cons] at this ⊢
      rw [this]

theorem still (rows : List Row) (x : List ℝ) (hx : x.length = 5) :
    series (rows.filter only) x = (((rows.filter only).map (·.c)).sum : ℤ) / 100 := by
  induction rows with
  | nil => simp [series]
  | cons r t ih =>
    by_cases h : only r = true
    · rw [List.filter_cons_of_pos h, series_cons, ih, List.map_cons, List.sum_cons, dot_take, hx,
        dot_zero _ _ (by
          have h' : ∀ a ∈ r.n.take 5, a = 0 := by simpa [only] using h
          rw [List.any_eq_false]
          intro a ha
          simp [h' a ha])]
      push_cast
      simp
      ring
    · rw [List.filter_cons_of_neg h]
      exact ih

/-- **C79** is false for the planets: the 370 waves of longitude and 266 of obliquity of planetary origin
are constants in the program, together 521.7 and 38.2 units at every time. -/
theorem C79_planets_false (MJD : ℝ) :
    (psi0.filter only).length = 370 ∧ series (psi0.filter only) (delaunayArguments MJD) = 521.70 ∧
    (eps0.filter only).length = 266 ∧ series (eps0.filter only) (delaunayArguments MJD) = 38.20 := by
  refine ⟨by decide +kernel, ?_, by decide +kernel, ?_⟩
  · rw [still _ _ rfl, show ((psi0.filter only).map (·.c)).sum = 52170 by decide +kernel]; norm_num
  · rw [still _ _ rfl, show ((eps0.filter only).map (·.c)).sum = 3820 by decide +kernel]; norm_num

/-! ## Sidereal time -/

theorem fmod_one (x : ℝ) : Num.fmod x 1 = Int.fract x := by
  unfold Num.fmod
  rw [div_one, one_mul]
  rfl

/-- **C79** (partial: the claim is equality): sidereal time is a fraction of a turn, and is the apparent one
for an equation of the equinoxes made smaller by the factor `2π/24`. -/
theorem C79_sidereal_partial (st epsilon dpsi deps c : ℝ) :
    0 ≤ gast st epsilon dpsi deps c ∧ gast st epsilon dpsi deps c < 1 ∧
    gast st epsilon dpsi deps c = apparent st (2 * π / 24 * (dpsi * cos (epsilon + deps) + c)) := by
  have hp := pi_pos
  refine ⟨Num.fmod_nonneg one_pos, Num.fmod_lt one_pos, ?_⟩
  unfold gast apparent
  rw [fmod_one]
  congr 2
  field_simp

/-- **C79** is false for sidereal time: whenever the equation of the equinoxes is not zero (and below a
radian, as it is by far) the result is not the apparent sidereal time. -/
theorem C79_sidereal_false (st epsilon dpsi deps c : ℝ) (h0 : dpsi * cos (epsilon + deps) + c ≠ 0)
    (h1 : |dpsi * cos (epsilon + deps) + c| ≤ 1) :
    gast st epsilon dpsi deps c ≠ apparent st (dpsi * cos (epsilon + deps) + c) := by
  have hp := pi_gt_three
  intro h
  unfold gast apparent at h
  rw [fmod_one] at h
  generalize dpsi * cos (epsilon + deps) + c = q at *
  obtain ⟨k, hk⟩ := Int.fract_eq_fract.1 h
  have e : (k : ℝ) = q * (1 / 24 - 1 / (2 * π)) := by rw [← hk]; ring
  have b1 : 1 / (2 * π) ≤ 1 / 6 := one_div_le_one_div_of_le (by norm_num) (by linarith)
  have b2 : 1 / 8 < 1 / (2 * π) := one_div_lt_one_div_of_lt (by positivity) (by linarith [pi_lt_four])
  have f0 : (1 / 24 - 1 / (2 * π)) ≠ 0 := by intro hh; linarith
  have f1 : |1 / 24 - 1 / (2 * π)| < 1 := by rw [abs_lt]; constructor <;> linarith
  have k1 : |(k : ℝ)| < 1 := by
    rw [e, abs_mul]
    calc |q| * |1 / 24 - 1 / (2 * π)| ≤ 1 * |1 / 24 - 1 / (2 * π)| :=
          mul_le_mul_of_nonneg_right h1 (abs_nonneg _)
      _ < 1 := by rw [one_mul]; exact f1
  have k0 : k = 0 := by
    have : |k| < 1 := by exact_mod_cast k1
    exact Int.abs_lt_one_iff.1 this
  rw [k0, Int.cast_zero] at e
  exact mul_ne_zero h0 f0 e.symm

/-- At the mean obliquity of 2000, for a nutation of 14 arcseconds, both conditions hold. -/
example : (14 * second) * cos (0 + 0) + 0 ≠ 0 ∧ |(14 * second) * cos (0 + 0) + 0| ≤ 1 := by
  have hp := pi_pos
  have h4 := pi_lt_four
  simp only [add_zero, cos_zero, mul_one]
  unfold second
  refine ⟨by positivity, ?_⟩
  rw [abs_of_pos (by positivity)]
  linarith

/-! ## The rotation -/

theorem entry_le {A : Mat3} (h : IsRotation A) (i k : Fin 3) : |A i k| ≤ 1 := by
  have e := congrFun (congrFun h.1 i) i
  rw [Matrix.mul_apply, Fin.sum_univ_three, Matrix.one_apply_eq] at e
  simp only [Matrix.transpose_apply] at e
  rw [← sq_le_one_iff_abs_le_one]
  have : ∀ k : Fin 3, k = 0 ∨ k = 1 ∨ k = 2 := by decide
  rcases this k with rfl | rfl | rfl <;>
    nlinarith [sq_nonneg (A i 0), sq_nonneg (A i 1), sq_nonneg (A i 2)]

theorem conj_le {A E : Mat3} {ε : ℝ} (hA : IsRotation A) (hE : ∀ i j, |E i j| ≤ ε) (i j : Fin 3) :
    |(A * E * A.transpose) i j| ≤ 9 * ε := by
  have hε : 0 ≤ ε := (abs_nonneg _).trans (hE 0 0)
  have t : ∀ k l, |A i k * E k l * A j l| ≤ ε := by
    intro k l
    rw [abs_mul, abs_mul]
    have h1 := entry_le hA i k
    have h2 := entry_le hA j l
    have h3 := hE k l
    calc |A i k| * |E k l| * |A j l| ≤ 1 * ε * 1 := by gcongr
      _ = ε := by ring
  have e : (A * E * A.transpose) i j = ∑ l, ∑ k, A i k * E k l * A j l := by
    rw [Matrix.mul_apply]
    refine Finset.sum_congr rfl fun l _ => ?_
    rw [Matrix.mul_apply, Matrix.transpose_apply, Finset.sum_mul]
  rw [e]
  refine (Finset.abs_sum_le_sum_abs _ _).trans ?_
  calc _ ≤ ∑ _l : Fin 3, 3 * ε := by
        refine Finset.sum_le_sum fun l _ => (Finset.abs_sum_le_sum_abs _ _).trans ?_
        calc _ ≤ ∑ _k : Fin 3, ε := Finset.sum_le_sum fun k _ => t k l
          _ = 3 * ε := by simp
    _ = 9 * ε := by simp; ring

theorem bias_det : |frameBiasMatrix.det - 1| ≤ 1e-12 := by
  have hp := pi_pos
  have h4 := pi_lt_four
  unfold frameBiasMatrix
  obtain ⟨a, ha⟩ : ∃ a, a = π / 648000 := ⟨_, rfl⟩
  have a0 : 0 < a := by rw [ha]; positivity
  have a1 : a ≤ 1e-5 := by rw [ha]; norm_num; linarith
  simp only [← ha, frameBiasOfAngles, Matrix.det_fin_three]
  simp
  have a2 : a ^ 2 ≤ 1e-10 := by nlinarith
  have a4 : a ^ 4 ≤ 1e-20 := by nlinarith [sq_nonneg a]
  have a6 : a ^ 6 ≤ 1e-30 := by nlinarith [sq_nonneg a, pow_pos a0 4]
  have p4 : 0 ≤ a ^ 4 := by positivity
  have p6 : 0 ≤ a ^ 6 := by positivity
  have p2 : 0 ≤ a ^ 2 := by positivity
  rw [abs_le]
  norm_num at a2 a4 a6 ⊢
  constructor <;> ring_nf <;> nlinarith

/-- **C79**: the rotation to terrestrial coordinates always succeeds and is a proper rotation up to 3e-13,
whatever the time, the pole, sidereal time and nutation. -/
theorem C79_itrs (T px py st epsilon dpsi deps c : ℝ) :
    ∃ R, itrs T px py st epsilon dpsi deps c = .ok R ∧
      (∀ i j, |(R * R.transpose) i j - (1 : Mat3) i j| ≤ 3e-13) ∧ |R.det - 1| ≤ 1e-12 := by
  obtain ⟨W, hW, rW⟩ := C06_polar_motion_orthogonal px py T
  have rG := rz_isRotation (2 * π * gast st epsilon dpsi deps c)
  have rA : IsRotation (rz (2 * π * gast st epsilon dpsi deps c) * (precessionMatrix T
      * nutationMatrix epsilon (epsilon + deps) dpsi)) :=
    rG.mul ((C06_precession_orthogonal T).mul (C06_nutation_orthogonal _ _ _))
  refine ⟨rz (2 * π * gast st epsilon dpsi deps c) * (precessionMatrix T
    * nutationMatrix epsilon (epsilon + deps) dpsi * frameBiasMatrix * W), ?_, ?_, ?_⟩
  · unfold itrs
    rw [hW, rotate_z]
    rfl
  · intro i j
    rw [show ∀ G P N B W : Mat3, G * (P * N * B * W) = G * (P * N) * B * W by
      intros; simp only [Matrix.mul_assoc]]
    generalize rz (2 * π * gast st epsilon dpsi deps c) * (precessionMatrix T
      * nutationMatrix epsilon (epsilon + deps) dpsi) = A at rA
    have e : A * frameBiasMatrix * W * (A * frameBiasMatrix * W).transpose - 1
        = A * (frameBiasMatrix * frameBiasMatrix.transpose - 1) * A.transpose := by
      rw [Matrix.mul_sub, Matrix.sub_mul, Matrix.mul_one, rA.1]
      congr 1
      rw [Matrix.transpose_mul, Matrix.transpose_mul]
      calc _ = A * frameBiasMatrix * (W * W.transpose) * (frameBiasMatrix.transpose * A.transpose) := by
            simp only [Matrix.mul_assoc]
        _ = _ := by rw [rW.1, Matrix.mul_one]; simp only [Matrix.mul_assoc]
    have := conj_le rA (E := frameBiasMatrix * frameBiasMatrix.transpose - 1) (ε := 3e-14)
      (fun i j => by rw [Matrix.sub_apply]; exact C06_frame_bias_error_partial i j) i j
    rw [← e, Matrix.sub_apply] at this
    refine this.trans ?_
    norm_num
  · rw [Matrix.det_mul, Matrix.det_mul, Matrix.det_mul, Matrix.det_mul, rG.2.2, rW.2.2,
      (C06_precession_orthogonal T).2.2, (C06_nutation_orthogonal _ _ _).2.2]
    simpa using bias_det

/-- **C79** is false for the motion of the pole: in terrestrial coordinates the celestial pole of date
would go around once a day, in the program it stays where it is, whatever the sidereal time, since the motion of
the pole is applied before the rotation of the Earth. -/
theorem C79_wobble_false :
    (∀ T px py st st' epsilon dpsi deps c R R', itrs T px py st epsilon dpsi deps c = .ok R →
      itrs T px py st' epsilon dpsi deps c = .ok R' → ∀ v : Fin 3 → ℝ, (R.mulVec v) 2 = (R'.mulVec v) 2) ∧
    ∃ W, polarMotionMatrix 0.3 0 0 = .ok W ∧ ∀ N P B : Mat3, IsUnit (N * P * B).det → ∃ v : Fin 3 → ℝ,
      ((terrestrial W (rz 0) N P B).mulVec v) 2 ≠ ((terrestrial W (rz π) N P B).mulVec v) 2 := by
  constructor
  · intro T px py st st' epsilon dpsi deps c R R' h h' v
    obtain ⟨W, hW, -⟩ := C06_polar_motion_orthogonal px py T
    have e : ∀ s, itrs T px py s epsilon dpsi deps c = .ok (rz (2 * π * gast s epsilon dpsi deps c) *
        (precessionMatrix T * nutationMatrix epsilon (epsilon + deps) dpsi * frameBiasMatrix * W)) := by
      intro s
      unfold itrs
      rw [hW, rotate_z]
      rfl
    rw [e] at h h'
    rw [← Except.ok.inj h, ← Except.ok.inj h']
    generalize precessionMatrix T * nutationMatrix epsilon (epsilon + deps) dpsi * frameBiasMatrix * W = M
    have key : ∀ t, ((rz t * M).mulVec v) 2 = (M.mulVec v) 2 := by
      intro t
      rw [← Matrix.mulVec_mulVec]
      generalize M.mulVec v = u
      simp [rz, Matrix.mulVec, dotProduct, Fin.sum_univ_three]
    rw [key, key]
  · have hp := pi_pos
    refine ⟨rx (0 * (π / 648000)) * ry (0.3 * (π / 648000)) * rz (-(-4.7e-5 * 0) * (π / 648000)), ?_, ?_⟩
    · unfold polarMotionMatrix
      simp only [rotate_x, rotate_y, rotate_z]
      rfl
    · intro N P B hu
      refine ⟨(N * P * B)⁻¹.mulVec ![1, 0, 0], ?_⟩
      have hs : sin (0.3 * (π / 648000)) > 0 := sin_pos_of_pos_of_lt_pi (by positivity) (by linarith)
      have e : ∀ t W, (terrestrial W (rz t) N P B).mulVec ((N * P * B)⁻¹.mulVec ![1, 0, 0])
          = W.mulVec ((rz t).mulVec ![1, 0, 0]) := by
        intro t W
        rw [Matrix.mulVec_mulVec, Matrix.mulVec_mulVec]
        congr 1
        unfold terrestrial
        rw [show W * rz t * N * P * B = W * rz t * (N * P * B) by simp only [Matrix.mul_assoc],
          Matrix.mul_assoc, Matrix.mul_nonsing_inv _ hu, Matrix.mul_one]
      rw [e, e]
      simp only [zero_mul, mul_zero, neg_zero]
      simp only [rx, ry, rz, Matrix.mulVec, dotProduct, Fin.sum_univ_three, Matrix.mul_apply]
      simp
      intro h
      norm_num at hs h
      linarith

end Verif.Sky
