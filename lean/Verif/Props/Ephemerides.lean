import Verif.Model.Ephemerides
import Verif.Spec.Ephemerides
import Mathlib.Analysis.Real.Pi.Bounds
import Mathlib.Analysis.SpecialFunctions.Trigonometric.Bounds
import Mathlib.Tactic.LinearCombination
/-!
C78: positions of sun and moon.
-/
namespace Verif.Sky
open Verif Verif.Math Verif.Spec Real

/-- The three coordinates. -/
def P3.all (p : P3) : ℝ × ℝ × ℝ := (p.x, p.y, p.z)

/-- The mean arguments of a time. -/
def Means.angles (m : Means) : Angles := ⟨m.l, m.M, m.F, m.D⟩

/-- The obliquity of the ecliptic of 2000 in radians. -/
noncomputable def obliquity : ℝ := 23.43929111 * (π / 180)

/-- Longitude of the solar perigee and mean anomaly of the sun (radians). -/
noncomputable def perigee (T : ℝ) : ℝ := (282.94 + 1.7192 * T) * (π / 180)
noncomputable def anomaly (T : ℝ) : ℝ :=
  (357.5256 + 35999.049 * T - 1.559e-4 * T ^ 2 - 4.8e-7 * T ^ 3) * (π / 180)

/-- **C78**, sun: the position is the published one, in a frame turned by the Greenwich hour angle. -/
theorem C78_sun (T gha : ℝ) : ∃ p, solarApproximate T gha = .ok p ∧
    p.all = turned (gha * (π / 180)) (equatorial obliquity (sun (perigee T) (anomaly T))) := by
  have hM : deg2rad * polynomialSum [357.5256, 35999.049, -1.559e-4, -4.8e-7] T = anomaly T := by
    simp only [polynomialSum, List.zipIdx_cons, List.zipIdx_nil, List.map_cons, List.map_nil, List.sum_cons,
      List.sum_nil, deg2rad, anomaly]
    ring
  have hP : deg2rad * (282.94 + 1.7192 * T) = perigee T := by rw [deg2rad, perigee]; ring
  have hg : ∀ g, rotate g "z" = .ok !![cos g, sin g, 0; -sin g, cos g, 0; 0, 0, 1] := by
    intro g
    rw [rotate, if_neg (by decide), if_neg (by decide), if_pos (by decide)]
  refine ⟨_, by rw [solarApproximate]; simp only [hM, hP]; rw [hg]; rfl, ?_⟩
  simp only [P3.all, apply, turned, equatorial, sun, Matrix.of_apply, Matrix.cons_val', Matrix.cons_val_zero,
    Matrix.cons_val_one, Matrix.cons_val, Matrix.cons_val_fin_one, cos_zero, sin_zero, obliquity, deg2rad,
    asec2rad, second, Prod.mk.injEq]
  have ha : perigee T + anomaly T + π / 648000 * (6892 * sin (anomaly T) + 72 * sin (2 * anomaly T))
      = perigee T + anomaly T + (6892 * sin (anomaly T) + 72 * sin (2 * anomaly T)) * (π / 648000) := by ring
  rw [ha]
  generalize perigee T + anomaly T + (6892 * sin (anomaly T) + 72 * sin (2 * anomaly T)) * (π / 648000) = la
  generalize 23.43929111 * (π / 180) = e
  generalize cos (anomaly T) = c1
  generalize cos (2 * anomaly T) = c2
  refine ⟨?_, ?_, ?_⟩ <;> norm_num <;> ring

/-- The ecliptic coordinates of the moon that are used. -/
noncomputable def lunar (m : Means) : Ecliptic :=
  ⟨lunarLongitude m, lunarLatitude m (lunarLongitude m), lunarRadius m⟩

/-- **C78**, moon: the position has the ecliptic coordinates of the series, in a frame turned by the
Greenwich hour angle. -/
theorem C78_moon_frame (T gha : ℝ) : ∃ p, lunarApproximate T gha = .ok p ∧
    p.all = turned (gha * (π / 180)) (equatorial obliquity (lunar (lunarMeans T))) := by
  have hg : ∀ g, rotate g "z" = .ok !![cos g, sin g, 0; -sin g, cos g, 0; 0, 0, 1] := by
    intro g
    rw [rotate, if_neg (by decide), if_neg (by decide), if_pos (by decide)]
  have hx : ∀ g, rotate g "x" = .ok !![1, 0, 0; 0, cos g, sin g; 0, -sin g, cos g] := by
    intro g
    rw [rotate, if_pos (by decide)]
  refine ⟨_, by rw [lunarApproximate]; simp only [hx, hg]; rfl, ?_⟩
  simp only [P3.all, apply, turned, equatorial, lunar, Matrix.of_apply, Matrix.cons_val', Matrix.cons_val_zero,
    Matrix.cons_val_one, Matrix.cons_val, Matrix.cons_val_fin_one, obliquity, deg2rad, Prod.mk.injEq, cos_neg,
    sin_neg]
  refine ⟨?_, ?_, ?_⟩ <;> ring

/-- **C78**, moon: the distance is the published one. -/
theorem C78_moon_distance (m : Means) : lunarRadius m = (moon m.s m.angles).distance := by
  simp only [lunarRadius, moon, cosines, moonDistance, Term.arg, Means.angles, List.map_cons, List.map_nil,
    List.sum_cons, List.sum_nil, Int.cast_zero, zero_mul, zero_add, add_zero, Int.cast_one, one_mul,
    Int.cast_neg, cos_zero, Int.cast_ofNat]
  rw [show (-1 : ℝ) * m.l + 2 * m.D = 2 * m.D - m.l by ring,
    show 2 * m.l + -2 * m.D = 2 * m.l - 2 * m.D by ring, show m.M + -2 * m.D = m.M - 2 * m.D by ring,
    show m.l + m.M + -2 * m.D = m.l + m.M - 2 * m.D by ring]
  norm_num
  ring

/-- The difference to the published longitude: twice the term of the difference of the anomalies. -/
theorem longitude_difference (m : Means) :
    (moon m.s m.angles).longitude - lunarLongitude m = 296 * sin (m.l - m.M) * second := by
  simp only [lunarLongitude, moon, sines, moonLongitude, Term.arg, Means.angles, List.map_cons, List.map_nil,
    List.sum_cons, List.sum_nil, Int.cast_zero, zero_mul, zero_add, add_zero, Int.cast_one, one_mul,
    Int.cast_neg, Int.cast_ofNat, asec2rad, second]
  rw [show m.l + -2 * m.D = m.l - 2 * m.D by ring,
    show 2 * m.l + -2 * m.D = 2 * m.l - 2 * m.D by ring, show m.M + -2 * m.D = m.M - 2 * m.D by ring,
    show m.l + m.M + -2 * m.D = m.l + m.M - 2 * m.D by ring,
    show m.l + -1 * m.M = m.l - m.M by ring, show 2 * m.F + -2 * m.D = 2 * m.F - 2 * m.D by ring]
  ring

theorem second_pos : 0 < second := by unfold second; positivity

/-- The latitude is the published one for the same longitude. -/
theorem latitude_difference (m : Means) :
    (moon m.s m.angles).latitude - lunarLatitude m (moon m.s m.angles).longitude = 0 := by
  simp only [lunarLatitude, moon]
  have e : m.F + (m.s + sines moonLongitude m.angles * second) - m.s
      + asec2rad * (412 * sin (2 * m.F) + 541 * sin m.M)
      = m.angles.F + sines moonLongitude m.angles * second
        + (412 * sin (2 * m.angles.F) + 541 * sin m.angles.lp) * second := by
    simp only [Means.angles, asec2rad, second]
    ring
  rw [e]
  generalize sin (m.angles.F + sines moonLongitude m.angles * second
        + (412 * sin (2 * m.angles.F) + 541 * sin m.angles.lp) * second) = w
  simp only [sines, moonLatitude, Term.arg, Means.angles, List.map_cons, List.map_nil, List.sum_cons,
    List.sum_nil, Int.cast_zero, zero_mul, zero_add, add_zero, Int.cast_one, one_mul, Int.cast_neg,
    Int.cast_ofNat, asec2rad, second]
  rw [show m.F + -2 * m.D = m.F - 2 * m.D by ring, show m.l + m.F + -2 * m.D = m.l + m.F - 2 * m.D by ring,
    show -1 * m.l + m.F + -2 * m.D = -m.l + m.F - 2 * m.D by ring,
    show m.M + m.F + -2 * m.D = m.M + m.F - 2 * m.D by ring,
    show -1 * m.M + m.F + -2 * m.D = -m.M + m.F - 2 * m.D by ring, show -1 * m.l + m.F = -m.l + m.F by ring]
  ring

/-- **C78**, moon: the longitude is within 296 arcseconds of the published one, the latitude within 27.
They do not agree, see `C78_moon_false`. -/
theorem C78_moon_partial (m : Means) :
    |(moon m.s m.angles).longitude - lunarLongitude m| ≤ 296 * second ∧
    |(moon m.s m.angles).latitude - lunarLatitude m (lunarLongitude m)| ≤ 27 * second := by
  have hs := second_pos
  have h1 : |(moon m.s m.angles).longitude - lunarLongitude m| ≤ 296 * second := by
    rw [longitude_difference, abs_mul, abs_mul, abs_of_pos hs, abs_of_pos (by norm_num : (0 : ℝ) < 296)]
    have := abs_sin_le_one (m.l - m.M)
    nlinarith
  refine ⟨h1, ?_⟩
  have h2 := latitude_difference m
  generalize (moon m.s m.angles).longitude = L at h1 h2
  generalize (moon m.s m.angles).latitude = B at h2
  generalize lunarLongitude m = L' at h1
  have e : B - lunarLatitude m L' = second * 18520 * (sin (m.F + L - m.s
      + asec2rad * (412 * sin (2 * m.F) + 541 * sin m.M)) - sin (m.F + L' - m.s
      + asec2rad * (412 * sin (2 * m.F) + 541 * sin m.M))) := by
    have : B = lunarLatitude m L := by linarith
    rw [this]
    simp only [lunarLatitude, asec2rad, second]
    ring
  have lip : ∀ a b : ℝ, |sin a - sin b| ≤ |a - b| := by
    intro a b
    rw [sin_sub_sin, abs_mul, abs_mul, abs_two]
    have k1 := abs_cos_le_one ((a + b) / 2)
    have k2 := abs_sin_le_abs (x := (a - b) / 2)
    rw [abs_div, abs_two] at k2
    have k3 := abs_nonneg (sin ((a - b) / 2))
    nlinarith
  rw [e, abs_mul, abs_of_pos (by linarith : 0 < second * 18520)]
  refine (mul_le_mul_of_nonneg_left (lip _ _) (by linarith)).trans ?_
  rw [show m.F + L - m.s + asec2rad * (412 * sin (2 * m.F) + 541 * sin m.M) - (m.F + L' - m.s
      + asec2rad * (412 * sin (2 * m.F) + 541 * sin m.M)) = L - L' by ring]
  have hb : second * (18520 * 296) ≤ 27 := by
    unfold second
    have := pi_lt_d4
    linarith
  nlinarith [mul_le_mul_of_nonneg_left h1 (by linarith : 0 ≤ second * 18520),
    mul_le_mul_of_nonneg_left hb hs.le]

/-- Refuted: that the moon has its published longitude.  At noon of 1 January 2000 it is off by more than
148 arcseconds: the term of the difference of the anomalies has the wrong sign. -/
theorem C78_moon_false :
    148 * second < (moon (lunarMeans 0).s (lunarMeans 0).angles).longitude - lunarLongitude (lunarMeans 0) := by
  rw [longitude_difference]
  have e : (lunarMeans 0).l - (lunarMeans 0).M = (-222.56268) * (π / 180) := by
    simp only [lunarMeans, deg2rad]
    ring
  have s : sin ((lunarMeans 0).l - (lunarMeans 0).M) = sin (42.56268 * (π / 180)) := by
    rw [e, show (-222.56268) * (π / 180) = -(42.56268 * (π / 180) + π) by ring, sin_neg, sin_add_pi, neg_neg]
  have h : 1 / 2 < sin (42.56268 * (π / 180)) := by
    rw [← sin_pi_div_six]
    have := pi_pos
    exact sin_lt_sin_of_lt_of_le_pi_div_two (by linarith) (by linarith) (by linarith)
  rw [s]
  have := second_pos
  nlinarith

/-! ## Distances and declinations -/

theorem turned_square (g : ℝ) (p : ℝ × ℝ × ℝ) :
    (turned g p).1 ^ 2 + (turned g p).2.1 ^ 2 = p.1 ^ 2 + p.2.1 ^ 2 := by
  simp only [turned]
  linear_combination (p.1 ^ 2 + p.2.1 ^ 2) * sin_sq_add_cos_sq g

theorem equatorial_square (e : ℝ) (p : Ecliptic) :
    (equatorial e p).1 ^ 2 + (equatorial e p).2.1 ^ 2 + (equatorial e p).2.2 ^ 2 = p.distance ^ 2 := by
  simp only [equatorial]
  linear_combination p.distance ^ 2 * (cos p.latitude ^ 2 * sin p.longitude ^ 2 + sin p.latitude ^ 2) *
    sin_sq_add_cos_sq e + p.distance ^ 2 * cos p.latitude ^ 2 * sin_sq_add_cos_sq p.longitude +
    p.distance ^ 2 * sin_sq_add_cos_sq p.latitude

/-- The distance of a position from the centre of the earth. -/
noncomputable def P3.norm (p : P3) : ℝ := sqrt (p.x ^ 2 + p.y ^ 2 + p.z ^ 2)

theorem norm_eq {p : P3} {g e : ℝ} {q : Ecliptic} (hq : 0 ≤ q.distance)
    (h : p.all = turned g (equatorial e q)) : p.norm = q.distance := by
  have h1 : p.x = (turned g (equatorial e q)).1 := congrArg Prod.fst h
  have h2 : p.y = (turned g (equatorial e q)).2.1 := congrArg (fun v => v.2.1) h
  have h3 : p.z = (equatorial e q).2.2 := congrArg (fun v => v.2.2) h
  rw [P3.norm, h1, h2, h3, turned_square, equatorial_square, sqrt_sq hq]

/-- The distance of the moon, for any mean arguments. -/
theorem radius_range (m : Means) : 356096e3 ≤ lunarRadius m ∧ lunarRadius m ≤ 407992e3 := by
  have c1 := abs_le.1 (abs_cos_le_one m.l)
  have c2 := abs_le.1 (abs_cos_le_one (2 * m.D - m.l))
  have c3 := abs_le.1 (abs_cos_le_one (2 * m.D))
  have c4 := abs_le.1 (abs_cos_le_one (2 * m.l))
  have c5 := abs_le.1 (abs_cos_le_one (2 * m.l - 2 * m.D))
  have c6 := abs_le.1 (abs_cos_le_one (m.M - 2 * m.D))
  have c7 := abs_le.1 (abs_cos_le_one (m.l + 2 * m.D))
  have c8 := abs_le.1 (abs_cos_le_one (m.l + m.M - 2 * m.D))
  have key : -21648 ≤ 20905 * cos m.l + 3699 * cos (2 * m.D - m.l) + 2956 * cos (2 * m.D) := by
    rw [cos_sub]
    clear c2 c3 c4 c5 c6 c7 c8
    have k1 := sin_sq_add_cos_sq m.l
    have k2 := sin_sq_add_cos_sq (2 * m.D)
    generalize cos m.l = c at *
    generalize sin m.l = s at *
    generalize cos (2 * m.D) = C at *
    generalize sin (2 * m.D) = S at *
    -- the sum of the last two terms is at least minus the length of a vector
    have h : (3699 * (C * c + S * s) + 2956 * C) ^ 2 ≤ (20905 * c + 21648) ^ 2 := by
      have : (3699 * (C * c + S * s) + 2956 * C) ^ 2
          ≤ (3699 * c + 2956) ^ 2 + (3699 * s) ^ 2 := by
        have e : (3699 * c + 2956) ^ 2 + (3699 * s) ^ 2 - (3699 * (C * c + S * s) + 2956 * C) ^ 2
            = ((3699 * c + 2956) * S - 3699 * s * C) ^ 2 := by
          linear_combination -((3699 * c + 2956) ^ 2 + (3699 * s) ^ 2) * k2
        nlinarith [sq_nonneg ((3699 * c + 2956) * S - 3699 * s * C)]
      refine this.trans ?_
      have e : (20905 * c + 21648) ^ 2 - ((3699 * c + 2956) ^ 2 + (3699 * s) ^ 2)
          = 20905 ^ 2 * (c + 1) ^ 2 + (2 * 743 * 20905 - 2 * 3699 * 2956) * (c + 1) := by
        linear_combination -3699 ^ 2 * k1
      nlinarith [sq_nonneg (c + 1), c1.1]
    have p : 0 ≤ 20905 * c + 21648 := by linarith [c1.1]
    have := abs_le_of_sq_le_sq' h p
    linarith [this.1]
  unfold lunarRadius
  constructor
  · linarith [c1.2, c2.2, c3.2, c4.2, c5.1, c6.2, c7.2, c8.2]
  · linarith [c4.1, c5.2, c6.1, c7.1, c8.1]

/-- **C78**: at any time the sun is between 147.099 and 152.139 million kilometres away, the moon between
356096 and 407992 kilometres. -/
theorem C78_range (T gha : ℝ) :
    (∃ p, solarApproximate T gha = .ok p ∧ 147.099e9 ≤ p.norm ∧ p.norm ≤ 152.139e9) ∧
    ∃ p, lunarApproximate T gha = .ok p ∧ 356096e3 ≤ p.norm ∧ p.norm ≤ 407992e3 := by
  constructor
  · obtain ⟨p, e, h⟩ := C78_sun T gha
    have c1 := abs_le.1 (abs_cos_le_one (anomaly T))
    have c2 := abs_le.1 (abs_cos_le_one (2 * anomaly T))
    have r : 147.099e9 ≤ (sun (perigee T) (anomaly T)).distance ∧
        (sun (perigee T) (anomaly T)).distance ≤ 152.139e9 := by
      simp only [sun]
      constructor <;> norm_num <;> linarith [c1.1, c1.2, c2.1, c2.2]
    rw [← norm_eq (le_trans (by norm_num) r.1) h] at r
    exact ⟨p, e, r⟩
  · obtain ⟨p, e, h⟩ := C78_moon_frame T gha
    have r := radius_range (lunarMeans T)
    have n : p.norm = lunarRadius (lunarMeans T) := norm_eq (le_trans (by norm_num) r.1) h
    rw [← n] at r
    exact ⟨p, e, r⟩

/-- The latitude of the moon, for any mean arguments. -/
theorem latitude_range (m : Means) (L : ℝ) : |lunarLatitude m L| ≤ 19201 * second := by
  have hs := second_pos
  simp only [lunarLatitude]
  rw [show asec2rad = second from rfl, abs_mul, abs_of_pos hs, mul_comm]
  refine mul_le_mul_of_nonneg_right ?_ hs.le
  have b := fun x => abs_le.1 (abs_sin_le_one x)
  rw [abs_le]
  constructor <;> linarith [(b (m.F + L - m.s + second * (412 * sin (2 * m.F) + 541 * sin m.M))).1,
    (b (m.F + L - m.s + second * (412 * sin (2 * m.F) + 541 * sin m.M))).2,
    (b (m.F - 2 * m.D)).1, (b (m.F - 2 * m.D)).2, (b (m.l + m.F - 2 * m.D)).1, (b (m.l + m.F - 2 * m.D)).2,
    (b (-m.l + m.F - 2 * m.D)).1, (b (-m.l + m.F - 2 * m.D)).2, (b (-2 * m.l + m.F)).1,
    (b (-2 * m.l + m.F)).2, (b (m.M + m.F - 2 * m.D)).1, (b (m.M + m.F - 2 * m.D)).2,
    (b (-m.l + m.F)).1, (b (-m.l + m.F)).2, (b (-m.M + m.F - 2 * m.D)).1, (b (-m.M + m.F - 2 * m.D)).2]

/-- **C78**: at any time the declination of the sun is at most the obliquity, and that of the moon at most
28.78 degrees. -/
theorem C78_declination (T gha : ℝ) :
    (∃ p, solarApproximate T gha = .ok p ∧ |p.z| ≤ p.norm * sin obliquity) ∧
    ∃ p, lunarApproximate T gha = .ok p ∧ |p.z| ≤ p.norm * sin (28.78 * (π / 180)) := by
  have hp := pi_pos
  have e0 : 0 ≤ obliquity := by unfold obliquity; positivity
  have e1 : obliquity ≤ π / 2 := by unfold obliquity; linarith
  have se : 0 ≤ sin obliquity := sin_nonneg_of_nonneg_of_le_pi e0 (by linarith)
  have ce : 0 ≤ cos obliquity := cos_nonneg_of_neg_pi_div_two_le_of_le (by linarith) e1
  constructor
  · obtain ⟨p, e, h⟩ := C78_sun T gha
    have c1 := abs_le.1 (abs_cos_le_one (anomaly T))
    have c2 := abs_le.1 (abs_cos_le_one (2 * anomaly T))
    have r : 0 ≤ (sun (perigee T) (anomaly T)).distance := by
      simp only [sun]
      norm_num
      linarith [c1.1, c1.2, c2.1, c2.2]
    refine ⟨p, e, ?_⟩
    rw [norm_eq r h]
    have h3 : p.z = (equatorial obliquity (sun (perigee T) (anomaly T))).2.2 := congrArg (fun v => v.2.2) h
    rw [h3]
    simp only [equatorial]
    rw [show (sun (perigee T) (anomaly T)).latitude = 0 from rfl, cos_zero, sin_zero, one_mul, zero_mul,
      add_zero, abs_mul, abs_of_nonneg r, abs_mul, abs_of_nonneg se]
    refine mul_le_mul_of_nonneg_left ?_ r
    have := abs_sin_le_one (sun (perigee T) (anomaly T)).longitude
    nlinarith
  · obtain ⟨p, e, h⟩ := C78_moon_frame T gha
    have r : 0 ≤ lunarRadius (lunarMeans T) := le_trans (by norm_num) (radius_range _).1
    have b := latitude_range (lunarMeans T) (lunarLongitude (lunarMeans T))
    refine ⟨p, e, ?_⟩
    have n : p.norm = lunarRadius (lunarMeans T) := norm_eq r h
    have h3 : p.z = (equatorial obliquity (lunar (lunarMeans T))).2.2 := congrArg (fun v => v.2.2) h
    rw [n, h3]
    simp only [equatorial, lunar]
    rw [abs_mul, abs_of_nonneg r]
    refine mul_le_mul_of_nonneg_left ?_ r
    generalize lunarLatitude (lunarMeans T) (lunarLongitude (lunarMeans T)) = B at b
    generalize lunarLongitude (lunarMeans T) = L
    have hb : |B| ≤ 5.3337 * (π / 180) := by
      refine b.trans ?_
      unfold second
      linarith
    have b0 := abs_nonneg B
    have cb : 0 ≤ cos B := by
      rw [← cos_abs]
      exact cos_nonneg_of_neg_pi_div_two_le_of_le (by linarith) (by linarith)
    have sb : |sin B| = sin |B| := by
      rcases le_total 0 B with h0 | h0
      · rw [abs_of_nonneg h0] at hb ⊢
        exact abs_of_nonneg (sin_nonneg_of_nonneg_of_le_pi h0 (by linarith))
      · rw [abs_of_nonpos h0] at hb ⊢
        rw [sin_neg]
        exact abs_of_nonpos (sin_nonpos_of_nonpos_of_neg_pi_le h0 (by linarith))
    have t : |cos B * sin L * sin obliquity + sin B * cos obliquity| ≤ sin (obliquity + |B|) := by
      rw [sin_add, cos_abs, ← sb]
      refine (abs_add_le _ _).trans ?_
      rw [abs_mul, abs_mul, abs_mul, abs_of_nonneg cb, abs_of_nonneg se, abs_of_nonneg ce]
      have := abs_sin_le_one L
      nlinarith [mul_nonneg cb se]
    refine t.trans ?_
    have k : obliquity = 23.43929111 * (π / 180) := rfl
    exact sin_le_sin_of_le_of_le_pi_div_two (by linarith) (by linarith) (by rw [k]; linarith)

/-- **C78**: the hour angle turns the positions about the axis of the earth. -/
theorem C78_turn (T gha d : ℝ) (f : ℝ → ℝ → Except PyErr P3) (hf : f = solarApproximate ∨ f = lunarApproximate) :
    ∃ p q, f T gha = .ok p ∧ f T (gha + d) = .ok q ∧ q.all = turned (d * (π / 180)) p.all := by
  have key : ∀ v : ℝ × ℝ × ℝ, turned ((gha + d) * (π / 180)) v
      = turned (d * (π / 180)) (turned (gha * (π / 180)) v) := by
    intro v
    simp only [turned, add_mul, cos_add, sin_add, Prod.mk.injEq, and_true]
    constructor <;> ring
  rcases hf with rfl | rfl
  · obtain ⟨p, e, h⟩ := C78_sun T gha
    obtain ⟨q, e', h'⟩ := C78_sun T (gha + d)
    exact ⟨p, q, e, e', by rw [h', h, key]⟩
  · obtain ⟨p, e, h⟩ := C78_moon_frame T gha
    obtain ⟨q, e', h'⟩ := C78_moon_frame T (gha + d)
    exact ⟨p, q, e, e', by rw [h', h, key]⟩

/-- **C78**: the two kinds of ephemerides are found whatever the case of their name. -/
theorem C78_names (name : String) (a j : Except PyErr P3) :
    (name.toLower = "approximate" → ecef name a j = a.map some) ∧
    (name.toUpper = "JPL" → name.toLower ≠ "approximate" → ecef name a j = j.map some) := by
  unfold ecef
  refine ⟨fun h => by rw [if_pos h], fun h h' => by rw [if_neg h', if_pos h]⟩

example : "Approximate".toLower = "approximate" ∧ "jpl".toUpper = "JPL" ∧ "jpl".toLower ≠ "approximate" := by
  decide +kernel

/-- **C78** is false for other names: nothing is raised, the result is `None`. -/
theorem C78_names_false (name : String) (a j : Except PyErr P3) (h : name.toLower ≠ "approximate")
    (h' : name.toUpper ≠ "JPL") : ecef name a j = .ok none := by
  unfold ecef
  rw [if_neg h, if_neg h']

example : "DE440".toLower ≠ "approximate" ∧ "DE440".toUpper ≠ "JPL" := by decide +kernel

end Verif.Sky
