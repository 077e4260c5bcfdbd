import Verif.Lemmas.Zhu
import Verif.Props.Ellipsoid

/-!
# C33: from Cartesian to geodetic coordinates; C35: batches
-/

namespace Verif.Spatial

open Verif Real

theorem eSq_eq {a f : ℝ} (ha : 0 < a) (h0 : 0 ≤ f) (h1 : f < 1) : eSq a f = 2 * f - f ^ 2 := by
  unfold eSq
  rw [sq_sqrt (mul_nonneg (by nlinarith) (by positivity))]
  field_simp

/-- Longitude and distance from the axis determine `x` and `y`. -/
theorem lon_spec (q : P3) : axisDistance q * cos (geodeticLon q * (π / 180)) = q.x ∧
    axisDistance q * sin (geodeticLon q * (π / 180)) = q.y := by
  have e : geodeticLon q * (π / 180) = Complex.arg ⟨q.x, q.y⟩ := by
    unfold geodeticLon arctan2
    have := pi_ne_zero
    field_simp
  have hn : axisDistance q = ‖(⟨q.x, q.y⟩ : ℂ)‖ := by
    unfold axisDistance
    rw [Complex.norm_def, Complex.normSq_mk]
    congr 1
    ring
  rw [e, hn]
  exact ⟨Complex.norm_mul_cos_arg _, Complex.norm_mul_sin_arg _⟩

theorem lon_range (q : P3) : -180 < geodeticLon q ∧ geodeticLon q ≤ 180 := by
  have hp := pi_pos
  have h1 := Complex.neg_pi_lt_arg ⟨q.x, q.y⟩
  have h2 := Complex.arg_le_pi ⟨q.x, q.y⟩
  unfold geodeticLon arctan2
  constructor
  · rw [lt_div_iff₀ (by positivity)]; linarith
  · rw [div_le_iff₀ (by positivity)]; linarith

/-- The closed form for one point off the axis and away from the centre. -/
theorem zhu_point {a f w z : ℝ} (ha : 0 < a) (h0 : 0 ≤ f) (h1 : f < 1) (hw : 0 < w)
    (hreg : (2 * f - f ^ 2) ^ 2 < (w / a) ^ 2 + ((1 - f) * z / a) ^ 2) :
    let r := zhuPoint a f w z
    |r.1| < 90 ∧
      (primeVertical a f (r.1 * (π / 180)) + r.2) * cos (r.1 * (π / 180)) = w ∧
      (primeVertical a f (r.1 * (π / 180)) * (1 - ecc1 a f ^ 2) + r.2) * sin (r.1 * (π / 180)) = z ∧
      0 < primeVertical a f (r.1 * (π / 180)) * (1 - ecc1 a f ^ 2) + r.2 := by
  have hf : 0 < 1 - f := by linarith
  have hn : ((1 - (2 * f - f ^ 2)) * z / ((1 - f) * a)) ^ 2 = ((1 - f) * z / a) ^ 2 := by
    rw [show 1 - (2 * f - f ^ 2) = (1 - f) ^ 2 by ring]
    field_simp
  unfold zhuPoint
  dsimp only
  rw [eSq_eq ha h0 h1]
  set e2 := 2 * f - f ^ 2 with he2
  have he20 : 0 ≤ e2 := by rw [he2]; nlinarith
  have h1e : 1 - e2 = (1 - f) ^ 2 := by rw [he2]; ring
  have h1e0 : 0 < 1 - e2 := by rw [h1e]; positivity
  rw [hn]
  obtain ⟨t1, t2⟩ := zhu_root (l := e2 / 2) (m := (w / a) ^ 2) (n := ((1 - f) * z / a) ^ 2)
    (by linarith) (by positivity) (by positivity) (by linarith)
  set t := zhuT (e2 / 2) ((w / a) ^ 2) (((1 - f) * z / a) ^ 2)
  have p1 : 0 < t + e2 / 2 := by linarith
  have p2 : 0 < t - e2 / 2 := by linarith
  set wi := w / (t + e2 / 2) with hwi
  set zi := (1 - e2) * z / (t - e2 / 2) with hzi
  have hw' : w = wi * (t + e2 / 2) := (div_mul_cancel₀ _ p1.ne').symm
  have hz' : (1 - e2) * z = zi * (t - e2 / 2) := (div_mul_cancel₀ _ p2.ne').symm
  have hwi0 : 0 < wi := div_pos hw p1
  -- the foot of the normal lies on the ellipsoid
  have hfoot : (1 - e2) * wi ^ 2 + zi ^ 2 = (1 - e2) * a ^ 2 := by
    have hz2 : ((1 - f) * z) ^ 2 * (1 - e2) = (zi * (t - e2 / 2)) ^ 2 := by
      rw [← hz', h1e]; ring
    have e1 : ((w / a) ^ 2) * (t - e2 / 2) ^ 2 * a ^ 2 =
        wi ^ 2 * (t + e2 / 2) ^ 2 * (t - e2 / 2) ^ 2 := by
      rw [hw']; field_simp
    have e2' : (((1 - f) * z / a) ^ 2) * (t + e2 / 2) ^ 2 * a ^ 2 * (1 - e2) =
        zi ^ 2 * (t + e2 / 2) ^ 2 * (t - e2 / 2) ^ 2 := by
      have : (((1 - f) * z / a) ^ 2) * (t + e2 / 2) ^ 2 * a ^ 2 * (1 - e2) =
        ((1 - f) * z) ^ 2 * (1 - e2) * (t + e2 / 2) ^ 2 := by field_simp
      rw [this, hz2]; ring
    have hP : 0 < (t + e2 / 2) ^ 2 * (t - e2 / 2) ^ 2 := by positivity
    refine mul_left_cancel₀ hP.ne' ?_
    linear_combination -(1 - e2) * e1 - e2' - (1 - e2) * a ^ 2 * t2
  -- the direction of the normal
  set v : ℂ := ⟨(1 - e2) * wi, zi⟩ with hv
  have hvre : v.re = (1 - e2) * wi := rfl
  have hvim : v.im = zi := rfl
  have hR2 : ‖v‖ ^ 2 = ((1 - e2) * wi) ^ 2 + zi ^ 2 := by
    rw [← Complex.normSq_eq_norm_sq, Complex.normSq_mk]; ring
  have hR0 : 0 < ‖v‖ := by
    refine norm_pos_iff.2 fun h => ?_
    have : v.re = 0 := by rw [h]; rfl
    rw [hvre] at this
    exact (mul_pos h1e0 hwi0).ne' this
  have hcos := Complex.norm_mul_cos_arg v
  have hsin := Complex.norm_mul_sin_arg v
  rw [hvre] at hcos
  rw [hvim] at hsin
  have hth : arctan2 zi ((1 - e2) * wi) = v.arg := rfl
  rw [hth]
  have hdeg : v.arg / (π / 180) * (π / 180) = v.arg := by
    have := pi_ne_zero
    field_simp
  rw [hdeg]
  have hcpos : 0 < cos v.arg := by
    have : 0 < ‖v‖ * cos v.arg := by rw [hcos]; positivity
    exact (pos_iff_pos_of_mul_pos this).1 hR0
  have hrange : |v.arg| < π / 2 := Complex.abs_arg_lt_pi_div_two_iff.2 (Or.inl (by
    rw [hvre]; positivity))
  have hN : primeVertical a f v.arg = ‖v‖ / (1 - e2) := by
    unfold primeVertical
    rw [ecc1_sq ha h0 (by linarith), ← he2]
    have hrad : 1 - e2 * sin v.arg ^ 2 = ((1 - e2) * a / ‖v‖) ^ 2 := by
      have : ‖v‖ ^ 2 * (1 - e2 * sin v.arg ^ 2) = ((1 - e2) * a) ^ 2 := by
        have e3 : ‖v‖ ^ 2 * (1 - e2 * sin v.arg ^ 2) = ‖v‖ ^ 2 - e2 * (‖v‖ * sin v.arg) ^ 2 := by ring
        rw [e3, hsin, hR2]
        linear_combination (1 - e2) * hfoot
      rw [div_pow, ← this]
      field_simp
    rw [hrad, sqrt_sq (by positivity)]
    field_simp
  have hτw : w - wi = (t - 1 + e2 / 2) * wi := by rw [hw']; ring
  have hτz : z - zi = (t - 1 + e2 / 2) * (zi / (1 - e2)) := by
    have : z = zi * (t - e2 / 2) / (1 - e2) := by rw [← hz']; field_simp
    rw [this]
    field_simp
    ring
  have hh : Real.sign (t - 1 + e2 / 2) * sqrt ((w - wi) ^ 2 + (z - zi) ^ 2) =
      (t - 1 + e2 / 2) * (‖v‖ / (1 - e2)) := by
    rw [hτw, hτz]
    have : ((t - 1 + e2 / 2) * wi) ^ 2 + ((t - 1 + e2 / 2) * (zi / (1 - e2))) ^ 2 =
        (|t - 1 + e2 / 2| * (‖v‖ / (1 - e2))) ^ 2 := by
      rw [mul_pow |t - 1 + e2 / 2|, sq_abs, div_pow, hR2]
      field_simp
    rw [this, sqrt_sq (by positivity), ← mul_assoc, sign_mul_abs']
  rw [hN, hh, ecc1_sq ha h0 (by linarith), ← he2]
  refine ⟨?_, ?_, ?_, ?_⟩
  · have hp := pi_pos
    rw [abs_div, abs_of_pos (show 0 < π / 180 by positivity), div_lt_iff₀ (by positivity)]
    linarith
  · have e4 : (‖v‖ / (1 - e2) + (t - 1 + e2 / 2) * (‖v‖ / (1 - e2))) * cos v.arg =
        (t + e2 / 2) * (‖v‖ * cos v.arg) / (1 - e2) := by ring
    rw [e4, hcos]
    field_simp
    linarith
  · have e4 : (‖v‖ / (1 - e2) * (1 - e2) + (t - 1 + e2 / 2) * (‖v‖ / (1 - e2))) * sin v.arg =
        (1 - e2 + (t - 1 + e2 / 2)) * (‖v‖ * sin v.arg) / (1 - e2) := by
      field_simp
    rw [e4, hsin, show 1 - e2 + (t - 1 + e2 / 2) = t - e2 / 2 by ring, mul_comm, ← hz']
    field_simp
  · have e4 : ‖v‖ / (1 - e2) * (1 - e2) + (t - 1 + e2 / 2) * (‖v‖ / (1 - e2)) =
        (t - e2 / 2) * ‖v‖ / (1 - e2) := by
      field_simp
      ring
    rw [e4]
    positivity

/-- Points to which the closed form applies: off the axis, and outside a small ellipsoid around
the centre (for the Earth, 43 km across the equator). -/
def Regular (a f : ℝ) (q : P3) : Prop :=
  0 < axisDistance q ∧
    (2 * f - f ^ 2) ^ 2 < (axisDistance q / a) ^ 2 + ((1 - f) * q.z / a) ^ 2

theorem zhu_regular {a f : ℝ} {l : List P3} (hl : ∀ q ∈ l, 0 < axisDistance q) :
    zhu l a f = l.map fun q => (geodeticLon q, zhuPoint a f (axisDistance q) q.z) := by
  unfold zhu
  rw [if_neg]
  rintro ⟨q, hq, h⟩
  exact (hl q hq).ne' h

/-- C33: the closed form gives, for every batch of points off the axis and away from the centre,
coordinates in range whose Cartesian coordinates are exactly the given points. -/
theorem C33_zhu (l : List P3) (a f eps : ℝ) (iterations : ℕ) (method : String)
    (hm : method.toLower = "zhu") (ha : 0 < a) (h0 : 0 ≤ f) (h1 : f < 1)
    (hl : ∀ q ∈ l, Regular a f q) :
    ∃ r, toGeodetic l a f method eps iterations = .ok r ∧ r.length = l.length ∧
      ∀ (i : ℕ) (q : P3), l[i]? = some q → ∃ lon lat h, r[i]? = some (lon, lat, h) ∧
        toCartesian lon lat h a f = q ∧ -180 < lon ∧ lon ≤ 180 ∧ |lat| < 90 := by
  have n1 : ¬ "zhu" = "moritz" := by decide
  have n2 : ¬ "zhu" = "bowring" := by decide
  refine ⟨zhu l a f, ?_, ?_, ?_⟩
  · unfold toGeodetic; rw [hm, if_neg n1, if_neg n2, if_pos rfl]
  · rw [zhu_regular fun q hq => (hl q hq).1, List.length_map]
  · intro i q hq
    obtain ⟨hw, hreg⟩ := hl q (List.mem_of_getElem? hq)
    obtain ⟨z1, z2, z3, -⟩ := zhu_point ha h0 h1 hw hreg
    obtain ⟨l1, l2⟩ := lon_spec q
    refine ⟨geodeticLon q, (zhuPoint a f (axisDistance q) q.z).1,
      (zhuPoint a f (axisDistance q) q.z).2, ?_, ?_, (lon_range q).1, (lon_range q).2, z1⟩
    · rw [zhu_regular fun q hq => (hl q hq).1, List.getElem?_map, hq]; rfl
    · unfold toCartesian
      dsimp only
      rw [cos_wrapped, sin_wrapped, z2, z3, l1, l2]

/-- C33: points on the axis, given by themselves: the poles and heights along the axis. -/
theorem C33_zhu_axis (l : List P3) (a f eps : ℝ) (iterations : ℕ) (ha : 0 < a) (h0 : 0 ≤ f)
    (h1 : f < 1) (hl : ∀ q ∈ l, q.x = 0 ∧ q.y = 0 ∧ q.z ≠ 0) :
    ∃ r, toGeodetic l a f "zhu" eps iterations = .ok r ∧ r.length = l.length ∧
      ∀ (i : ℕ) (q : P3), l[i]? = some q → ∃ lon lat h, r[i]? = some (lon, lat, h) ∧
        toCartesian lon lat h a f = q := by
  have n1 : ¬ "zhu".toLower = "moritz" := by decide +kernel
  have n2 : ¬ "zhu".toLower = "bowring" := by decide +kernel
  have n3 : "zhu".toLower = "zhu" := by decide +kernel
  have hax : ∀ q ∈ l, axisDistance q = 0 := by
    intro q hq
    obtain ⟨x, y, -⟩ := hl q hq
    unfold axisDistance
    rw [x, y]; simp
  refine ⟨zhu l a f, ?_, ?_, ?_⟩
  · unfold toGeodetic; rw [if_neg n1, if_neg n2, if_pos n3]
  · unfold zhu; split <;> rw [List.length_map]
  · intro i q hq
    have hmem := List.mem_of_getElem? hq
    obtain ⟨hx, hy, hz⟩ := hl q hmem
    refine ⟨geodeticLon q, 90 * Real.sign q.z, Real.sign q.z * q.z - (1 - f) * a, ?_, ?_⟩
    · unfold zhu
      rw [if_pos ⟨q, hmem, hax q hmem⟩, List.getElem?_map, hq, Option.map_some, if_pos (hax q hmem)]
    · have hf : 0 < 1 - f := by linarith
      have hpv : ∀ phi, sin phi ^ 2 = 1 → primeVertical a f phi * (1 - ecc1 a f ^ 2) = (1 - f) * a := by
        intro phi hs
        unfold primeVertical
        rw [hs, ecc1_sq ha h0 (by linarith), mul_one, show 1 - (2 * f - f ^ 2) = (1 - f) ^ 2 by ring,
          sqrt_sq hf.le]
        field_simp
      unfold toCartesian
      dsimp only
      rcases lt_or_gt_of_ne hz with h | h
      · rw [Real.sign_of_neg h, show 90 * -1 * (π / 180) = -(π / 2) by ring, cos_neg, cos_pi_div_two,
          hpv _ (by rw [sin_neg, sin_pi_div_two]; norm_num), sin_neg, sin_pi_div_two]
        ext
        · dsimp only; rw [hx]; ring
        · dsimp only; rw [hy]; ring
        · dsimp only; ring
      · rw [Real.sign_of_pos h, show 90 * 1 * (π / 180) = π / 2 by ring, cos_pi_div_two,
          hpv _ (by rw [sin_pi_div_two]; norm_num), sin_pi_div_two]
        ext
        · dsimp only; rw [hx]; ring
        · dsimp only; rw [hy]; ring
        · dsimp only; ring

/-- Geodetic coordinates are determined by the distances from the axis and the equatorial plane:
the closed form finds the latitude and height a point was made from. -/
theorem zhu_inverse {a f lat h : ℝ} (ha : 0 < a) (h0 : 0 ≤ f) (h1 : f < 1) (hlat : |lat| < 90)
    (hh : 0 < primeVertical a f (lat * (π / 180)) * (1 - (2 * f - f ^ 2)) + h)
    (hreg : (2 * f - f ^ 2) ^ 2 <
      ((primeVertical a f (lat * (π / 180)) + h) * cos (lat * (π / 180)) / a) ^ 2 +
      ((1 - f) * ((primeVertical a f (lat * (π / 180)) * (1 - (2 * f - f ^ 2)) + h) *
        sin (lat * (π / 180))) / a) ^ 2) :
    zhuPoint a f ((primeVertical a f (lat * (π / 180)) + h) * cos (lat * (π / 180)))
      ((primeVertical a f (lat * (π / 180)) * (1 - (2 * f - f ^ 2)) + h) * sin (lat * (π / 180))) =
      (lat, h) := by
  have hp := pi_pos
  have hf : 0 < 1 - f := by linarith
  obtain ⟨b1, b2⟩ := abs_lt.1 hlat
  have c1 : -(π / 2) < lat * (π / 180) := by nlinarith
  have c2 : lat * (π / 180) < π / 2 := by nlinarith
  set phi := lat * (π / 180) with hphi
  have hC : 0 < cos phi := cos_pos_of_mem_Ioo ⟨c1, c2⟩
  have hr := radicand_pos h1 h0 phi
  have hsr0 := sqrt_pos.2 hr
  have hsr2 := sq_sqrt hr.le
  have hNd : primeVertical a f phi = a / sqrt (1 - (2 * f - f ^ 2) * sin phi ^ 2) := by
    unfold primeVertical; rw [ecc1_sq ha h0 (by linarith)]
  set ρ := sqrt (1 - (2 * f - f ^ 2) * sin phi ^ 2)
  set N := primeVertical a f phi
  have hN0 : 0 < N := by rw [hNd]; positivity
  have hNρ : N * ρ = a := by rw [hNd]; field_simp
  set e2 := 2 * f - f ^ 2 with he2
  have he20 : 0 ≤ e2 := by rw [he2]; nlinarith
  have h1e : 1 - e2 = (1 - f) ^ 2 := by rw [he2]; ring
  have h1e0 : 0 < 1 - e2 := by rw [h1e]; positivity
  have hNh : 0 < N + h := by nlinarith
  have hsc := sin_sq_add_cos_sq phi
  have hNa : N ^ 2 * (cos phi ^ 2 + (1 - e2) * sin phi ^ 2) = a ^ 2 := by
    rw [← hNρ, mul_pow, hsr2]; linear_combination N ^ 2 * hsc
  set w := (N + h) * cos phi with hw
  set z := (N * (1 - e2) + h) * sin phi with hz
  have hw0 : 0 < w := mul_pos hNh hC
  have hn : ((1 - e2) * z / ((1 - f) * a)) ^ 2 = ((1 - f) * z / a) ^ 2 := by
    rw [h1e]; field_simp
  have hτ : (t : ℝ) → t = 1 - e2 / 2 + h / N → t + e2 / 2 = (N + h) / N ∧
      t - e2 / 2 = (N * (1 - e2) + h) / N := by
    rintro t rfl
    constructor <;> field_simp <;> ring
  obtain ⟨u1, u2⟩ := hτ _ rfl
  have ht : zhuT (e2 / 2) ((w / a) ^ 2) (((1 - f) * z / a) ^ 2) = 1 - e2 / 2 + h / N := by
    apply zhu_unique (by linarith) (by positivity) (by positivity) (by linarith)
    · have : 0 < 1 - e2 / 2 + h / N - e2 / 2 := by rw [u2]; positivity
      linarith
    · have e5 : (1 - e2 / 2 + h / N) ^ 2 - (e2 / 2) ^ 2 =
          (1 - e2 / 2 + h / N - e2 / 2) * (1 - e2 / 2 + h / N + e2 / 2) := by ring
      rw [e5, u1, u2, hw, hz]
      have e6 : ((1 - f) * ((N * (1 - e2) + h) * sin phi) / a) ^ 2 =
          (1 - e2) * ((N * (1 - e2) + h) * sin phi) ^ 2 / a ^ 2 := by rw [h1e]; ring
      rw [e6]
      field_simp
      linear_combination -hNa
  unfold zhuPoint
  dsimp only
  rw [eSq_eq ha h0 h1, ← he2, hn, ht, u1, u2]
  have hwi : w / ((N + h) / N) = N * cos phi := by rw [hw]; field_simp
  have hzi : (1 - e2) * z / ((N * (1 - e2) + h) / N) = (1 - e2) * N * sin phi := by
    have : N * (1 - e2) + h ≠ 0 := hh.ne'
    rw [hz]
    generalize N * (1 - e2) + h = H at this ⊢
    field_simp
  rw [hwi, hzi]
  have harg : arctan2 ((1 - e2) * N * sin phi) ((1 - e2) * (N * cos phi)) = phi := by
    unfold arctan2
    have e : (⟨(1 - e2) * (N * cos phi), (1 - e2) * N * sin phi⟩ : ℂ) =
        (((1 - e2) * N : ℝ) : ℂ) * (Complex.cos phi + Complex.sin phi * Complex.I) := by
      rw [← Complex.ofReal_cos, ← Complex.ofReal_sin]
      apply Complex.ext
      · rw [Complex.re_ofReal_mul, Complex.add_re, Complex.mul_I_re, Complex.ofReal_re,
          Complex.ofReal_im]
        ring
      · rw [Complex.im_ofReal_mul, Complex.add_im, Complex.mul_I_im, Complex.ofReal_re,
          Complex.ofReal_im]
        ring
    rw [e]
    exact Complex.arg_mul_cos_add_sin_mul_I (mul_pos h1e0 hN0) ⟨by linarith, by linarith⟩
  rw [harg]
  refine Prod.ext ?_ ?_
  · dsimp only; rw [hphi]; field_simp
  · dsimp only
    have e7 : (w - N * cos phi) ^ 2 + (z - (1 - e2) * N * sin phi) ^ 2 = |h| ^ 2 := by
      rw [sq_abs, hw, hz]; linear_combination h ^ 2 * hsc
    rw [e7, sqrt_sq (abs_nonneg h), show 1 - e2 / 2 + h / N - 1 + e2 / 2 = h / N by ring]
    have e8 : Real.sign (h / N) = Real.sign h := by
      rcases lt_trichotomy h 0 with k | k | k
      · rw [Real.sign_of_neg k, Real.sign_of_neg (div_neg_of_neg_of_pos k hN0)]
      · rw [k, zero_div]
      · rw [Real.sign_of_pos k, Real.sign_of_pos (div_pos k hN0)]
    rw [e8, sign_mul_abs']

/-- Distance from the axis and longitude of a point given by geodetic coordinates. -/
theorem axis_lon_of {lon lat h a f : ℝ} (l0 : -180 < lon) (l1 : lon ≤ 180)
    (hw : 0 < (primeVertical a f (lat * (π / 180)) + h) * cos (lat * (π / 180))) :
    axisDistance (toCartesian lon lat h a f) =
        (primeVertical a f (lat * (π / 180)) + h) * cos (lat * (π / 180)) ∧
      geodeticLon (toCartesian lon lat h a f) = lon := by
  have hp := pi_pos
  unfold axisDistance geodeticLon toCartesian arctan2
  dsimp only
  rw [cos_wrapped, sin_wrapped]
  set W := (primeVertical a f (lat * (π / 180)) + h) * cos (lat * (π / 180))
  constructor
  · rw [show (W * cos (lon * (π / 180))) ^ 2 + (W * sin (lon * (π / 180))) ^ 2 = W ^ 2 by
      linear_combination W ^ 2 * sin_sq_add_cos_sq (lon * (π / 180))]
    exact sqrt_sq hw.le
  · have e : (⟨W * cos (lon * (π / 180)), W * sin (lon * (π / 180))⟩ : ℂ) =
        ((W : ℝ) : ℂ) * (Complex.cos ((lon * (π / 180) : ℝ) : ℂ) +
          Complex.sin ((lon * (π / 180) : ℝ) : ℂ) * Complex.I) := by
      rw [← Complex.ofReal_cos, ← Complex.ofReal_sin]
      apply Complex.ext
      · rw [Complex.re_ofReal_mul, Complex.add_re, Complex.mul_I_re, Complex.ofReal_re,
          Complex.ofReal_im]
        ring
      · rw [Complex.im_ofReal_mul, Complex.add_im, Complex.mul_I_im, Complex.ofReal_re,
          Complex.ofReal_im]
        ring
    rw [e, Complex.arg_mul_cos_add_sin_mul_I hw ⟨by nlinarith, by nlinarith⟩]
    field_simp

/-- C33: from geodetic to Cartesian coordinates and back with the closed form, for every point of
an ellipsoid flattened by no more than a tenth, down to a depth of half the semi-major axis. -/
theorem C33_zhu_round_trip (lon lat h a f eps : ℝ) (iterations : ℕ) (ha : 0 < a) (h0 : 0 ≤ f)
    (h1 : f ≤ 1 / 10) (l0 : -180 < lon) (l1 : lon ≤ 180) (hlat : |lat| < 90) (hh : -(a / 2) ≤ h) :
    toGeodetic [toCartesian lon lat h a f] a f "zhu" eps iterations = .ok [(lon, lat, h)] := by
  have n1 : ¬ "zhu".toLower = "moritz" := by decide +kernel
  have n2 : ¬ "zhu".toLower = "bowring" := by decide +kernel
  have n3 : "zhu".toLower = "zhu" := by decide +kernel
  obtain ⟨b1, b2⟩ := abs_lt.1 hlat
  have hp := pi_pos
  have hC : 0 < cos (lat * (π / 180)) := cos_pos_of_mem_Ioo ⟨by nlinarith, by nlinarith⟩
  have hf : f < 1 := by linarith
  have hr := radicand_pos hf h0 (lat * (π / 180))
  have hNa : a ≤ primeVertical a f (lat * (π / 180)) := by
    unfold primeVertical
    rw [ecc1_sq ha h0 (by linarith), le_div_iff₀ (sqrt_pos.2 hr)]
    have : sqrt (1 - (2 * f - f ^ 2) * sin (lat * (π / 180)) ^ 2) ≤ 1 := by
      refine sqrt_le_one.2 ?_
      have : 0 ≤ 2 * f - f ^ 2 := by nlinarith
      nlinarith [sq_nonneg (sin (lat * (π / 180)))]
    nlinarith
  set N := primeVertical a f (lat * (π / 180)) with hN
  have he : 0 ≤ 2 * f - f ^ 2 ∧ 2 * f - f ^ 2 ≤ 19 / 100 := by constructor <;> nlinarith
  set e2 := 2 * f - f ^ 2 with he2
  have hH : 31 / 100 * a ≤ N * (1 - e2) + h := by nlinarith
  have hNh : N * (1 - e2) + h ≤ N + h := by nlinarith
  have hW : 0 < (N + h) * cos (lat * (π / 180)) := mul_pos (by nlinarith) hC
  obtain ⟨x1, x2⟩ := axis_lon_of (h := h) l0 l1 hW
  have hz : (toCartesian lon lat h a f).z = (N * (1 - e2) + h) * sin (lat * (π / 180)) := by
    unfold toCartesian
    dsimp only
    rw [ecc1_sq ha h0 (by linarith)]
  have hreg : e2 ^ 2 < ((N + h) * cos (lat * (π / 180)) / a) ^ 2 +
      ((1 - f) * ((N * (1 - e2) + h) * sin (lat * (π / 180))) / a) ^ 2 := by
    set H := N * (1 - e2) + h
    have hH' : 31 / 100 ≤ H / a := by rw [le_div_iff₀ ha]; exact hH
    have hK' : H / a ≤ (N + h) / a := by gcongr
    have hsc := sin_sq_add_cos_sq (lat * (π / 180))
    have k1 : (31 / 100) ^ 2 ≤ (H / a) ^ 2 := by gcongr
    have k2 : (H / a) ^ 2 ≤ ((N + h) / a) ^ 2 := by
      have : 0 ≤ H / a := by linarith
      gcongr
    have k3 : (81 / 100 : ℝ) ≤ (1 - f) ^ 2 := by nlinarith
    have s0 := sq_nonneg (sin (lat * (π / 180)))
    have c0 := sq_nonneg (cos (lat * (π / 180)))
    have e1 : ((N + h) * cos (lat * (π / 180)) / a) ^ 2 =
      ((N + h) / a) ^ 2 * cos (lat * (π / 180)) ^ 2 := by ring
    have e3 : ((1 - f) * (H * sin (lat * (π / 180))) / a) ^ 2 =
      (1 - f) ^ 2 * ((H / a) ^ 2 * sin (lat * (π / 180)) ^ 2) := by ring
    rw [e1, e3]
    have m1 : (31 / 100) ^ 2 * cos (lat * (π / 180)) ^ 2 ≤
        ((N + h) / a) ^ 2 * cos (lat * (π / 180)) ^ 2 :=
      mul_le_mul_of_nonneg_right (k1.trans k2) c0
    have m2 : 81 / 100 * ((31 / 100) ^ 2 * sin (lat * (π / 180)) ^ 2) ≤
        (1 - f) ^ 2 * ((H / a) ^ 2 * sin (lat * (π / 180)) ^ 2) :=
      mul_le_mul k3 (mul_le_mul_of_nonneg_right k1 s0) (by positivity) (by positivity)
    have m3 : e2 ^ 2 ≤ (19 / 100) ^ 2 := by
      have := he.1
      gcongr
      exact he.2
    nlinarith
  have hinv := zhu_inverse ha h0 hf hlat (h := h) (by nlinarith) hreg
  unfold toGeodetic
  rw [if_neg n1, if_neg n2, if_pos n3, zhu_regular (by
    intro q hq
    rw [List.mem_singleton] at hq
    rw [hq, x1]
    exact hW)]
  rw [List.map_singleton, x1, x2, hz, hinv]

end Verif.Spatial
