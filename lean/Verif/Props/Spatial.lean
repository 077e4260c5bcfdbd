import Verif.Model.Spatial
import Verif.Lemmas.Num
import Mathlib.Tactic.FieldSimp
import Mathlib.Tactic.LinearCombination

/-!
# C32: local coordinates; C33: geodetic to Cartesian; C34: degrees, minutes and seconds
-/

namespace Verif.Spatial

open Verif Real

/-! ## Degrees -/

theorem deg_turn (lon : ℝ) : (lon + 360) * (π / 180) = lon * (π / 180) + 2 * π := by ring

theorem cos_wrapped (lon : ℝ) :
    cos ((if lon < 0 then lon + 360 else lon) * (π / 180)) = cos (lon * (π / 180)) := by
  split
  · rw [deg_turn, cos_add_two_pi]
  · rfl

theorem sin_wrapped (lon : ℝ) :
    sin ((if lon < 0 then lon + 360 else lon) * (π / 180)) = sin (lon * (π / 180)) := by
  split
  · rw [deg_turn, sin_add_two_pi]
  · rfl

/-! ## C32: local coordinates -/

theorem rotate_back (lon0 lat0 : ℝ) (v : P3) : rotateECEF lon0 lat0 (rotateENU lon0 lat0 v) = v := by
  have h1 := sin_sq_add_cos_sq (π / 180 * lon0)
  have h2 := sin_sq_add_cos_sq (π / 180 * lat0)
  unfold rotateECEF rotateENU
  dsimp only
  set s := sin (π / 180 * lon0)
  set c := cos (π / 180 * lon0)
  set S := sin (π / 180 * lat0)
  set C := cos (π / 180 * lat0)
  ext
  · dsimp only; linear_combination (v.x * c ^ 2 + v.y * c * s) * h2 + v.x * h1
  · dsimp only; linear_combination (v.x * c * s + v.y * s ^ 2) * h2 + v.y * h1
  · dsimp only; linear_combination v.z * h2

theorem rotate_forth (lon0 lat0 : ℝ) (v : P3) : rotateENU lon0 lat0 (rotateECEF lon0 lat0 v) = v := by
  have h1 := sin_sq_add_cos_sq (π / 180 * lon0)
  have h2 := sin_sq_add_cos_sq (π / 180 * lat0)
  unfold rotateECEF rotateENU
  dsimp only
  set s := sin (π / 180 * lon0)
  set c := cos (π / 180 * lon0)
  set S := sin (π / 180 * lat0)
  set C := cos (π / 180 * lat0)
  ext
  · dsimp only; linear_combination v.x * h1
  · dsimp only
    linear_combination (v.y * S ^ 2 - v.z * S * C) * h1 + v.y * h2
  · dsimp only
    linear_combination (v.z * C ^ 2 - v.y * S * C) * h1 + v.z * h2

/-- C32: converting to local coordinates and back returns the point, for every reference. -/
theorem C32_round_trip (p : P3) (lon0 lat0 h0 a f : ℝ) :
    fromENU (toENU p lon0 lat0 h0 a f) lon0 lat0 h0 a f = p := by
  unfold fromENU toENU
  dsimp only
  rw [rotate_back]
  ext <;> dsimp only <;> ring

/-- C32: and the other way round. -/
theorem C32_round_trip_local (e : P3) (lon0 lat0 h0 a f : ℝ) :
    toENU (fromENU e lon0 lat0 h0 a f) lon0 lat0 h0 a f = e := by
  unfold fromENU toENU
  dsimp only
  have : ∀ u o : P3, (⟨u.x + o.x - o.x, u.y + o.y - o.y, u.z + o.z - o.z⟩ : P3) = u := by
    intro u o
    ext <;> dsimp only <;> ring
  rw [this, rotate_forth]

/-- C32: distances between points are those between their local coordinates. -/
theorem C32_distance (p q : P3) (lon0 lat0 h0 a f : ℝ) :
    let e := toENU p lon0 lat0 h0 a f
    let d := toENU q lon0 lat0 h0 a f
    (e.x - d.x) ^ 2 + (e.y - d.y) ^ 2 + (e.z - d.z) ^ 2 =
      (p.x - q.x) ^ 2 + (p.y - q.y) ^ 2 + (p.z - q.z) ^ 2 := by
  have h1 := sin_sq_add_cos_sq (π / 180 * lon0)
  have h2 := sin_sq_add_cos_sq (π / 180 * lat0)
  unfold toENU rotateENU
  dsimp only
  set s := sin (π / 180 * lon0)
  set c := cos (π / 180 * lon0)
  set S := sin (π / 180 * lat0)
  set C := cos (π / 180 * lat0)
  set x := p.x - q.x with hx
  set y := p.y - q.y with hy
  set z := p.z - q.z with hz
  have ex : p.x = x + q.x := by rw [hx]; ring
  have ey : p.y = y + q.y := by rw [hy]; ring
  have ez : p.z = z + q.z := by rw [hz]; ring
  rw [ex, ey, ez]
  linear_combination (x ^ 2 + y ^ 2) * h1 + ((c * x + s * y) ^ 2 + z ^ 2) * h2

/-- C32: the third axis points up: the point a height above the reference has no east and no
north coordinate. -/
theorem C32_up (lon0 lat0 h0 d a f : ℝ) :
    toENU (toCartesian lon0 lat0 (h0 + d) a f) lon0 lat0 h0 a f = ⟨0, 0, d⟩ := by
  have h1 := sin_sq_add_cos_sq (lon0 * (π / 180))
  have h2 := sin_sq_add_cos_sq (lat0 * (π / 180))
  unfold toENU rotateENU toCartesian
  dsimp only
  rw [cos_wrapped, sin_wrapped, mul_comm (π / 180) lon0, mul_comm (π / 180) lat0]
  set s := sin (lon0 * (π / 180))
  set c := cos (lon0 * (π / 180))
  set S := sin (lat0 * (π / 180))
  set C := cos (lat0 * (π / 180))
  ext
  · dsimp only; ring
  · dsimp only; linear_combination (-d * S * C) * h1
  · dsimp only; linear_combination (d * C ^ 2) * h1 + d * h2

/-- C32: the first axis points east: it is level with the equator, at right angles to the
meridian plane of the reference, and turns in the sense of increasing longitude. -/
theorem C32_east (lon0 lat0 h0 a f t : ℝ) :
    let o := toCartesian lon0 lat0 h0 a f
    let q := fromENU ⟨t, 0, 0⟩ lon0 lat0 h0 a f
    q.z = o.z ∧ (q.x - o.x) * o.x + (q.y - o.y) * o.y = 0 ∧
      (q.y - o.y) * cos (lon0 * (π / 180)) - (q.x - o.x) * sin (lon0 * (π / 180)) = t := by
  have h1 := sin_sq_add_cos_sq (lon0 * (π / 180))
  unfold fromENU rotateECEF toCartesian
  dsimp only
  rw [cos_wrapped, sin_wrapped, mul_comm (π / 180) lon0, mul_comm (π / 180) lat0]
  refine ⟨by ring, by ring, ?_⟩
  linear_combination t * h1

/-! ### Horizontal coordinates -/

theorem fmod_turns (x : ℝ) : ∃ k : ℤ, Num.fmod x 360 = x + 360 * k := by
  refine ⟨-⌊x / 360⌋, ?_⟩
  unfold Num.fmod
  push_cast; ring

/-- C32: altitude, azimuth and distance give back the local coordinates: azimuth counts from
north to east. -/
theorem C32_horizontal (e : P3) (he : 0 < e.x ^ 2 + e.y ^ 2 + e.z ^ 2) :
    let r := toHorizontal e
    e.x = r.2.2 * cos (r.1 * (π / 180)) * sin (r.2.1 * (π / 180)) ∧
    e.y = r.2.2 * cos (r.1 * (π / 180)) * cos (r.2.1 * (π / 180)) ∧
    e.z = r.2.2 * sin (r.1 * (π / 180)) := by
  unfold toHorizontal arctan2
  dsimp only
  set D := sqrt (e.x ^ 2 + e.y ^ 2 + e.z ^ 2) with hD
  have hD0 : 0 < D := sqrt_pos.2 he
  have hD2 : D ^ 2 = e.x ^ 2 + e.y ^ 2 + e.z ^ 2 := sq_sqrt he.le
  have hz : |e.z / D| ≤ 1 := by
    rw [abs_div, abs_of_pos hD0, div_le_one hD0]
    refine abs_le_of_sq_le_sq ?_ hD0.le
    nlinarith [sq_nonneg e.x, sq_nonneg e.y]
  obtain ⟨z1, z2⟩ := abs_le.1 hz
  have e1 : arcsin (e.z / D) * 180 / π * (π / 180) = arcsin (e.z / D) := by
    field_simp [pi_ne_zero]
  rw [e1, sin_arcsin z1 z2, cos_arcsin]
  obtain ⟨k, hk⟩ := fmod_turns (Complex.arg ⟨e.y / D, e.x / D⟩ * 180 / π)
  have e2 : Num.fmod (Complex.arg ⟨e.y / D, e.x / D⟩ * 180 / π) 360 * (π / 180) =
      Complex.arg ⟨e.y / D, e.x / D⟩ + k * (2 * π) := by
    rw [hk]
    field_simp [pi_ne_zero]
    ring
  rw [e2, sin_add_int_mul_two_pi, cos_add_int_mul_two_pi]
  set w : ℂ := ⟨e.y / D, e.x / D⟩ with hw
  have hnorm : sqrt (1 - (e.z / D) ^ 2) = ‖w‖ := by
    rw [Complex.norm_def, Complex.normSq_apply]
    congr 1
    simp only [hw]
    field_simp
    nlinarith
  rw [hnorm]
  have hs := Complex.norm_mul_sin_arg w
  have hc := Complex.norm_mul_cos_arg w
  refine ⟨?_, ?_, ?_⟩
  · rw [mul_assoc, hs]; simp only [hw]; field_simp
  · rw [mul_assoc, hc]; simp only [hw]; field_simp
  · field_simp

/-- C32: altitude lies between -90 and 90 degrees, azimuth in [0, 360), and the distance is that
from the observer. -/
theorem C32_horizontal_range (e : P3) :
    let r := toHorizontal e;
    -90 ≤ r.1 ∧ r.1 ≤ 90 ∧ 0 ≤ r.2.1 ∧ r.2.1 < 360 ∧
      r.2.2 = sqrt (e.x ^ 2 + e.y ^ 2 + e.z ^ 2) := by
  unfold toHorizontal
  dsimp only
  have h1 := neg_pi_div_two_le_arcsin (e.z / sqrt (e.x ^ 2 + e.y ^ 2 + e.z ^ 2))
  have h2 := arcsin_le_pi_div_two (e.z / sqrt (e.x ^ 2 + e.y ^ 2 + e.z ^ 2))
  refine ⟨?_, ?_, Num.fmod_nonneg (by norm_num), Num.fmod_lt (by norm_num), rfl⟩
  · rw [le_div_iff₀ pi_pos]; linarith
  · rw [div_le_iff₀ pi_pos]; linarith

/-- C32: the zenith angle lies in [0, 180], is the angle between the vertical and the direction
to the object, and is zero for objects above the observer. -/
theorem C32_zenith (p : P3) (lon0 lat0 h0 a f : ℝ) :
    0 ≤ toZenith p lon0 lat0 h0 a f ∧ toZenith p lon0 lat0 h0 a f ≤ 180 ∧
    (p ≠ toCartesian lon0 lat0 h0 a f →
      let o := toCartesian lon0 lat0 h0 a f
      cos (toZenith p lon0 lat0 h0 a f * (π / 180)) *
          sqrt ((p.x - o.x) ^ 2 + (p.y - o.y) ^ 2 + (p.z - o.z) ^ 2) =
        (p.x - o.x) * (cos (lat0 * (π / 180)) * cos (lon0 * (π / 180))) +
        (p.y - o.y) * (cos (lat0 * (π / 180)) * sin (lon0 * (π / 180))) +
        (p.z - o.z) * sin (lat0 * (π / 180))) := by
  obtain ⟨h1, h2, -, -, h5⟩ := C32_horizontal_range (toENU p lon0 lat0 h0 a f)
  refine ⟨by unfold toZenith; linarith, by unfold toZenith; linarith, fun hne => ?_⟩
  intro o
  have hd := C32_distance p o lon0 lat0 h0 a f
  have ho : toENU o lon0 lat0 h0 a f = ⟨0, 0, 0⟩ := by
    have := C32_up lon0 lat0 h0 0 a f
    rw [add_zero] at this
    exact this
  rw [ho] at hd
  dsimp only at hd
  simp only [sub_zero] at hd
  have hpos : 0 < (p.x - o.x) ^ 2 + (p.y - o.y) ^ 2 + (p.z - o.z) ^ 2 := by
    rcases lt_or_eq_of_le (by positivity :
      0 ≤ (p.x - o.x) ^ 2 + (p.y - o.y) ^ 2 + (p.z - o.z) ^ 2) with h | h
    · exact h
    · exfalso
      apply hne
      have hx : (p.x - o.x) ^ 2 = 0 := by nlinarith [sq_nonneg (p.x - o.x), sq_nonneg (p.y - o.y), sq_nonneg (p.z - o.z)]
      have hy : (p.y - o.y) ^ 2 = 0 := by nlinarith [sq_nonneg (p.x - o.x), sq_nonneg (p.y - o.y), sq_nonneg (p.z - o.z)]
      have hz : (p.z - o.z) ^ 2 = 0 := by nlinarith [sq_nonneg (p.x - o.x), sq_nonneg (p.y - o.y), sq_nonneg (p.z - o.z)]
      exact P3.ext (sub_eq_zero.1 ((pow_eq_zero_iff two_ne_zero).1 hx)) (sub_eq_zero.1 ((pow_eq_zero_iff two_ne_zero).1 hy))
        (sub_eq_zero.1 ((pow_eq_zero_iff two_ne_zero).1 hz))
  have hh := C32_horizontal (toENU p lon0 lat0 h0 a f) (by rw [hd]; exact hpos)
  have h3 := hh.2.2
  rw [h5, hd] at h3
  unfold toZenith
  rw [show (90 - (toHorizontal (toENU p lon0 lat0 h0 a f)).1) * (π / 180) =
    π / 2 - (toHorizontal (toENU p lon0 lat0 h0 a f)).1 * (π / 180) by ring, cos_pi_div_two_sub,
    mul_comm, ← h3]
  unfold toENU rotateENU
  dsimp only
  rw [mul_comm (π / 180) lon0, mul_comm (π / 180) lat0]
  ring

/-- The point above the reference, seen from it: the hypothesis of the last part is met. -/
example : toZenith (toCartesian 10 20 1000 6378137 (1 / 298)) 10 20 0 6378137 (1 / 298) = 0 := by
  unfold toZenith
  have := C32_up 10 20 0 1000 6378137 (1 / 298)
  rw [zero_add] at this
  rw [this]
  unfold toHorizontal
  dsimp only
  rw [show sqrt ((0 : ℝ) ^ 2 + 0 ^ 2 + 1000 ^ 2) = 1000 by
    rw [show ((0 : ℝ) ^ 2 + 0 ^ 2 + 1000 ^ 2) = 1000 ^ 2 by norm_num]
    exact sqrt_sq (by norm_num)]
  rw [div_self (by norm_num), arcsin_one]
  field_simp [pi_ne_zero]
  norm_num

/-! ## C33: geodetic to Cartesian coordinates -/

theorem ecc1_sq {a f : ℝ} (ha : 0 < a) (h0 : 0 ≤ f) (h1 : f ≤ 2) : ecc1 a f ^ 2 = 2 * f - f ^ 2 := by
  unfold ecc1
  rw [div_pow, sq_sqrt (mul_nonneg (by nlinarith) (by positivity))]
  field_simp

theorem radicand_pos {f : ℝ} (h1 : f < 1) (h0 : 0 ≤ f) (phi : ℝ) :
    0 < 1 - (2 * f - f ^ 2) * sin phi ^ 2 := by
  have h2 := sin_sq_le_one phi
  have h3 := sq_nonneg (sin phi)
  have h4 : 0 ≤ 2 * f - f ^ 2 := by nlinarith
  nlinarith [sq_pos_of_pos (by linarith : 0 < 1 - f)]

/-- C33: points of height zero satisfy the equation of the ellipsoid with semi-axes `a` and
`(1 - f) a`, for every longitude and latitude. -/
theorem C33_on_ellipsoid (lon lat a f : ℝ) (ha : 0 < a) (h0 : 0 ≤ f) (h1 : f < 1) :
    let p := toCartesian lon lat 0 a f
    (p.x ^ 2 + p.y ^ 2) / a ^ 2 + p.z ^ 2 / ((1 - f) * a) ^ 2 = 1 := by
  have hc := sin_sq_add_cos_sq (lon * (π / 180))
  have hl := sin_sq_add_cos_sq (lat * (π / 180))
  unfold toCartesian primeVertical
  dsimp only
  rw [cos_wrapped, sin_wrapped, ecc1_sq ha h0 (by linarith)]
  have hr := radicand_pos h1 h0 (lat * (π / 180))
  have hs := sq_sqrt hr.le
  have hs0 := sqrt_pos.2 hr
  set r := sqrt (1 - (2 * f - f ^ 2) * sin (lat * (π / 180)) ^ 2)
  have hf : (0 : ℝ) < 1 - f := by linarith
  set S := sin (lat * (π / 180))
  set C := cos (lat * (π / 180))
  set s := sin (lon * (π / 180))
  set c := cos (lon * (π / 180))
  rw [add_zero, add_zero, show 1 - (2 * f - f ^ 2) = (1 - f) ^ 2 by ring]
  have e : ((a / r * C * c) ^ 2 + (a / r * C * s) ^ 2) / a ^ 2 +
      (a / r * (1 - f) ^ 2 * S) ^ 2 / ((1 - f) * a) ^ 2 =
      (C ^ 2 * (s ^ 2 + c ^ 2) + (1 - f) ^ 2 * S ^ 2) / r ^ 2 := by
    field_simp
    ring
  rw [e, hc, hs, div_eq_one_iff_eq hr.ne']
  linear_combination hl

/-- C33: height is measured along the normal of the ellipsoid: raising a point moves it along
the vector (cos φ cos λ, cos φ sin λ, sin φ), which is the direction of the gradient of the
equation of the ellipsoid. -/
theorem C33_height (lon lat h a f : ℝ) (ha : 0 < a) (h0 : 0 ≤ f) (h1 : f < 1) :
    let p := toCartesian lon lat 0 a f
    let q := toCartesian lon lat h a f
    let n : P3 := ⟨cos (lat * (π / 180)) * cos (lon * (π / 180)),
      cos (lat * (π / 180)) * sin (lon * (π / 180)), sin (lat * (π / 180))⟩
    (q.x = p.x + h * n.x ∧ q.y = p.y + h * n.y ∧ q.z = p.z + h * n.z) ∧
      ∃ k, 0 < k ∧ k * n.x = p.x / a ^ 2 ∧ k * n.y = p.y / a ^ 2 ∧
        k * n.z = p.z / ((1 - f) * a) ^ 2 := by
  unfold toCartesian primeVertical
  dsimp only
  rw [cos_wrapped, sin_wrapped, ecc1_sq ha h0 (by linarith)]
  have hr := radicand_pos h1 h0 (lat * (π / 180))
  have hs0 := sqrt_pos.2 hr
  set r := sqrt (1 - (2 * f - f ^ 2) * sin (lat * (π / 180)) ^ 2)
  have hf : (0 : ℝ) < 1 - f := by linarith
  refine ⟨⟨by ring, by ring, by ring⟩, 1 / (r * a), by positivity, ?_, ?_, ?_⟩
  · field_simp; ring
  · field_simp; ring
  · rw [show 1 - (2 * f - f ^ 2) = (1 - f) ^ 2 by ring]
    field_simp
    ring

/-! ### The sphere -/

theorem primeVertical_sphere {a : ℝ} (ha : a ≠ 0) (phi : ℝ) : primeVertical a 0 phi = a := by
  unfold primeVertical ecc1
  simp

theorem ecc1_sphere (a : ℝ) : ecc1 a 0 = 0 := by unfold ecc1; simp

/-- C33: from spherical coordinates to Cartesian ones and back. -/
theorem C33_sphere_round_trip (lon lat r : ℝ) (hr : 0 < r) (h0 : 0 ≤ lon) (h1 : lon < 360)
    (l0 : -90 < lat) (l1 : lat < 90) :
    toSphere (toCartesian lon lat 0 r 0) = (lon, lat, r) := by
  have hc := sin_sq_add_cos_sq (lon * (π / 180))
  have hl := sin_sq_add_cos_sq (lat * (π / 180))
  have hpi := pi_pos
  have hC : 0 < cos (lat * (π / 180)) := cos_pos_of_mem_Ioo ⟨by nlinarith, by nlinarith⟩
  unfold toSphere toCartesian
  dsimp only
  rw [cos_wrapped, sin_wrapped, primeVertical_sphere hr.ne', ecc1_sphere]
  set C := cos (lat * (π / 180)) with hCd
  have hrad : sqrt (((r + 0) * C * cos (lon * (π / 180))) ^ 2 +
      ((r + 0) * C * sin (lon * (π / 180))) ^ 2 +
      ((r * (1 - 0 ^ 2) + 0) * sin (lat * (π / 180))) ^ 2) = r := by
    rw [show ((r + 0) * C * cos (lon * (π / 180))) ^ 2 +
      ((r + 0) * C * sin (lon * (π / 180))) ^ 2 +
      ((r * (1 - 0 ^ 2) + 0) * sin (lat * (π / 180))) ^ 2 = r ^ 2 by
        linear_combination (r ^ 2 * C ^ 2) * hc + r ^ 2 * hl]
    exact sqrt_sq hr.le
  rw [hrad]
  have harg : arctan2 ((r + 0) * C * sin (lon * (π / 180)))
      ((r + 0) * C * cos (lon * (π / 180))) =
      if lon ≤ 180 then lon * (π / 180) else lon * (π / 180) - 2 * π := by
    unfold arctan2
    have e : ∀ θ : ℝ, cos θ = cos (lon * (π / 180)) → sin θ = sin (lon * (π / 180)) →
        (⟨(r + 0) * C * cos (lon * (π / 180)), (r + 0) * C * sin (lon * (π / 180))⟩ : ℂ) =
        ((r * C : ℝ) : ℂ) * (Complex.cos θ + Complex.sin θ * Complex.I) := by
      intro θ h1 h2
      rw [← Complex.ofReal_cos, ← Complex.ofReal_sin, h1, h2]
      apply Complex.ext
      · rw [Complex.re_ofReal_mul, Complex.add_re, Complex.mul_I_re, Complex.ofReal_re,
          Complex.ofReal_im]
        ring
      · rw [Complex.im_ofReal_mul, Complex.add_im, Complex.mul_I_im, Complex.ofReal_re,
          Complex.ofReal_im]
        ring
    split
    · rw [e _ rfl rfl]
      exact Complex.arg_mul_cos_add_sin_mul_I (by positivity) ⟨by nlinarith, by nlinarith⟩
    · rw [e (lon * (π / 180) - 2 * π) (cos_sub_two_pi _) (sin_sub_two_pi _)]
      exact Complex.arg_mul_cos_add_sin_mul_I (by positivity) ⟨by nlinarith, by nlinarith⟩
  rw [harg]
  have hlat : arccos ((r * (1 - 0 ^ 2) + 0) * sin (lat * (π / 180)) / r) =
      π / 2 - lat * (π / 180) := by
    rw [show (r * (1 - 0 ^ 2) + 0) * sin (lat * (π / 180)) / r = sin (lat * (π / 180)) by
      field_simp; ring, ← cos_pi_div_two_sub, arccos_cos (by nlinarith) (by nlinarith)]
  rw [hlat]
  have h2 : 90 - 180 * (π / 2 - lat * (π / 180)) / π = lat := by
    field_simp
    ring
  rw [h2]
  refine Prod.ext ?_ (Prod.ext ?_ rfl)
  · dsimp only
    split_ifs with h3 h4 h5
    · exfalso
      have : 180 * (lon * (π / 180)) / π = lon := by field_simp
      linarith
    · field_simp
    · have : 180 * (lon * (π / 180) - 2 * π) / π = lon - 360 := by field_simp; ring
      rw [this]; ring
    · exfalso
      have : 180 * (lon * (π / 180) - 2 * π) / π = lon - 360 := by field_simp; ring
      linarith
  · dsimp only [clip]
    rw [max_eq_left l0.le, min_eq_left l1.le]

/-- C33: from Cartesian coordinates to spherical ones and back, for every point but the centre,
the poles included. -/
theorem C33_sphere_inverse (p : P3) (hp : 0 < p.x ^ 2 + p.y ^ 2 + p.z ^ 2) :
    let s := toSphere p
    toCartesian s.1 s.2.1 0 s.2.2 0 = p := by
  unfold toSphere arctan2
  dsimp only
  set r := sqrt (p.x ^ 2 + p.y ^ 2 + p.z ^ 2) with hr
  have hr0 : 0 < r := sqrt_pos.2 hp
  have hr2 : r ^ 2 = p.x ^ 2 + p.y ^ 2 + p.z ^ 2 := sq_sqrt hp.le
  have hz : |p.z / r| ≤ 1 := by
    rw [abs_div, abs_of_pos hr0, div_le_one hr0]
    refine abs_le_of_sq_le_sq ?_ hr0.le
    nlinarith [sq_nonneg p.x, sq_nonneg p.y]
  obtain ⟨z1, z2⟩ := abs_le.1 hz
  have a0 := arccos_nonneg (p.z / r)
  have a1 := arccos_le_pi (p.z / r)
  have hlat : clip (90 - 180 * arccos (p.z / r) / π) (-90) 90 * (π / 180) =
      π / 2 - arccos (p.z / r) := by
    unfold clip
    have b1 : 180 * arccos (p.z / r) / π ≤ 180 := by
      rw [div_le_iff₀ pi_pos]; linarith
    have b2 : 0 ≤ 180 * arccos (p.z / r) / π := by positivity
    rw [max_eq_left (by linarith), min_eq_left (by linarith)]
    field_simp
    ring
  unfold toCartesian
  dsimp only
  rw [hlat, primeVertical_sphere hr0.ne', ecc1_sphere, cos_pi_div_two_sub, sin_pi_div_two_sub,
    sin_arccos, cos_arccos z1 z2]
  set w : ℂ := ⟨p.x, p.y⟩ with hw
  have hlon : ∀ g : ℝ → ℝ, (∀ x, g (x + 2 * π) = g x) →
      g ((if (if 180 * w.arg / π < 0 then 180 * w.arg / π + 360 else 180 * w.arg / π) < 0 then
        (if 180 * w.arg / π < 0 then 180 * w.arg / π + 360 else 180 * w.arg / π) + 360 else
        (if 180 * w.arg / π < 0 then 180 * w.arg / π + 360 else 180 * w.arg / π)) * (π / 180)) =
      g w.arg := by
    intro g hg
    have e1 : 180 * w.arg / π * (π / 180) = w.arg := by field_simp
    have e2 : (180 * w.arg / π + 360) * (π / 180) = w.arg + 2 * π := by
      rw [deg_turn, e1]
    have e3 : (180 * w.arg / π + 360 + 360) * (π / 180) = w.arg + 2 * π + 2 * π := by
      rw [deg_turn, e2]
    split_ifs
    all_goals first | rw [e3, hg, hg] | rw [e2, hg] | rw [e1]
  rw [hlon cos cos_add_two_pi, hlon sin sin_add_two_pi]
  have hn : r * sqrt (1 - (p.z / r) ^ 2) = ‖w‖ := by
    have h1 : r = sqrt (r ^ 2) := (sqrt_sq hr0.le).symm
    rw [Complex.norm_def, Complex.normSq_apply]
    conv_lhs => rw [h1]
    rw [sqrt_sq hr0.le, ← sqrt_mul (by positivity)]
    congr 1
    have h2 : r ^ 2 * (1 - (p.z / r) ^ 2) = r ^ 2 - p.z ^ 2 := by
      field_simp
    rw [hr2] at h2
    rw [h2]
    simp only [hw]
    ring
  have hs := Complex.norm_mul_sin_arg w
  have hc := Complex.norm_mul_cos_arg w
  ext
  · dsimp only; rw [add_zero, hn, hc]
  · dsimp only; rw [add_zero, hn, hs]
  · dsimp only; field_simp; ring

example : ∃ p : P3, 0 < p.x ^ 2 + p.y ^ 2 + p.z ^ 2 ∧ p.x = 0 ∧ p.y = 0 :=
  ⟨⟨0, 0, -5⟩, by norm_num, rfl, rfl⟩

/-! ## C34: degrees, minutes and seconds -/

theorem floorDiv_add (x y : ℝ) (hy : y ≠ 0) : y * Num.floorDiv x y + Num.fmod x y = x := by
  unfold Num.floorDiv Num.fmod
  ring

/-- C34: the minutes are a whole number below 60, the seconds lie in [0, 60), the degrees are a
whole number with the sign of the angle. -/
theorem C34_ranges (d : ℝ) :
    let r := toDms d
    (∃ m : ℤ, r.2.1 = m ∧ 0 ≤ m ∧ m < 60) ∧ 0 ≤ r.2.2 ∧ r.2.2 < 60 ∧
      ∃ g : ℤ, r.1 = g ∧ 0 ≤ g * d := by
  unfold toDms
  dsimp only
  have hm0 : 0 ≤ Num.fmod (Num.floorDiv (|d| * 3600) 60) 60 := Num.fmod_nonneg (by norm_num)
  have hm1 : Num.fmod (Num.floorDiv (|d| * 3600) 60) 60 < 60 := Num.fmod_lt (by norm_num)
  have hm : Num.fmod (Num.floorDiv (|d| * 3600) 60) 60 =
      ((⌊|d| * 3600 / 60⌋ - 60 * ⌊(⌊|d| * 3600 / 60⌋ : ℝ) / 60⌋ : ℤ) : ℝ) := by
    unfold Num.fmod Num.floorDiv
    push_cast; ring
  refine ⟨⟨_, hm, ?_, ?_⟩, Num.fmod_nonneg (by norm_num), Num.fmod_lt (by norm_num), ?_⟩
  · rw [hm] at hm0; exact_mod_cast hm0
  · rw [hm] at hm1; exact_mod_cast hm1
  · have hn : 0 ≤ ⌊Num.floorDiv (|d| * 3600) 60 / 60⌋ := by
      rw [Int.le_floor]
      unfold Num.floorDiv
      have : (0 : ℤ) ≤ ⌊|d| * 3600 / 60⌋ := by rw [Int.le_floor]; push_cast; positivity
      have : (0 : ℝ) ≤ (⌊|d| * 3600 / 60⌋ : ℝ) := by exact_mod_cast this
      push_cast; positivity
    have hn' : (0 : ℝ) ≤ (⌊Num.floorDiv (|d| * 3600) 60 / 60⌋ : ℝ) := by exact_mod_cast hn
    rcases lt_trichotomy d 0 with h | h | h
    · refine ⟨-⌊Num.floorDiv (|d| * 3600) 60 / 60⌋, ?_, ?_⟩
      · rw [Real.sign_of_neg h]
        rw [Num.floorDiv]
        push_cast; ring
      · push_cast; nlinarith
    · refine ⟨0, ?_, ?_⟩
      · rw [h, Real.sign_zero]; simp
      · simp
    · refine ⟨⌊Num.floorDiv (|d| * 3600) 60 / 60⌋, ?_, ?_⟩
      · rw [Real.sign_of_pos h]
        rw [Num.floorDiv]
        push_cast; ring
      · positivity

/-- C34, for angles of at least one degree (and zero): nothing is lost. -/
theorem C34_round_trip_partial (d : ℝ) (hd : d = 0 ∨ 1 ≤ |d|) :
    fromDms (toDms d).1 (toDms d).2.1 (toDms d).2.2 = d := by
  unfold fromDms toDms
  dsimp only
  rcases hd with rfl | hd
  · simp
  set m := Num.floorDiv (|d| * 3600) 60 with hmd
  have e1 := floorDiv_add (|d| * 3600) 60 (by norm_num)
  have e2 := floorDiv_add m 60 (by norm_num)
  rw [← hmd] at e1
  have hg : 1 ≤ Num.floorDiv m 60 := by
    unfold Num.floorDiv
    have : (1 : ℤ) ≤ ⌊m / 60⌋ := by
      rw [Int.le_floor, hmd]
      unfold Num.floorDiv
      have : (60 : ℤ) ≤ ⌊|d| * 3600 / 60⌋ := by rw [Int.le_floor]; push_cast; linarith
      have : (60 : ℝ) ≤ (⌊|d| * 3600 / 60⌋ : ℝ) := by exact_mod_cast this
      push_cast; linarith
    exact_mod_cast this
  set g := Num.floorDiv m 60
  have key : g + Num.fmod m 60 / 60 + Num.fmod (|d| * 3600) 60 / 3600 = |d| := by linarith
  rcases lt_or_ge d 0 with h | h
  · rw [Real.sign_of_neg h, show (-1 : ℝ) * g = -g by ring, Real.sign_of_neg (by linarith), abs_neg,
      abs_of_pos (by linarith : 0 < g), key, abs_of_neg h]
    ring
  · have h' : 0 < d := by
      rcases h.eq_or_lt with h2 | h2
      · rw [← h2, abs_zero] at hd; linarith
      · exact h2
    rw [Real.sign_of_pos h', one_mul, Real.sign_of_pos (by linarith), abs_of_pos (by linarith : 0 < g),
      key, abs_of_pos h']
    ring

/-- C34 fails for every angle strictly between zero and one degree of either sign: the degrees
are zero, the sign is lost with them, and converting back gives zero. -/
theorem C34_round_trip_false (d : ℝ) (h0 : d ≠ 0) (h1 : |d| < 1) :
    fromDms (toDms d).1 (toDms d).2.1 (toDms d).2.2 = 0 ∧
      fromDms (toDms d).1 (toDms d).2.1 (toDms d).2.2 ≠ d := by
  have hz : (toDms d).1 = 0 := by
    unfold toDms
    dsimp only
    have : ⌊|d| * 3600 / 60⌋ < 60 := by rw [Int.floor_lt]; push_cast; linarith
    have h60 : (⌊|d| * 3600 / 60⌋ : ℝ) < 60 := by exact_mod_cast this
    have : (0 : ℤ) ≤ ⌊|d| * 3600 / 60⌋ := by rw [Int.le_floor]; push_cast; positivity
    have h00 : (0 : ℝ) ≤ (⌊|d| * 3600 / 60⌋ : ℝ) := by exact_mod_cast this
    have : Num.floorDiv (Num.floorDiv (|d| * 3600) 60) 60 = 0 := by
      unfold Num.floorDiv
      have : ⌊(⌊|d| * 3600 / 60⌋ : ℝ) / 60⌋ = 0 := by
        rw [Int.floor_eq_zero_iff]
        exact ⟨by positivity, by linarith⟩
      rw [this]; simp
    rw [this, mul_zero]
  have : fromDms (toDms d).1 (toDms d).2.1 (toDms d).2.2 = 0 := by
    unfold fromDms
    rw [hz, Real.sign_zero, zero_mul]
  exact ⟨this, by rw [this]; exact h0.symm⟩

/-- C34: the other way round, for nonzero whole degrees, whole minutes and seconds in range. -/
theorem C34_components (g m : ℤ) (s : ℝ) (hg : g ≠ 0) (hm0 : 0 ≤ m) (hm1 : m < 60) (hs0 : 0 ≤ s)
    (hs1 : s < 60) : toDms (fromDms g m s) = ((g : ℝ), (m : ℝ), s) := by
  have hm0' : (0 : ℝ) ≤ m := by exact_mod_cast hm0
  have hm1' : (m : ℝ) ≤ 59 := by exact_mod_cast (by omega : m ≤ 59)
  have hgp : (1 : ℝ) ≤ |(g : ℝ)| := by
    have : (1 : ℤ) ≤ |g| := Int.one_le_abs hg
    exact_mod_cast this
  set t : ℝ := |(g : ℝ)| + m / 60 + s / 3600 with ht
  have ht0 : 0 < t := by positivity
  have hsg : |fromDms g m s| = t ∧ Real.sign (fromDms g m s) = Real.sign g := by
    unfold fromDms
    rcases lt_or_gt_of_ne hg with h | h
    · have h' : (g : ℝ) < 0 := by exact_mod_cast h
      rw [Real.sign_of_neg h', ← ht, show (-1 : ℝ) * t = -t by ring, abs_neg, abs_of_pos ht0,
        Real.sign_of_neg (by linarith)]
      exact ⟨rfl, rfl⟩
    · have h' : (0 : ℝ) < g := by exact_mod_cast h
      rw [Real.sign_of_pos h', ← ht, one_mul, abs_of_pos ht0, Real.sign_of_pos ht0]
      exact ⟨rfl, rfl⟩
  unfold toDms
  dsimp only
  rw [hsg.1, hsg.2]
  have habs : |(g : ℝ)| = ((|g| : ℤ) : ℝ) := by push_cast; rfl
  have hmin : ⌊t * 3600 / 60⌋ = 60 * |g| + m := by
    rw [Int.floor_eq_iff, ht, habs]
    push_cast
    constructor <;> linarith
  have hmin' : Num.floorDiv (t * 3600) 60 = ((60 * |g| + m : ℤ) : ℝ) := by
    unfold Num.floorDiv; rw [hmin]
  rw [hmin']
  have hdeg : ⌊((60 * |g| + m : ℤ) : ℝ) / 60⌋ = |g| := by
    rw [Int.floor_eq_iff]
    push_cast
    constructor <;> linarith
  refine Prod.ext ?_ (Prod.ext ?_ ?_)
  · dsimp only
    unfold Num.floorDiv
    rw [hdeg]
    rcases lt_or_gt_of_ne hg with h | h
    · have h' : (g : ℝ) < 0 := by exact_mod_cast h
      rw [Real.sign_of_neg h', abs_of_neg h]; push_cast; ring
    · have h' : (0 : ℝ) < g := by exact_mod_cast h
      rw [Real.sign_of_pos h', abs_of_pos h, one_mul]
  · dsimp only
    unfold Num.fmod
    rw [hdeg]
    push_cast; ring
  · dsimp only
    unfold Num.fmod
    rw [hmin, ht, habs]
    push_cast; ring

end Verif.Spatial
