import Verif.Props.GeodeticIter

/-!
# C33: the iterative conversion of Moritz; C35: batches
-/

namespace Verif.Spatial

open Verif Real

/-! ## Contraction of the tangent of the latitude -/

theorem sec_lipschitz (s t : ℝ) : |sqrt (1 + s ^ 2) - sqrt (1 + t ^ 2)| ≤ |s - t| := by
  have h := abs_norm_sub_norm_le (⟨1, s⟩ : ℂ) ⟨1, t⟩
  have e : (⟨1, s⟩ : ℂ) - ⟨1, t⟩ = ⟨0, s - t⟩ := by
    apply Complex.ext <;> simp
  rw [e, norm_mk, norm_mk, norm_mk] at h
  have e2 : sqrt ((0 : ℝ) ^ 2 + (s - t) ^ 2) = |s - t| := by
    rw [← sqrt_sq_eq_abs]; congr 1; ring
  rw [e2] at h
  simpa using h

theorem par_tan {f s t : ℝ} (h1 : f < 1) :
    |cos (par f s) - cos (par f t)| ≤
      (1 - f) * |tan s - tan t| * (cos (par f s) * cos (par f t)) := by
  have hf : 0 < 1 - f := by linarith
  unfold par
  rw [cos_arctan, cos_arctan]
  have h := sec_lipschitz ((1 - f) * tan s) ((1 - f) * tan t)
  have p1 : 0 < sqrt (1 + ((1 - f) * tan s) ^ 2) := sqrt_pos.2 (by positivity)
  have p2 : 0 < sqrt (1 + ((1 - f) * tan t) ^ 2) := sqrt_pos.2 (by positivity)
  rw [← mul_sub, abs_mul, abs_of_pos hf] at h
  generalize sqrt (1 + ((1 - f) * tan s) ^ 2) = A at *
  generalize sqrt (1 + ((1 - f) * tan t) ^ 2) = B at *
  rw [show 1 / A - 1 / B = (B - A) / (A * B) by field_simp, abs_div, abs_of_pos (mul_pos p1 p2),
    div_le_iff₀ (mul_pos p1 p2), abs_sub_comm]
  refine h.trans_eq ?_
  field_simp

theorem moritz_tan {a f p z s t : ℝ} (ha : 0 < a) (h0 : 0 ≤ f) (h1 : f < 1) (hp : 0 < p)
    (hq : 2 * gam a f < ‖(⟨p, z⟩ : ℂ)‖) (s0 : 0 < cos s)
    (s1 : cos s ≤ p / (‖(⟨p, z⟩ : ℂ)‖ - gam a f)) (t0 : 0 < cos t)
    (t1 : cos t ≤ p / (‖(⟨p, z⟩ : ℂ)‖ - gam a f)) :
    |tan ((moritzMethod a f p z).next s) - tan ((moritzMethod a f p z).next t)| ≤
      gam a f * |z| / (‖(⟨p, z⟩ : ℂ)‖ - 2 * gam a f) ^ 2 * |tan s - tan t| := by
  have hgood := moritz_good ha h0 h1 hp hq
  have x1 := hgood.xpos s s0 s1
  have x2 := hgood.xpos t t0 t1
  have hg := gam_nonneg ha h0 h1
  have hf : 0 < 1 - f := by linarith
  unfold Method.next
  rw [tan_arctan, tan_arctan]
  have key : ∀ u, 0 < cos u → cos u ≤ p / (‖(⟨p, z⟩ : ℂ)‖ - gam a f) →
      (1 - f) * cos (par f u) / (moritzMethod a f p z).x u ≤ 1 / (‖(⟨p, z⟩ : ℂ)‖ - 2 * gam a f) := by
    intro u u0 u1
    have xu := hgood.xpos u u0 u1
    obtain ⟨k1, k2⟩ := par_cos h0 h1 u0
    rw [div_le_div_iff₀ xu (by linarith), one_mul]
    show _ ≤ p - (1 - f) * gam a f * cos (par f u)
    have k3 := k2.trans u1
    rw [le_div_iff₀ (by linarith)] at k3
    nlinarith
  have hx : (moritzMethod a f p z).x t - (moritzMethod a f p z).x s =
      (1 - f) * gam a f * (cos (par f s) - cos (par f t)) := by
    show p - _ - (p - _) = _
    ring
  have hz : ∀ u, (moritzMethod a f p z).y u = z := fun _ => rfl
  rw [hz, hz]
  have k1 := key s s0 s1
  have k2 := key t t0 t1
  have hpt := par_tan (s := s) (t := t) h1
  obtain ⟨c1, -⟩ := par_cos h0 h1 s0
  obtain ⟨c2, -⟩ := par_cos h0 h1 t0
  set X := (moritzMethod a f p z).x s
  set Y := (moritzMethod a f p z).x t
  set R := ‖(⟨p, z⟩ : ℂ)‖ - 2 * gam a f
  have hR : 0 < R := by simp only [R]; linarith
  have e : z / X - z / Y = z * (Y - X) / (X * Y) := by field_simp
  rw [e, hx, abs_div, abs_mul, abs_mul, abs_of_pos (mul_pos x1 x2),
    abs_of_nonneg (mul_nonneg hf.le hg)]
  calc |z| * ((1 - f) * gam a f * |cos (par f s) - cos (par f t)|) / (X * Y)
      ≤ |z| * ((1 - f) * gam a f *
          ((1 - f) * |tan s - tan t| * (cos (par f s) * cos (par f t)))) / (X * Y) := by gcongr
    _ = gam a f * |z| * |tan s - tan t| *
          (((1 - f) * cos (par f s) / X) * ((1 - f) * cos (par f t) / Y)) := by
        field_simp
    _ ≤ gam a f * |z| * |tan s - tan t| * (1 / R * (1 / R)) := by
        gcongr
    _ = _ := by field_simp

/-! ## Iterates -/

theorem moritz_iterates {a f eps : ℝ} {q : P3} (ha : 0 < a) (h0 : 0 ≤ f) (h1 : f < 1)
    (hp : 0 < axisDistance q) (hq : 2 * gam a f < ‖(⟨axisDistance q, q.z⟩ : ℂ)‖) (n : ℕ) :
    ((moritzPass a f eps)^[n] (moritzInit a f q)).phi =
      (moritzMethod a f (axisDistance q) q.z).next^[n] (start f (axisDistance q) q.z) ∧
    0 < cos ((moritzMethod a f (axisDistance q) q.z).next^[n] (start f (axisDistance q) q.z)) ∧
    cos ((moritzMethod a f (axisDistance q) q.z).next^[n] (start f (axisDistance q) q.z)) ≤
      axisDistance q / (‖(⟨axisDistance q, q.z⟩ : ℂ)‖ - gam a f) := by
  have hgood := moritz_good ha h0 h1 hp hq
  have hg := gam_nonneg ha h0 h1
  induction n with
  | zero =>
    refine ⟨?_, start_spec h0 h1 hp hgood.rpos (by linarith)⟩
    show arctan _ = arctan _
    rw [ecc1_sq ha h0 (by linarith), show 1 - (2 * f - f ^ 2) = (1 - f) ^ 2 by ring]
  | succ n ih =>
    obtain ⟨i1, i2, i3⟩ := ih
    have hs := (moritzMethod a f (axisDistance q) q.z).next_spec hgood i2 i3
    rw [Function.iterate_succ_apply', Function.iterate_succ_apply']
    refine ⟨?_, hs⟩
    rw [← moritzStep_eq ha h0 h1 hp i2, ← i1]
    have hq' := (moritzPass_iter a f eps (moritzInit a f q) n).1
    unfold moritzPass at hq' ⊢
    dsimp only at hq' ⊢
    rw [hq']
    rfl

theorem moritz_height {a f eps : ℝ} {q : P3} (n : ℕ) :
    ((moritzPass a f eps)^[n + 1] (moritzInit a f q)).h =
      axisDistance q / cos ((moritzPass a f eps)^[n] (moritzInit a f q)).phi -
        primeVertical a f ((moritzPass a f eps)^[n] (moritzInit a f q)).phi := by
  rw [Function.iterate_succ_apply']
  have hq' := (moritzPass_iter a f eps (moritzInit a f q) n).1
  generalize (moritzPass a f eps)^[n] (moritzInit a f q) = s at *
  unfold moritzPass moritzStep primeVertical
  dsimp only
  rw [hq']
  rfl

/-! ## Distance -/

theorem primeVertical_eq {a f t : ℝ} (ha : 0 < a) (h0 : 0 ≤ f) (h1 : f < 1) :
    primeVertical a f t = a / ‖(⟨cos t, (1 - f) * sin t⟩ : ℂ)‖ := by
  unfold primeVertical
  rw [ecc1_sq ha h0 (by linarith), norm_mk]
  congr 2
  linear_combination -sin_sq_add_cos_sq t

theorem primeVertical_lipschitz {a f s t : ℝ} (ha : 0 < a) (h0 : 0 ≤ f) (h1 : f < 1) :
    |primeVertical a f s - primeVertical a f t| ≤ a * chord s t / (1 - f) ^ 2 := by
  have hf : 0 < 1 - f := by linarith
  rw [primeVertical_eq ha h0 h1, primeVertical_eq ha h0 h1]
  have n1 := par_norm (phi := s) h0 h1
  have n2 := par_norm (phi := t) h0 h1
  have hl : |‖(⟨cos s, (1 - f) * sin s⟩ : ℂ)‖ - ‖(⟨cos t, (1 - f) * sin t⟩ : ℂ)‖| ≤ chord s t := by
    refine (abs_norm_sub_norm_le _ _).trans ?_
    have e : (⟨cos s, (1 - f) * sin s⟩ : ℂ) - ⟨cos t, (1 - f) * sin t⟩ =
      ⟨cos s - cos t, (1 - f) * (sin s - sin t)⟩ := by
      apply Complex.ext
      · simp
      · show (1 - f) * sin s - (1 - f) * sin t = _
        ring
    rw [e]
    refine norm_mono le_rfl ?_
    rw [abs_mul, abs_of_pos hf]
    nlinarith [abs_nonneg (sin s - sin t)]
  generalize ‖(⟨cos s, (1 - f) * sin s⟩ : ℂ)‖ = A at *
  generalize ‖(⟨cos t, (1 - f) * sin t⟩ : ℂ)‖ = B at *
  have hA : 0 < A := by linarith
  have hB : 0 < B := by linarith
  have hc := chord_nonneg s t
  rw [show a / A - a / B = a * (B - A) / (A * B) by field_simp, abs_div, abs_mul, abs_of_pos ha,
    abs_of_pos (mul_pos hA hB), abs_sub_comm]
  exact div_le_div₀ (by positivity) (by gcongr) (by positivity) (by nlinarith)

/-- Distance from a point given its true latitude and height, in terms of the errors. -/
theorem dist_le {a f star h phi h' : ℝ} (q : P3) (ha : 0 < a) (h0 : 0 ≤ f) (h1 : f < 1)
    (hc : 0 < cos phi) (g : Geodetic a f (axisDistance q) q.z star h) :
    (toCartesian (geodeticLon q) (phi / (π / 180)) h' a f).dist q ≤
      (a / (1 - f) + |h|) * chord phi star + |h' - h| := by
  have hdeg : phi / (π / 180) * (π / 180) = phi := by
    have := pi_ne_zero
    field_simp
  obtain ⟨l1, l2⟩ := lon_spec q
  have hlc := sin_sq_add_cos_sq (geodeticLon q * (π / 180))
  obtain ⟨u1, u2⟩ := par_N ha h0 h1 hc
  obtain ⟨v1, v2⟩ := par_N ha h0 h1 g.cos_pos
  have hf : 0 < 1 - f := by linarith
  have hd : (toCartesian (geodeticLon q) (phi / (π / 180)) h' a f).dist q =
      ‖(⟨(primeVertical a f phi + h') * cos phi - (primeVertical a f star + h) * cos star,
        (primeVertical a f phi * (1 - (2 * f - f ^ 2)) + h') * sin phi -
          (primeVertical a f star * (1 - (2 * f - f ^ 2)) + h) * sin star⟩ : ℂ)‖ := by
    rw [g.axis, g.plane, norm_mk]
    unfold P3.dist toCartesian
    dsimp only
    rw [cos_wrapped, sin_wrapped, hdeg, ecc1_sq ha h0 (by linarith), ← l1, ← l2]
    congr 1
    linear_combination (((primeVertical a f phi + h') * cos phi - axisDistance q) ^ 2) * hlc
  rw [hd]
  have e : (⟨(primeVertical a f phi + h') * cos phi - (primeVertical a f star + h) * cos star,
        (primeVertical a f phi * (1 - (2 * f - f ^ 2)) + h') * sin phi -
          (primeVertical a f star * (1 - (2 * f - f ^ 2)) + h) * sin star⟩ : ℂ) =
      (⟨a * (cos (par f phi) - cos (par f star)),
        (1 - f) * (a * (sin (par f phi) - sin (par f star)))⟩ : ℂ) +
      (⟨h * (cos phi - cos star), h * (sin phi - sin star)⟩ +
        ⟨(h' - h) * cos phi, (h' - h) * sin phi⟩) := by
    apply Complex.ext
    · show _ = _ + (_ + _)
      linear_combination u1 - v1
    · show _ = _ + (_ + _)
      linear_combination (1 - f) * u2 - (1 - f) * v2
  rw [e]
  refine (norm_add_le _ _).trans ?_
  have t1 : ‖(⟨a * (cos (par f phi) - cos (par f star)),
        (1 - f) * (a * (sin (par f phi) - sin (par f star)))⟩ : ℂ)‖ ≤
      a / (1 - f) * chord phi star := by
    have k := par_lipschitz h0 h1 hc g.cos_pos
    refine (norm_mono (x' := a * (cos (par f phi) - cos (par f star)))
      (y' := a * (sin (par f phi) - sin (par f star))) le_rfl ?_).trans ?_
    · rw [abs_mul, abs_of_pos hf]
      nlinarith [abs_nonneg (a * (sin (par f phi) - sin (par f star)))]
    · rw [norm_scale, abs_of_pos ha, div_mul_eq_mul_div, mul_div_assoc]
      exact mul_le_mul_of_nonneg_left k ha.le
  have t2 := norm_add_le (⟨h * (cos phi - cos star), h * (sin phi - sin star)⟩ : ℂ)
    ⟨(h' - h) * cos phi, (h' - h) * sin phi⟩
  rw [norm_scale, norm_scale] at t2
  have hn := norm_dir phi
  unfold dir at hn
  rw [hn, mul_one] at t2
  change _ ≤ |h| * chord phi star + |h' - h| at t2
  linarith

theorem sec_tan {t : ℝ} (h : 0 < cos t) : 1 / cos t = sqrt (1 + tan t ^ 2) := by
  rw [tan_eq_sin_div_cos]
  have : 1 + (sin t / cos t) ^ 2 = (1 / cos t) ^ 2 := by
    field_simp
    linear_combination sin_sq_add_cos_sq t
  rw [this, sqrt_sq (by positivity)]

theorem Geodetic.height_le {a f p z phi h : ℝ} (g : Geodetic a f p z phi h) (ha : 0 < a)
    (h0 : 0 ≤ f) (h1 : f < 1) (hq : a / 2 ≤ ‖(⟨p, z⟩ : ℂ)‖) : |h| ≤ 2 * ‖(⟨p, z⟩ : ℂ)‖ := by
  have hN := primeVertical_pos ha h0 h1 phi
  have hN' : primeVertical a f phi * (1 - (2 * f - f ^ 2)) ≤ a := by
    rw [primeVertical_eq ha h0 h1]
    have n1 := par_norm (phi := phi) h0 h1
    have hf : 0 < 1 - f := by linarith
    rw [div_mul_eq_mul_div, div_le_iff₀ (by linarith)]
    refine mul_le_mul_of_nonneg_left (le_trans ?_ n1) ha.le
    nlinarith
  have hab := g.above
  have hH : primeVertical a f phi * (1 - (2 * f - f ^ 2)) + h ≤ ‖(⟨p, z⟩ : ℂ)‖ := by
    have hd := norm_dir phi
    unfold dir at hd
    have : ‖(⟨(primeVertical a f phi * (1 - (2 * f - f ^ 2)) + h) * cos phi,
        (primeVertical a f phi * (1 - (2 * f - f ^ 2)) + h) * sin phi⟩ : ℂ)‖ ≤ ‖(⟨p, z⟩ : ℂ)‖ := by
      refine norm_mono ?_ (by rw [g.plane])
      rw [← g.axis, abs_mul, abs_mul]
      refine mul_le_mul_of_nonneg_right ?_ (abs_nonneg _)
      have : 0 ≤ primeVertical a f phi * (2 * f - f ^ 2) := mul_nonneg hN.le (by nlinarith)
      rw [abs_of_pos hab, abs_of_pos (by linarith)]
      linarith
    rwa [norm_scale, hd, mul_one, abs_of_pos hab] at this
  have hN0 : 0 ≤ primeVertical a f phi * (1 - (2 * f - f ^ 2)) :=
    mul_nonneg hN.le (by nlinarith)
  rw [abs_le]
  constructor <;> linarith

/-! ## Bounds by the change of the tangent -/

theorem chord_tan {s t p r : ℝ} (hp : 0 < p) (hr : 0 < r) (s0 : 0 < cos s) (s1 : cos s ≤ p / r)
    (t0 : 0 < cos t) (t1 : cos t ≤ p / r) : r * chord s t ≤ p * |tan s - tan t| := by
  have key : ∀ u, 0 < cos u → cos u ≤ p / r → r / p ≤ ‖(⟨1, tan u⟩ : ℂ)‖ ∧
      cos u = 1 / ‖(⟨1, tan u⟩ : ℂ)‖ ∧ sin u = tan u / ‖(⟨1, tan u⟩ : ℂ)‖ := by
    intro u u0 u1
    have e : ‖(⟨1, tan u⟩ : ℂ)‖ = 1 / cos u := by
      rw [sec_tan u0, norm_mk, one_pow]
    rw [e]
    refine ⟨?_, by field_simp, by rw [tan_eq_sin_div_cos]; field_simp⟩
    rw [le_div_iff₀ u0]
    rw [le_div_iff₀ hr] at u1
    rw [div_mul_eq_mul_div, div_le_one hp]
    linarith
  obtain ⟨a1, a2, a3⟩ := key s s0 s1
  obtain ⟨b1, b2, b3⟩ := key t t0 t1
  have h := unit_lipschitz (div_pos hr hp) a1 b1
  rw [← a2, ← a3, ← b2, ← b3, sub_self] at h
  have e2 : ‖(⟨0, tan s - tan t⟩ : ℂ)‖ = |tan s - tan t| := by
    rw [norm_mk, ← sqrt_sq_eq_abs]; congr 1; ring
  rw [e2, le_div_iff₀ (div_pos hr hp)] at h
  change chord s t * (r / p) ≤ _ at h
  rw [mul_div_assoc', div_le_iff₀ hp] at h
  linarith

/-- The height of the code as a function of the latitude. -/
noncomputable def heightAt (a f p phi : ℝ) : ℝ := p / cos phi - primeVertical a f phi

theorem heightAt_le {a f p r s t : ℝ} (ha : 0 < a) (h0 : 0 ≤ f) (h1 : f < 1) (hp : 0 < p)
    (hr : 0 < r) (s0 : 0 < cos s) (s1 : cos s ≤ p / r) (t0 : 0 < cos t) (t1 : cos t ≤ p / r) :
    |heightAt a f p s - heightAt a f p t| ≤
      (1 + a / (r * (1 - f) ^ 2)) * (p * |tan s - tan t|) := by
  have hf : 0 < 1 - f := by linarith
  have k1 := primeVertical_lipschitz (s := s) (t := t) ha h0 h1
  have k2 := chord_tan hp hr s0 s1 t0 t1
  have k3 := sec_lipschitz (tan s) (tan t)
  rw [← sec_tan s0, ← sec_tan t0] at k3
  unfold heightAt
  have e : p / cos s - primeVertical a f s - (p / cos t - primeVertical a f t) =
      p * (1 / cos s - 1 / cos t) - (primeVertical a f s - primeVertical a f t) := by ring
  rw [e]
  refine (abs_sub _ _).trans ?_
  rw [abs_mul, abs_of_pos hp]
  have k4 : p * |1 / cos s - 1 / cos t| ≤ p * |tan s - tan t| := by gcongr
  have k5 : a * chord s t / (1 - f) ^ 2 ≤ a / (r * (1 - f) ^ 2) * (p * |tan s - tan t|) := by
    have : a * chord s t / (1 - f) ^ 2 = a / (r * (1 - f) ^ 2) * (r * chord s t) := by field_simp
    rw [this]
    gcongr
  linarith

/-- A change of the latitude shows in the height. -/
theorem heightAt_ge {a f p r s t : ℝ} (ha : 0 < a) (h0 : 0 ≤ f) (h1 : f < 1) (hp : 0 < p)
    (hr : 0 < r) (s0 : 0 < cos s) (s1 : cos s ≤ p / r) (t0 : 0 < cos t) (t1 : cos t ≤ p / r) :
    (1 - a * (2 * f - f ^ 2) / (r * (1 - f) ^ 3)) * (p * |1 / cos s - 1 / cos t|) ≤
      |heightAt a f p s - heightAt a f p t| := by
  have hf : 0 < 1 - f := by linarith
  have he : 0 ≤ 2 * f - f ^ 2 := by nlinarith
  have k1 : |primeVertical a f s - primeVertical a f t| ≤
      a * (2 * f - f ^ 2) / (r * (1 - f) ^ 3) * (p * |1 / cos s - 1 / cos t|) := by
    rw [primeVertical_eq ha h0 h1, primeVertical_eq ha h0 h1]
    have n1 := par_norm (phi := s) h0 h1
    have n2 := par_norm (phi := t) h0 h1
    have q1 := sq_norm_mk (cos s) ((1 - f) * sin s)
    have q2 := sq_norm_mk (cos t) ((1 - f) * sin t)
    generalize ‖(⟨cos s, (1 - f) * sin s⟩ : ℂ)‖ = A at *
    generalize ‖(⟨cos t, (1 - f) * sin t⟩ : ℂ)‖ = B at *
    have hA : 0 < A := by linarith
    have hB : 0 < B := by linarith
    have hd : (A - B) * (A + B) = (2 * f - f ^ 2) * ((cos s - cos t) * (cos s + cos t)) := by
      have c1 := sin_sq_add_cos_sq s
      have c2 := sin_sq_add_cos_sq t
      linear_combination q1 - q2 + (1 - f) ^ 2 * c1 - (1 - f) ^ 2 * c2
    have hS : |cos s - cos t| = |1 / cos s - 1 / cos t| * (cos s * cos t) := by
      rw [show 1 / cos s - 1 / cos t = (cos t - cos s) / (cos s * cos t) by field_simp, abs_div,
        abs_of_pos (mul_pos s0 t0), abs_sub_comm]
      field_simp
    have hm : |A - B| * (A + B) = (2 * f - f ^ 2) * (|cos s - cos t| * (cos s + cos t)) := by
      rw [← abs_of_pos (show 0 < A + B by linarith), ← abs_mul, hd, abs_mul, abs_of_nonneg he,
        abs_mul, abs_of_pos (show 0 < cos s + cos t by linarith)]
    have hcc : cos s * cos t * (cos s + cos t) ≤ 2 * (p / r) := by
      have := cos_le_one s
      have := cos_le_one t
      have e1 : cos s * cos t * cos s ≤ cos s * 1 * 1 := by gcongr
      have e2 : cos s * cos t * cos t ≤ 1 * cos t * 1 := by gcongr
      linarith
    have hAB : |A - B| * (2 * (1 - f)) ≤
        (2 * f - f ^ 2) * (|1 / cos s - 1 / cos t| * (2 * (p / r))) := by
      calc |A - B| * (2 * (1 - f)) ≤ |A - B| * (A + B) := by gcongr; linarith
        _ = (2 * f - f ^ 2) * (|1 / cos s - 1 / cos t| * (cos s * cos t * (cos s + cos t))) := by
          rw [hm, hS]; ring
        _ ≤ _ := by gcongr
    rw [show a / A - a / B = a * (B - A) / (A * B) by field_simp, abs_div, abs_mul, abs_of_pos ha,
      abs_of_pos (mul_pos hA hB), abs_sub_comm]
    have h5 : |A - B| ≤ (2 * f - f ^ 2) * (|1 / cos s - 1 / cos t| * (p / r)) / (1 - f) := by
      rw [le_div_iff₀ hf]; linarith
    calc a * |A - B| / (A * B) ≤
          a * ((2 * f - f ^ 2) * (|1 / cos s - 1 / cos t| * (p / r)) / (1 - f)) /
            ((1 - f) * (1 - f)) := by gcongr
      _ = _ := by field_simp
  unfold heightAt
  have e : p / cos s - primeVertical a f s - (p / cos t - primeVertical a f t) =
      p * (1 / cos s - 1 / cos t) - (primeVertical a f s - primeVertical a f t) := by ring
  rw [e]
  have k2 := abs_sub_abs_le_abs_sub (p * (1 / cos s - 1 / cos t))
    (primeVertical a f s - primeVertical a f t)
  rw [abs_mul, abs_of_pos hp] at k2
  linarith

/-- For tangents of the same sign. -/
theorem tan_sq_le {s t : ℝ} (s0 : 0 < cos s) (t0 : 0 < cos t) (h : 0 ≤ tan s * tan t) :
    (tan s - tan t) ^ 2 ≤ |1 / cos s - 1 / cos t| * (1 / cos s + 1 / cos t) := by
  have e : |1 / cos s - 1 / cos t| * (1 / cos s + 1 / cos t) = |tan s ^ 2 - tan t ^ 2| := by
    rw [← abs_of_pos (show 0 < 1 / cos s + 1 / cos t by positivity), ← abs_mul]
    congr 1
    rw [sec_tan s0, sec_tan t0]
    have q1 : sqrt (1 + tan s ^ 2) ^ 2 = 1 + tan s ^ 2 := sq_sqrt (by positivity)
    have q2 : sqrt (1 + tan t ^ 2) ^ 2 = 1 + tan t ^ 2 := sq_sqrt (by positivity)
    linear_combination q1 - q2
  rw [e]
  rcases le_total (tan s ^ 2) (tan t ^ 2) with h1 | h1
  · rw [abs_of_nonpos (by linarith)]
    nlinarith [sq_nonneg (tan s)]
  · rw [abs_of_nonneg (by linarith)]
    nlinarith [sq_nonneg (tan t)]

/-! ## All passes together -/

/-- The tangents are positive multiples of the height above the equatorial plane. -/
theorem moritz_multiple {a f p z : ℝ} (ha : 0 < a) (h0 : 0 ≤ f) (h1 : f ≤ 1 / 100) (hp : 0 < p)
    (hq : a / 2 ≤ ‖(⟨p, z⟩ : ℂ)‖) :
    (∃ c, 0 < c ∧ tan (start f p z) = z * c ∧ p * c ≤ 21 / 20) ∧
    ∀ t, 0 < cos t → cos t ≤ p / (‖(⟨p, z⟩ : ℂ)‖ - gam a f) →
      ∃ c, 0 < c ∧ tan ((moritzMethod a f p z).next t) = z * c ∧ p * c ≤ 21 / 20 := by
  have hf : 0 < 1 - f := by linarith
  obtain ⟨-, g2, g3⟩ := gam_small ha h0 h1 hq
  have hgood := moritz_good ha h0 (by linarith) hp g2
  have hg := gam_nonneg ha h0 (by linarith : f < 1)
  constructor
  · refine ⟨1 / (p * (1 - f) ^ 2), by positivity, ?_, ?_⟩
    · unfold start; rw [tan_arctan]; field_simp
    · have : (9801 / 10000 : ℝ) ≤ (1 - f) ^ 2 := by nlinarith
      rw [show p * (1 / (p * (1 - f) ^ 2)) = 1 / (1 - f) ^ 2 by field_simp,
        div_le_iff₀ (by positivity)]
      linarith
  · intro t t0 t1
    have hx := hgood.xpos t t0 t1
    refine ⟨1 / (moritzMethod a f p z).x t, by positivity, ?_, ?_⟩
    · unfold Method.next; rw [tan_arctan, mul_one_div]; rfl
    · rw [mul_one_div, div_le_iff₀ hx]
      show p ≤ 21 / 20 * (p - (1 - f) * gam a f * cos (par f t))
      obtain ⟨-, k2⟩ := par_cos h0 (by linarith : f < 1) t0
      have k3 := k2.trans t1
      rw [le_div_iff₀ (by linarith)] at k3
      have k4 : (1 - f) * gam a f * cos (par f t) ≤ 1 / 21 * p := by
        have : gam a f ≤ 1 / 21 * (‖(⟨p, z⟩ : ℂ)‖ - gam a f) := by linarith
        have h5 : 0 ≤ (1 - f) * cos (par f t) :=
          mul_nonneg hf.le (par_cos h0 (by linarith : f < 1) t0).1.le
        nlinarith
      linarith

theorem moritz_rate {a f z q : ℝ} (ha : 0 < a) (h0 : 0 ≤ f) (h1 : f ≤ 1 / 100) (hq : a / 2 ≤ q)
    (hz : |z| ≤ q) : gam a f * |z| / (q - 2 * gam a f) ^ 2 ≤ 5 * f := by
  obtain ⟨g1, g2, g3⟩ := gam_small ha h0 h1 hq
  have hg := gam_nonneg ha h0 (by linarith : f < 1)
  have hq0 : 0 < q := by linarith
  rw [div_le_iff₀ (by have : 0 < q - 2 * gam a f := by linarith
                      positivity)]
  have k1 : 919 / 1000 * q ≤ q - 2 * gam a f := by linarith
  have k2 : (919 / 1000 * q) ^ 2 ≤ (q - 2 * gam a f) ^ 2 := by gcongr
  have k3 : gam a f * |z| ≤ 81 / 20 * f * q * q := by gcongr
  have k4 : 5 * f * (919 / 1000 * q) ^ 2 ≤ 5 * f * (q - 2 * gam a f) ^ 2 := by gcongr
  have k5 : 0 ≤ f * q ^ 2 := by positivity
  nlinarith

/-- The errors of the tangent for one point: initial, after each pass, and after a stop. -/
structure Errors (a f p z star : ℝ) (phi : ℕ → ℝ) : Prop where
  region : ∀ n, 0 < cos (phi n) ∧ cos (phi n) ≤ p / (‖(⟨p, z⟩ : ℂ)‖ - gam a f)
  first : p * |tan (phi 0) - tan star| ≤ 21 / 10 * ‖(⟨p, z⟩ : ℂ)‖
  shrink : ∀ n, |tan (phi (n + 1)) - tan star| ≤ 5 * f * |tan (phi n) - tan star|
  same : ∀ n m, 0 ≤ tan (phi n) * tan (phi m)
  size : ∀ n, p * (1 / cos (phi n)) ≤ 21 / 20 * ‖(⟨p, z⟩ : ℂ)‖

theorem moritz_errors {a f p z star h : ℝ} (ha : 0 < a) (h0 : 0 ≤ f) (h1 : f ≤ 1 / 100) (hp : 0 < p)
    (hq : a / 2 ≤ ‖(⟨p, z⟩ : ℂ)‖) (geo : Geodetic a f p z star h) :
    Errors a f p z star (fun n => (moritzMethod a f p z).next^[n] (start f p z)) ∧
      cos star ≤ p / (‖(⟨p, z⟩ : ℂ)‖ - gam a f) := by
  have hf : f < 1 := by linarith
  obtain ⟨-, g2, g3⟩ := gam_small ha h0 h1 hq
  have hg := gam_nonneg ha h0 hf
  have hgood := moritz_good ha h0 hf hp g2
  obtain ⟨F, hF, fx, fy⟩ := moritz_at ha h0 hf geo
  obtain ⟨hfix, hreg⟩ := (moritzMethod a f p z).fixed hgood geo.lo geo.hi hF fx fy
  have region : ∀ n, 0 < cos ((moritzMethod a f p z).next^[n] (start f p z)) ∧
      cos ((moritzMethod a f p z).next^[n] (start f p z)) ≤ p / (‖(⟨p, z⟩ : ℂ)‖ - gam a f) := by
    intro n
    induction n with
    | zero => exact start_spec h0 hf hp hgood.rpos (by linarith)
    | succ n ih =>
      rw [Function.iterate_succ_apply']
      exact (moritzMethod a f p z).next_spec hgood ih.1 ih.2
  obtain ⟨m1, m2⟩ := moritz_multiple ha h0 h1 hp hq
  have mult : ∀ n, ∃ c, 0 < c ∧ tan ((moritzMethod a f p z).next^[n] (start f p z)) = z * c ∧
      p * c ≤ 21 / 20 := by
    intro n
    cases n with
    | zero => exact m1
    | succ n =>
      rw [Function.iterate_succ_apply']
      exact m2 _ (region n).1 (region n).2
  have hz : |z| ≤ ‖(⟨p, z⟩ : ℂ)‖ := Complex.abs_im_le_norm ⟨p, z⟩
  refine ⟨⟨region, ?_, ?_, ?_, ?_⟩, hreg⟩
  · obtain ⟨c, c0, c1, c2⟩ := mult 0
    obtain ⟨d, d0, d1, d2⟩ := m2 star geo.cos_pos hreg
    rw [hfix] at d1
    rw [c1, d1, ← mul_sub, abs_mul]
    have h3 : p * |c - d| ≤ 21 / 20 := by
      rcases le_total c d with h4 | h4
      · rw [abs_of_nonpos (by linarith)]; nlinarith
      · rw [abs_of_nonneg (by linarith)]; nlinarith
    have h5 : |z| * (p * |c - d|) ≤ ‖(⟨p, z⟩ : ℂ)‖ * (21 / 20) := by gcongr
    have h6 := norm_nonneg (⟨p, z⟩ : ℂ)
    linarith
  · intro n
    rw [Function.iterate_succ_apply']
    have hc := moritz_tan ha h0 hf hp g2 (region n).1 (region n).2 geo.cos_pos hreg
    rw [hfix] at hc
    refine hc.trans ?_
    exact mul_le_mul_of_nonneg_right (moritz_rate ha h0 h1 hq hz) (abs_nonneg _)
  · intro n m
    obtain ⟨c, c0, c1, -⟩ := mult n
    obtain ⟨d, d0, d1, -⟩ := mult m
    rw [c1, d1, show z * c * (z * d) = z ^ 2 * (c * d) by ring]
    positivity
  · intro n
    obtain ⟨c, c0, c1, c2⟩ := mult n
    rw [sec_tan (region n).1, c1]
    refine le_of_sq_le_sq ?_ (by positivity)
    rw [mul_pow, sq_sqrt (by positivity), mul_pow (21 / 20) ‖(⟨p, z⟩ : ℂ)‖, sq_norm_mk]
    have : (p * c) ^ 2 ≤ (21 / 20) ^ 2 := by gcongr
    nlinarith [sq_nonneg z, sq_nonneg p, mul_le_mul_of_nonneg_left this (sq_nonneg z)]

/-- Errors after `n` passes. -/
theorem Errors.pow {a f p z star : ℝ} {phi : ℕ → ℝ} (E : Errors a f p z star phi) (h0 : 0 ≤ f)
    (hp : 0 < p) (n : ℕ) :
    p * |tan (phi n) - tan star| ≤ 21 / 10 * ‖(⟨p, z⟩ : ℂ)‖ * (5 * f) ^ n := by
  induction n with
  | zero => simpa using E.first
  | succ n ih =>
    calc p * |tan (phi (n + 1)) - tan star| ≤ p * (5 * f * |tan (phi n) - tan star|) := by
          gcongr; exact E.shrink n
      _ = 5 * f * (p * |tan (phi n) - tan star|) := by ring
      _ ≤ 5 * f * (21 / 10 * ‖(⟨p, z⟩ : ℂ)‖ * (5 * f) ^ n) := by gcongr
      _ = _ := by ring

/-- The error before a pass is bounded by what the pass changes. -/
theorem Errors.change {a f p z star : ℝ} {phi : ℕ → ℝ} (E : Errors a f p z star phi)
    (h0 : 0 ≤ f) (h1 : f ≤ 1 / 100) (hp : 0 < p) (n : ℕ) :
    19 / 20 * (p * |tan (phi n) - tan star|) ≤ p * |tan (phi (n + 1)) - tan (phi n)| := by
  have h2 := E.shrink n
  have h3 := abs_sub_le (tan (phi n)) (tan (phi (n + 1))) (tan star)
  rw [abs_sub_comm (tan (phi n)) (tan (phi (n + 1)))] at h3
  have h4 : 5 * f * |tan (phi n) - tan star| ≤ 1 / 20 * |tan (phi n) - tan star| := by
    gcongr; linarith
  have h5 : 19 / 20 * |tan (phi n) - tan star| ≤ |tan (phi (n + 1)) - tan (phi n)| := by linarith
  calc _ = p * (19 / 20 * |tan (phi n) - tan star|) := by ring
    _ ≤ _ := by gcongr

/-- When two consecutive heights are within the tolerance. -/
theorem Errors.stop {a f p z star eps : ℝ} {phi : ℕ → ℝ} (E : Errors a f p z star phi) (ha : 0 < a)
    (h0 : 0 ≤ f) (h1 : f ≤ 1 / 100) (hp : 0 < p) (hq : a / 2 ≤ ‖(⟨p, z⟩ : ℂ)‖) (n : ℕ)
    (he : |heightAt a f p (phi (n + 1)) - heightAt a f p (phi n)| ≤ eps) :
    p * |tan (phi (n + 1)) - tan star| ≤ 79 / 10 * f * sqrt (‖(⟨p, z⟩ : ℂ)‖ * eps) := by
  have hf : f < 1 := by linarith
  obtain ⟨-, g2, g3⟩ := gam_small ha h0 h1 hq
  have hg := gam_nonneg ha h0 hf
  have heps : 0 ≤ eps := (abs_nonneg _).trans he
  obtain ⟨a1, a2⟩ := E.region (n + 1)
  obtain ⟨b1, b2⟩ := E.region n
  have hc := E.change h0 h1 hp n
  have hsh := E.shrink n
  have hsq := tan_sq_le a1 b1 (E.same (n + 1) n)
  have z1 := E.size (n + 1)
  have z2 := E.size n
  set Q := ‖(⟨p, z⟩ : ℂ)‖ with hQ
  have hQ0 : 0 < Q := by linarith
  have hr : 0 < Q - gam a f := by linarith
  have hge := heightAt_ge ha h0 hf hp hr a1 a2 b1 b2
  have hK : a * (2 * f - f ^ 2) / ((Q - gam a f) * (1 - f) ^ 3) ≤ 1 / 20 := by
    have k1 : (97 / 100 : ℝ) ≤ (1 - f) ^ 3 := by nlinarith [sq_nonneg f]
    have k2 : 1919 / 2000 * Q ≤ Q - gam a f := by linarith
    have k3 : 1919 / 2000 * Q * (97 / 100) ≤ (Q - gam a f) * (1 - f) ^ 3 := by gcongr
    have k4 : 2 * f - f ^ 2 ≤ 2 / 100 := by nlinarith
    have k5 : a * (2 * f - f ^ 2) ≤ 2 * Q * (2 / 100) := by
      have : 0 ≤ 2 * f - f ^ 2 := by nlinarith
      gcongr
      linarith
    rw [div_le_iff₀ (by positivity)]
    linarith
  have hS : 19 / 20 * (p * |1 / cos (phi (n + 1)) - 1 / cos (phi n)|) ≤ eps := by
    refine le_trans ?_ (hge.trans he)
    refine mul_le_mul_of_nonneg_right (by linarith) (by positivity)
  have hD : (p * |tan (phi (n + 1)) - tan (phi n)|) ^ 2 ≤ 20 / 19 * eps * (21 / 10 * Q) := by
    rw [mul_pow, sq_abs]
    calc p ^ 2 * (tan (phi (n + 1)) - tan (phi n)) ^ 2 ≤
          p ^ 2 * (|1 / cos (phi (n + 1)) - 1 / cos (phi n)| *
            (1 / cos (phi (n + 1)) + 1 / cos (phi n))) := by gcongr
      _ = p * |1 / cos (phi (n + 1)) - 1 / cos (phi n)| *
            (p * (1 / cos (phi (n + 1))) + p * (1 / cos (phi n))) := by ring
      _ ≤ 20 / 19 * eps * (21 / 10 * Q) := by
          refine mul_le_mul (by linarith) (by linarith) (by positivity) (by positivity)
  have hD2 : p * |tan (phi (n + 1)) - tan (phi n)| ≤ 3 / 2 * sqrt (Q * eps) := by
    refine le_of_sq_le_sq ?_ (by positivity)
    rw [mul_pow (3 / 2), sq_sqrt (by positivity)]
    refine hD.trans ?_
    have : 0 ≤ Q * eps := by positivity
    linarith
  calc p * |tan (phi (n + 1)) - tan star| ≤ p * (5 * f * |tan (phi n) - tan star|) := by gcongr
    _ = 5 * f * (20 / 19) * (19 / 20 * (p * |tan (phi n) - tan star|)) := by ring
    _ ≤ 5 * f * (20 / 19) * (3 / 2 * sqrt (Q * eps)) := by
        exact mul_le_mul_of_nonneg_left (hc.trans hD2) (by positivity)
    _ ≤ 79 / 10 * f * sqrt (Q * eps) := by
        have : 0 ≤ f * sqrt (Q * eps) := by positivity
        linarith

/-- When already the first height is within the tolerance of the ellipsoid. -/
theorem Errors.stop_first {a f p z star eps : ℝ}
    (E : Errors a f p z star (fun n => (moritzMethod a f p z).next^[n] (start f p z))) (ha : 0 < a)
    (h0 : 0 ≤ f) (h1 : f ≤ 1 / 100) (hp : 0 < p) (hq : a / 2 ≤ ‖(⟨p, z⟩ : ℂ)‖)
    (he : |heightAt a f p (start f p z)| ≤ eps) :
    p * |tan (start f p z) - tan star| ≤ 5 / 2 * f * eps := by
  have hf : f < 1 := by linarith
  have hf0 : 0 < 1 - f := by linarith
  obtain ⟨-, g2, g3⟩ := gam_small ha h0 h1 hq
  have hg := gam_nonneg ha h0 hf
  have heps : 0 ≤ eps := (abs_nonneg _).trans he
  have hc := E.change h0 h1 hp 0
  obtain ⟨b1, b2⟩ := E.region 0
  have hgood := moritz_good ha h0 hf hp g2
  simp only [Function.iterate_zero, id_eq, zero_add, Function.iterate_one] at hc b1 b2
  have hx := hgood.xpos _ b1 b2
  obtain ⟨u1, -⟩ := par_N ha h0 hf b1
  have hN := primeVertical_pos ha h0 hf (start f p z)
  have ht : tan (start f p z) = z / (p * (1 - f) ^ 2) := by unfold start; rw [tan_arctan]
  have ht1 : tan ((moritzMethod a f p z).next (start f p z)) =
      z / (moritzMethod a f p z).x (start f p z) := by
    unfold Method.next; rw [tan_arctan]; rfl
  have hxe : (moritzMethod a f p z).x (start f p z) =
      p - (2 * f - f ^ 2) * (primeVertical a f (start f p z) * cos (start f p z)) := by
    show p - (1 - f) * gam a f * cos (par f (start f p z)) = _
    rw [u1]
    unfold gam
    field_simp
  have hxl : p * (919 / 1000 * ‖(⟨p, z⟩ : ℂ)‖) ≤
      (moritzMethod a f p z).x (start f p z) * (‖(⟨p, z⟩ : ℂ)‖ - gam a f) := by
    obtain ⟨-, k2⟩ := par_cos h0 hf b1
    have k3 := k2.trans b2
    rw [le_div_iff₀ (by linarith)] at k3
    show _ ≤ (p - (1 - f) * gam a f * cos (par f (start f p z))) * _
    have : gam a f * ((1 - f) * cos (par f (start f p z)) * (‖(⟨p, z⟩ : ℂ)‖ - gam a f)) ≤
      gam a f * p := by gcongr
    nlinarith
  set X := (moritzMethod a f p z).x (start f p z)
  set C := cos (start f p z)
  set N := primeVertical a f (start f p z)
  have hz : |z| ≤ ‖(⟨p, z⟩ : ℂ)‖ := Complex.abs_im_le_norm ⟨p, z⟩
  set Q := ‖(⟨p, z⟩ : ℂ)‖
  have hQ0 : 0 < Q := by linarith
  have he2 : 0 ≤ 2 * f - f ^ 2 := by nlinarith
  have hdiff : z / X - z / (p * (1 - f) ^ 2) =
      -(z * ((2 * f - f ^ 2) * (p / C - N)) * C) / (X * p * (1 - f) ^ 2) := by
    have : p * (1 - f) ^ 2 - X = -((2 * f - f ^ 2) * (p / C - N) * C) := by
      rw [hxe]; field_simp; ring
    rw [div_sub_div _ _ hx.ne' (by positivity)]
    have e2 : z * (p * (1 - f) ^ 2) - X * z = z * (p * (1 - f) ^ 2 - X) := by ring
    rw [e2, this]
    congr 1 <;> ring
  have hch : p * |tan ((moritzMethod a f p z).next (start f p z)) - tan (start f p z)| ≤
      9 / 4 * f * eps := by
    rw [ht1, ht, hdiff, abs_div, abs_neg, abs_of_pos (show 0 < X * p * (1 - f) ^ 2 by positivity),
      abs_mul, abs_mul, abs_mul, abs_of_nonneg he2, abs_of_pos b1]
    change |p / C - N| ≤ eps at he
    have k0 : |z| * ((2 * f - f ^ 2) * |p / C - N|) * C ≤ Q * ((2 * f) * eps) * C := by
      gcongr
      nlinarith
    rw [le_div_iff₀ (by linarith)] at b2
    have k1 : (49 / 50 : ℝ) ≤ (1 - f) ^ 2 := by nlinarith
    rw [mul_div_assoc', div_le_iff₀ (by positivity)]
    have k2 : p * (919 / 1000 * Q) * (49 / 50) ≤ X * (Q - gam a f) * (1 - f) ^ 2 :=
      mul_le_mul hxl k1 (by norm_num) (mul_nonneg hx.le (by linarith))
    have k3 : C * (p * (919 / 1000 * Q) * (49 / 50)) ≤
        C * (X * (Q - gam a f) * (1 - f) ^ 2) := by gcongr
    have k4 : C * (X * (Q - gam a f) * (1 - f) ^ 2) ≤ p * (X * (1 - f) ^ 2) := by
      have : 0 ≤ X * (1 - f) ^ 2 := by positivity
      nlinarith
    have k5 : C * Q * (919 / 1000 * (49 / 50)) * p ≤ p * (X * (1 - f) ^ 2) := by linarith
    have k6 : 9 / 4 * f * eps * (C * Q * (919 / 1000 * (49 / 50)) * p) ≤
      9 / 4 * f * eps * (p * (X * (1 - f) ^ 2)) := by gcongr
    have k7 : 0 ≤ f * eps * C * Q * p := by positivity
    have k8 : p * (|z| * ((2 * f - f ^ 2) * |p / C - N|) * C) ≤ p * (Q * ((2 * f) * eps) * C) := by
      gcongr
    linarith
  have : 0 ≤ f * eps := by positivity
  linarith

/-- The position found after `m + 1` passes, by the error of the tangent before the last pass. -/
theorem moritz_position {a f star h : ℝ} (q : P3) (ha : 0 < a) (h0 : 0 ≤ f) (h1 : f ≤ 1 / 100)
    (hp : 0 < axisDistance q) (hq : a / 2 ≤ ‖(⟨axisDistance q, q.z⟩ : ℂ)‖)
    (geo : Geodetic a f (axisDistance q) q.z star h) {phi : ℕ → ℝ}
    (E : Errors a f (axisDistance q) q.z star phi)
    (hreg : cos star ≤ axisDistance q / (‖(⟨axisDistance q, q.z⟩ : ℂ)‖ - gam a f)) (m : ℕ) :
    (toCartesian (geodeticLon q) (phi (m + 1) / (π / 180))
      (heightAt a f (axisDistance q) (phi m)) a f).dist q ≤
      17 / 5 * (axisDistance q * |tan (phi m) - tan star|) := by
  have hf : f < 1 := by linarith
  have hf0 : 0 < 1 - f := by linarith
  obtain ⟨-, g2, g3⟩ := gam_small ha h0 h1 hq
  have hH := geo.height_le ha h0 hf hq
  set p := axisDistance q
  set Q := ‖(⟨p, q.z⟩ : ℂ)‖ with hQ
  have hQ0 : 0 < Q := by linarith
  have hr : 0 < Q - gam a f := by linarith
  have hr' : 1919 / 2000 * Q ≤ Q - gam a f := by linarith
  obtain ⟨a1, a2⟩ := E.region (m + 1)
  obtain ⟨b1, b2⟩ := E.region m
  rw [← hQ] at a2 b2
  have hstar : heightAt a f p star = h := by
    unfold heightAt
    rw [← geo.axis, mul_div_assoc, div_self geo.cos_pos.ne']
    ring
  have hd := dist_le (h' := heightAt a f p (phi m)) q ha h0 hf a1 geo
  have hh := heightAt_le ha h0 hf hp hr b1 b2 geo.cos_pos hreg
  rw [hstar] at hh
  have hc := chord_tan hp hr a1 a2 geo.cos_pos hreg
  have hs : p * |tan (phi (m + 1)) - tan star| ≤ 1 / 20 * (p * |tan (phi m) - tan star|) := by
    have := E.shrink m
    calc p * |tan (phi (m + 1)) - tan star| ≤ p * (5 * f * |tan (phi m) - tan star|) := by gcongr
      _ ≤ p * (1 / 20 * |tan (phi m) - tan star|) := by gcongr; linarith
      _ = _ := by ring
  have hD : 0 ≤ p * |tan (phi m) - tan star| := by positivity
  generalize p * |tan (phi m) - tan star| = D at *
  have k1 : (49 / 50 : ℝ) ≤ (1 - f) ^ 2 := by nlinarith
  have c1 : a / ((Q - gam a f) * (1 - f) ^ 2) ≤ 43 / 20 := by
    rw [div_le_iff₀ (by positivity)]
    have : 1919 / 2000 * Q * (49 / 50) ≤ (Q - gam a f) * (1 - f) ^ 2 :=
      mul_le_mul hr' k1 (by norm_num) hr.le
    linarith
  have c2 : a / (1 - f) ≤ 51 / 25 * Q := by
    rw [div_le_iff₀ hf0]
    nlinarith
  have hch : 1919 / 2000 * Q * chord (phi (m + 1)) star ≤ 1 / 20 * D := by
    refine le_trans ?_ (hc.trans hs)
    exact mul_le_mul_of_nonneg_right hr' (chord_nonneg _ _)
  have hch0 := chord_nonneg (phi (m + 1)) star
  have t1 : (a / (1 - f) + |h|) * chord (phi (m + 1)) star ≤ 101 / 25 * Q * chord (phi (m + 1)) star := by
    refine mul_le_mul_of_nonneg_right ?_ hch0
    linarith
  have t2 : (1 + a / ((Q - gam a f) * (1 - f) ^ 2)) * D ≤ (1 + 43 / 20) * D := by
    refine mul_le_mul_of_nonneg_right ?_ hD
    linarith
  linarith

/-- C33: with Moritz's method every point away from the
axis and at least half the semi-major axis away from the centre gets coordinates whose position is
the point, up to an error that shrinks by `5 f` with every pass (0.017 for the Earth), or up to
`27 f √(radius · eps) + 9 f eps` when the loop stops because no height changes by more than
`eps`. -/
theorem C33_moritz (l : List P3) (a f eps : ℝ) (iterations : ℕ) (method : String)
    (hm : method.toLower = "moritz") (ha : 0 < a) (h0 : 0 ≤ f) (h1 : f ≤ 1 / 100) (he : 0 ≤ eps)
    (hl : ∀ q ∈ l, (q.x ≠ 0 ∨ q.y ≠ 0) ∧ a / 2 ≤ radius q) :
    ∃ r, toGeodetic l a f method eps iterations = .ok r ∧ r.length = l.length ∧
      ∀ (i : ℕ) (q : P3), l[i]? = some q → ∃ lon lat h, r[i]? = some (lon, lat, h) ∧
        -180 < lon ∧ lon ≤ 180 ∧ |lat| < 90 ∧
        (toCartesian lon lat h a f).dist q ≤
          15 / 2 * radius q * (5 * f) ^ iterations + 27 * f * sqrt (radius q * eps) +
            9 * f * eps := by
  have hf1 : f < 1 := by linarith
  obtain ⟨n, hn, e1, e2⟩ := moritzLoop_spec a f eps (iterations + 1) (l.map (moritzInit a f))
  refine ⟨moritz l a f eps iterations, ?_, ?_, ?_⟩
  · unfold toGeodetic; rw [hm, if_pos rfl]
  · unfold moritz; rw [e1]; simp
  intro i q hiq
  have hmem := List.mem_of_getElem? hiq
  obtain ⟨hax, hrad⟩ := hl q hmem
  have hp := axisDistance_pos hax
  rw [← radius_eq] at hrad
  obtain ⟨-, g2, -⟩ := gam_small ha h0 h1 hrad
  have hit := fun k => (moritz_iterates (eps := eps) ha h0 hf1 hp g2 k).1
  obtain ⟨j1, -⟩ := moritzPass_iter a f eps (moritzInit a f q) n
  have hn1 : ∃ m, n = m + 1 := by
    cases n with
    | zero =>
      rcases e2 with e2 | e2
      · omega
      · exact absurd (show true = false from e2 _ (List.mem_map_of_mem hmem)) (by decide)
    | succ m => exact ⟨m, rfl⟩
  obtain ⟨m, rfl⟩ := hn1
  have hh := moritz_height (a := a) (f := f) (eps := eps) (q := q) m
  obtain ⟨star, h, geo⟩ := exists_geodetic ha h0 h1 hp hrad
  obtain ⟨E, hreg⟩ := moritz_errors ha h0 h1 hp hrad geo
  have hpos := moritz_position q ha h0 h1 hp hrad geo E hreg m
  have hpow := E.pow h0 hp
  have hstop : (m = iterations) ∨
      axisDistance q * |tan ((moritzMethod a f (axisDistance q) q.z).next^[m]
        (start f (axisDistance q) q.z)) - tan star| ≤
      79 / 10 * f * sqrt (‖(⟨axisDistance q, q.z⟩ : ℂ)‖ * eps) + 5 / 2 * f * eps := by
    rcases e2 with e2 | e2
    · left; omega
    · right
      have e3 := e2 _ (List.mem_map_of_mem hmem)
      have hmove : |((moritzPass a f eps)^[m + 1] (moritzInit a f q)).h -
          ((moritzPass a f eps)^[m] (moritzInit a f q)).h| ≤ eps := by
        rw [Function.iterate_succ_apply'] at e3 ⊢
        have : decide (eps < |(moritzPass a f eps
            ((moritzPass a f eps)^[m] (moritzInit a f q))).h -
              ((moritzPass a f eps)^[m] (moritzInit a f q)).h|) = false := e3
        exact not_lt.1 (of_decide_eq_false this)
      cases m with
      | zero =>
        rw [hh] at hmove
        have hst := E.stop_first (eps := eps) ha h0 h1 hp hrad (by
          have e4 : ((moritzPass a f eps)^[0] (moritzInit a f q)).h = 0 := rfl
          rw [e4, sub_zero, hit 0] at hmove
          exact hmove)
        have : 0 ≤ 79 / 10 * f * sqrt (‖(⟨axisDistance q, q.z⟩ : ℂ)‖ * eps) := by positivity
        simp only [Function.iterate_zero, id_eq]
        linarith
      | succ m =>
        rw [hh, moritz_height, hit, hit] at hmove
        have hst := E.stop (eps := eps) ha h0 h1 hp hrad m hmove
        have : 0 ≤ 5 / 2 * f * eps := by positivity
        linarith
  have hlast := hit (m + 1)
  rw [hit m] at hh
  set s := (moritzPass a f eps)^[m + 1] (moritzInit a f q) with hs
  have hsq : s.q = q := j1
  refine ⟨geodeticLon q, s.phi / (π / 180), s.h, ?_, (lon_range q).1, (lon_range q).2, ?_, ?_⟩
  · unfold moritz
    rw [e1, List.map_map, List.map_map, List.getElem?_map, hiq]
    simp only [Option.map_some, Function.comp_apply]
    rw [← hs, hsq]
  · have hin : -(π / 2) < s.phi ∧ s.phi < π / 2 := by
      rw [hlast, Function.iterate_succ_apply']
      exact ⟨neg_pi_div_two_lt_arctan _, arctan_lt_pi_div_two _⟩
    have := pi_pos
    rw [abs_lt, lt_div_iff₀ (by positivity), div_lt_iff₀ (by positivity)]
    constructor <;> linarith [hin.1, hin.2]
  · rw [hlast, hh]
    refine hpos.trans ?_
    rw [← radius_eq]
    set Q := ‖(⟨axisDistance q, q.z⟩ : ℂ)‖
    have hQ0 : 0 < Q := by linarith
    have n1 : 0 ≤ Q * (5 * f) ^ iterations := by positivity
    have n2 : 0 ≤ f * sqrt (Q * eps) := by positivity
    have n3 : 0 ≤ f * eps := by positivity
    rcases hstop with hstop | hstop
    · have := hpow m
      rw [hstop] at this ⊢
      linarith
    · linarith

example : ∃ r, toGeodetic [⟨6378137, 0, 1000⟩, ⟨100, -3, -6356000⟩] 6378137 (1 / 298) "moritz"
    (1 / 10 ^ 10) 10 = .ok r ∧ r.length = 2 := by
  obtain ⟨r, h1, h2, -⟩ := C33_moritz [⟨6378137, 0, 1000⟩, ⟨100, -3, -6356000⟩] 6378137 (1 / 298)
    (1 / 10 ^ 10) 10 "moritz" (by decide +kernel) (by norm_num) (by norm_num) (by norm_num)
    (by norm_num) (by
      intro q hq
      simp only [List.mem_cons, List.not_mem_nil, or_false] at hq
      rcases hq with rfl | rfl
      · refine ⟨Or.inl (by norm_num), ?_⟩
        unfold radius; refine le_sqrt_of_sq_le ?_; norm_num
      · refine ⟨Or.inl (by norm_num), ?_⟩
        unfold radius; refine le_sqrt_of_sq_le ?_; norm_num)
  exact ⟨r, h1, h2⟩

/-- C33: geodetic latitude and height of a point off the axis are a fixed point of a pass of both
iterative methods, for every ellipsoid: the pass of Moritz returns them, the pass of Bowring
returns the latitude, and the final height of Bowring is the height. -/
theorem C33_fixed_point (a f lat h : ℝ) (ha : 0 < a) (h0 : 0 ≤ f) (h1 : f < 1) (hlat : |lat| < 90)
    (hh : 0 < primeVertical a f (lat * (π / 180)) * (1 - ecc1 a f ^ 2) + h) :
    let phi := lat * (π / 180)
    let p := (primeVertical a f phi + h) * cos phi
    let z := (primeVertical a f phi * (1 - ecc1 a f ^ 2) + h) * sin phi
    moritzStep a f p z phi = (phi, h) ∧ bowringStep a f p z phi = phi ∧
      bowringHeight a f p z phi = h := by
  intro phi p z
  have hp := pi_pos
  obtain ⟨b1, b2⟩ := abs_lt.1 hlat
  rw [ecc1_sq ha h0 (by linarith)] at hh
  have geo : Geodetic a f p z phi h := by
    refine ⟨by simp only [phi]; nlinarith, by simp only [phi]; nlinarith, rfl, ?_, hh⟩
    simp only [z]
    rw [ecc1_sq ha h0 (by linarith)]
  have hc := geo.cos_pos
  have hN := primeVertical_pos ha h0 h1 phi
  have hp0 : 0 < p := by
    have : 0 ≤ primeVertical a f phi * (2 * f - f ^ 2) := mul_nonneg hN.le (by nlinarith)
    exact mul_pos (by linarith) hc
  have fixed : ∀ (M : Method) (F : ℝ), 0 < F → M.x phi = F * cos phi → M.y phi = F * sin phi →
      M.next phi = phi := by
    intro M F hF hx hy
    unfold Method.next
    rw [hx, hy, mul_div_mul_left _ _ hF.ne', ← tan_eq_sin_div_cos, arctan_tan geo.lo geo.hi]
  obtain ⟨F, hF, fx, fy⟩ := bowring_at ha h0 h1 geo
  obtain ⟨G, hG, gx, gy⟩ := moritz_at ha h0 h1 geo
  refine ⟨Prod.ext ?_ ?_, ?_, ?_⟩
  · rw [moritzStep_eq ha h0 h1 hp0 hc, fixed _ G hG gx gy]
  · show p / cos phi - primeVertical a f phi = h
    simp only [p]
    rw [mul_div_assoc, div_self hc.ne']
    ring
  · rw [bowringStep_eq ha h0 h1, fixed _ F hF fx fy]
  · unfold bowringHeight
    dsimp only
    have hr := radicand_pos h1 h0 phi
    have hN' : a / sqrt (1 - (2 * f - f ^ 2) * sin phi ^ 2) = primeVertical a f phi := by
      unfold primeVertical; rw [ecc1_sq ha h0 (by linarith)]
    have hNa : a ^ 2 / primeVertical a f phi =
        primeVertical a f phi * (1 - (2 * f - f ^ 2) * sin phi ^ 2) := by
      have hs := sq_sqrt hr.le
      have hs0 := sqrt_pos.2 hr
      rw [← hN']
      set ρ := sqrt (1 - (2 * f - f ^ 2) * sin phi ^ 2)
      rw [← hs]
      field_simp
    rw [eSq_eq ha h0 h1, hN', hNa, ← geo.axis, ← geo.plane]
    linear_combination (primeVertical a f phi + h) * sin_sq_add_cos_sq phi

example : let phi := (45 : ℝ) * (π / 180)
    moritzStep 6378137 (1 / 298) ((primeVertical 6378137 (1 / 298) phi + 1000) * cos phi)
      ((primeVertical 6378137 (1 / 298) phi * (1 - ecc1 6378137 (1 / 298) ^ 2) + 1000) * sin phi)
      phi = (phi, 1000) := by
  refine (C33_fixed_point 6378137 (1 / 298) 45 1000 (by norm_num) (by norm_num) (by norm_num)
    (by norm_num) ?_).1
  rw [ecc1_sq (by norm_num) (by norm_num) (by norm_num)]
  have := primeVertical_pos (a := 6378137) (f := 1 / 298) (by norm_num) (by norm_num) (by norm_num)
    (45 * (π / 180))
  positivity

/-! ## C35: batches -/

/-- C35, as far as it holds: with the closed form, and no point of the batch on the axis, each
point gets the coordinates it gets alone.  Missing: batches with a point on the axis, for which
the claim is false (`C35_axis_false`). -/
theorem C35_closed_form_partial (l : List P3) (a f eps : ℝ) (iterations : ℕ)
    (hl : ∀ q ∈ l, q.x ≠ 0 ∨ q.y ≠ 0) :
    ∃ r, toGeodetic l a f "zhu" eps iterations = .ok r ∧ r.length = l.length ∧
      ∀ (i : ℕ) (q : P3), l[i]? = some q → ∃ c, r[i]? = some c ∧
        toGeodetic [q] a f "zhu" eps iterations = .ok [c] := by
  have n1 : ¬ "zhu".toLower = "moritz" := by decide +kernel
  have n2 : ¬ "zhu".toLower = "bowring" := by decide +kernel
  have n3 : "zhu".toLower = "zhu" := by decide +kernel
  have hu : ∀ l', toGeodetic l' a f "zhu" eps iterations = .ok (zhu l' a f) := by
    intro l'
    unfold toGeodetic
    rw [if_neg n1, if_neg n2, if_pos n3]
  refine ⟨zhu l a f, hu l, ?_, ?_⟩
  · rw [zhu_regular (fun q hq => axisDistance_pos (hl q hq))]; simp
  intro i q hiq
  have hmem := List.mem_of_getElem? hiq
  refine ⟨(geodeticLon q, zhuPoint a f (axisDistance q) q.z), ?_, ?_⟩
  · rw [zhu_regular (fun q hq => axisDistance_pos (hl q hq)), List.getElem?_map, hiq]
    rfl
  · rw [hu, zhu_regular (by
      intro q' hq'
      rw [List.mem_singleton] at hq'
      rw [hq']
      exact axisDistance_pos (hl q hmem))]
    rfl

/-- C35 is false in general: a point on the axis anywhere in the batch leaves all other points
with latitude and height zero.  Here the point at 45° north on the ellipsoid, alone and after
the north pole. -/
theorem C35_axis_false : ∃ q pole : P3, ∃ a f : ℝ,
    toGeodetic [q] a f "zhu" 0 10 = .ok [(0, 45, 0)] ∧
    ∃ c, toGeodetic [pole, q] a f "zhu" 0 10 = .ok [c, (0, 0, 0)] := by
  have n1 : ¬ "zhu".toLower = "moritz" := by decide +kernel
  have n2 : ¬ "zhu".toLower = "bowring" := by decide +kernel
  have n3 : "zhu".toLower = "zhu" := by decide +kernel
  have h := C33_zhu_round_trip 0 45 0 6378137 (1 / 298) 0 10 (by norm_num) (by norm_num)
    (by norm_num) (by norm_num) (by norm_num) (by norm_num) (by norm_num)
  refine ⟨toCartesian 0 45 0 6378137 (1 / 298), ⟨0, 0, 6356000⟩, 6378137, 1 / 298, h, ?_⟩
  have hz : axisDistance ⟨0, 0, 6356000⟩ = 0 := by unfold axisDistance; simp
  have hp := pi_pos
  have hc : 0 < cos (45 * (π / 180)) := cos_pos_of_mem_Ioo ⟨by linarith, by linarith⟩
  obtain ⟨x1, x2⟩ := axis_lon_of (lon := 0) (lat := 45) (h := 0) (a := 6378137) (f := 1 / 298)
    (by norm_num) (by norm_num) (mul_pos (by
      rw [add_zero]
      exact primeVertical_pos (by norm_num) (by norm_num) (by norm_num) _) hc)
  have hq : axisDistance (toCartesian 0 45 0 6378137 (1 / 298)) ≠ 0 := by
    rw [x1, add_zero]
    exact (mul_pos (primeVertical_pos (by norm_num) (by norm_num) (by norm_num) _) hc).ne'
  unfold toGeodetic
  rw [if_neg n1, if_neg n2, if_pos n3]
  unfold zhu
  rw [if_pos ⟨_, List.mem_cons_self, hz⟩, List.map_cons, List.map_singleton, if_neg hq, x2]
  exact ⟨_, rfl⟩

theorem bowringLoop_same (a f eps : ℝ) (fuel : ℕ) (L L' : List Bowring)
    (h : ∀ s, s ∈ L ↔ s ∈ L') : ∃ n, bowringLoop a f eps fuel L = L.map (bowringPass a f eps)^[n] ∧
      bowringLoop a f eps fuel L' = L'.map (bowringPass a f eps)^[n] := by
  induction fuel generalizing L L' with
  | zero => exact ⟨0, by simp [bowringLoop]⟩
  | succ fuel ih =>
    have hany : L.any (·.moving) = L'.any (·.moving) := by
      rw [Bool.eq_iff_iff, List.any_eq_true, List.any_eq_true]
      simp only [h]
    unfold bowringLoop
    rw [hany]
    by_cases hm : L'.any (·.moving)
    · rw [if_pos hm, if_pos hm]
      obtain ⟨n, e1, e2⟩ := ih (L.map (bowringPass a f eps)) (L'.map (bowringPass a f eps)) (by
        intro s
        simp only [List.mem_map, h])
      refine ⟨n + 1, ?_, ?_⟩
      · rw [e1, List.map_map]; rfl
      · rw [e2, List.map_map]; rfl
    · rw [if_neg hm, if_neg hm]
      exact ⟨0, by simp⟩

theorem moritzLoop_same (a f eps : ℝ) (fuel : ℕ) (L L' : List Moritz)
    (h : ∀ s, s ∈ L ↔ s ∈ L') : ∃ n, moritzLoop a f eps fuel L = L.map (moritzPass a f eps)^[n] ∧
      moritzLoop a f eps fuel L' = L'.map (moritzPass a f eps)^[n] := by
  induction fuel generalizing L L' with
  | zero => exact ⟨0, by simp [moritzLoop]⟩
  | succ fuel ih =>
    have hany : L.any (·.moving) = L'.any (·.moving) := by
      rw [Bool.eq_iff_iff, List.any_eq_true, List.any_eq_true]
      simp only [h]
    unfold moritzLoop
    rw [hany]
    by_cases hm : L'.any (·.moving)
    · rw [if_pos hm, if_pos hm]
      obtain ⟨n, e1, e2⟩ := ih (L.map (moritzPass a f eps)) (L'.map (moritzPass a f eps)) (by
        intro s
        simp only [List.mem_map, h])
      refine ⟨n + 1, ?_, ?_⟩
      · rw [e1, List.map_map]; rfl
      · rw [e2, List.map_map]; rfl
    · rw [if_neg hm, if_neg hm]
      exact ⟨0, by simp⟩

/-- C35: with every method, the coordinates of a point depend only on which points are in the
batch, not on their order or how often they occur. -/
theorem C35_order (l l' : List P3) (a f eps : ℝ) (iterations : ℕ) (method : String)
    (h : ∀ q, q ∈ l ↔ q ∈ l') :
    (∃ e, toGeodetic l a f method eps iterations = .error e ∧
      toGeodetic l' a f method eps iterations = .error e) ∨
    ∃ r r', toGeodetic l a f method eps iterations = .ok r ∧
      toGeodetic l' a f method eps iterations = .ok r' ∧ r.length = l.length ∧
      r'.length = l'.length ∧
      ∀ i j : ℕ, l[i]? = l'[j]? → r[i]? = r'[j]? := by
  have key : ∀ g : P3 → ℝ × ℝ × ℝ, (l.map g).length = l.length ∧ (l'.map g).length = l'.length ∧
      ∀ i j : ℕ, l[i]? = l'[j]? → (l.map g)[i]? = (l'.map g)[j]? := by
    intro g
    refine ⟨List.length_map _, List.length_map _, ?_⟩
    intro i j hij
    rw [List.getElem?_map, List.getElem?_map, hij]
  unfold toGeodetic
  by_cases m1 : method.toLower = "moritz"
  · right
    rw [if_pos m1, if_pos m1]
    obtain ⟨n, e1, e2⟩ := moritzLoop_same a f eps (iterations + 1) (l.map (moritzInit a f))
      (l'.map (moritzInit a f)) (by intro s; simp only [List.mem_map, h])
    refine ⟨_, _, rfl, rfl, ?_⟩
    unfold moritz
    rw [e1, e2, List.map_map, List.map_map, List.map_map, List.map_map]
    exact key _
  by_cases m2 : method.toLower = "bowring"
  · right
    rw [if_neg m1, if_neg m1, if_pos m2, if_pos m2]
    obtain ⟨n, e1, e2⟩ := bowringLoop_same a f eps (iterations + 1) (l.map (bowringInit a f))
      (l'.map (bowringInit a f)) (by intro s; simp only [List.mem_map, h])
    refine ⟨_, _, rfl, rfl, ?_⟩
    unfold bowring
    rw [e1, e2, List.map_map, List.map_map, List.map_map, List.map_map]
    exact key _
  by_cases m3 : method.toLower = "zhu"
  · right
    rw [if_neg m1, if_neg m1, if_neg m2, if_neg m2, if_pos m3, if_pos m3]
    refine ⟨_, _, rfl, rfl, ?_⟩
    unfold zhu
    by_cases hz : ∃ q ∈ l, axisDistance q = 0
    · have hz' : ∃ q ∈ l', axisDistance q = 0 := by simpa only [h] using hz
      rw [if_pos hz, if_pos hz']
      exact key _
    · have hz' : ¬ ∃ q ∈ l', axisDistance q = 0 := by simpa only [h] using hz
      rw [if_neg hz, if_neg hz']
      exact key _
  · left
    rw [if_neg m1, if_neg m1, if_neg m2, if_neg m2, if_neg m3, if_neg m3]
    exact ⟨_, rfl, rfl⟩

end Verif.Spatial
