import Verif.Props.Geodetic
import Mathlib.Analysis.Complex.Norm

/-!
# C33: the iterative geodetic conversions; C35: batches
-/

namespace Verif.Spatial

open Verif Real

/-! ## Directions -/

/-- The unit vector at an angle. -/
noncomputable def dir (t : ℝ) : ℂ := ⟨cos t, sin t⟩

theorem norm_mk (x y : ℝ) : ‖(⟨x, y⟩ : ℂ)‖ = sqrt (x ^ 2 + y ^ 2) := by
  rw [Complex.norm_def, Complex.normSq_mk]
  congr 1
  ring

theorem sq_norm_mk (x y : ℝ) : ‖(⟨x, y⟩ : ℂ)‖ ^ 2 = x ^ 2 + y ^ 2 := by
  rw [norm_mk, sq_sqrt (by positivity)]

theorem norm_dir (t : ℝ) : ‖dir t‖ = 1 := by
  unfold dir
  rw [norm_mk, cos_sq_add_sin_sq, sqrt_one]

/-- The direction of a vector in the right half plane. -/
theorem dir_arctan {x y : ℝ} (hx : 0 < x) :
    cos (arctan (y / x)) = x / ‖(⟨x, y⟩ : ℂ)‖ ∧ sin (arctan (y / x)) = y / ‖(⟨x, y⟩ : ℂ)‖ := by
  have h : sqrt (1 + (y / x) ^ 2) = ‖(⟨x, y⟩ : ℂ)‖ / x := by
    rw [show 1 + (y / x) ^ 2 = (x ^ 2 + y ^ 2) / x ^ 2 by field_simp, sqrt_div (by positivity),
      sqrt_sq hx.le, norm_mk]
  have hn : 0 < ‖(⟨x, y⟩ : ℂ)‖ := by rw [norm_mk]; exact sqrt_pos.2 (by positivity)
  rw [cos_arctan, sin_arctan, h]
  constructor <;> field_simp

/-- Normalising two vectors no shorter than `r` brings them apart by at most the factor 1/r. -/
theorem unit_lipschitz {x y x' y' r : ℝ} (hr : 0 < r) (h1 : r ≤ ‖(⟨x, y⟩ : ℂ)‖)
    (h2 : r ≤ ‖(⟨x', y'⟩ : ℂ)‖) :
    ‖(⟨x / ‖(⟨x, y⟩ : ℂ)‖ - x' / ‖(⟨x', y'⟩ : ℂ)‖,
      y / ‖(⟨x, y⟩ : ℂ)‖ - y' / ‖(⟨x', y'⟩ : ℂ)‖⟩ : ℂ)‖ ≤
      ‖(⟨x - x', y - y'⟩ : ℂ)‖ / r := by
  have e1 := sq_norm_mk x y
  have e2 := sq_norm_mk x' y'
  set A := ‖(⟨x, y⟩ : ℂ)‖
  set B := ‖(⟨x', y'⟩ : ℂ)‖
  have hA : 0 < A := by linarith
  have hB : 0 < B := by linarith
  rw [le_div_iff₀ hr]
  refine le_of_sq_le_sq ?_ (norm_nonneg _)
  rw [mul_pow, sq_norm_mk, sq_norm_mk]
  have key : ((x / A - x' / B) ^ 2 + (y / A - y' / B) ^ 2) * (A * B) =
      2 * A * B - 2 * (x * x' + y * y') := by
    have : ((x / A - x' / B) ^ 2 + (y / A - y' / B) ^ 2) * (A * B) =
      (x ^ 2 + y ^ 2) * B / A + (x' ^ 2 + y' ^ 2) * A / B - 2 * (x * x' + y * y') := by
      field_simp
      ring
    rw [this, ← e1, ← e2]
    field_simp
    ring
  have h0 : 0 ≤ (x / A - x' / B) ^ 2 + (y / A - y' / B) ^ 2 := by positivity
  have hAB : r ^ 2 ≤ A * B := by nlinarith
  have step := mul_le_mul_of_nonneg_left hAB h0
  rw [key] at step
  nlinarith [sq_nonneg (A - B)]

theorem norm_mono {x y x' y' : ℝ} (h1 : |x| ≤ |x'|) (h2 : |y| ≤ |y'|) :
    ‖(⟨x, y⟩ : ℂ)‖ ≤ ‖(⟨x', y'⟩ : ℂ)‖ := by
  rw [norm_mk, norm_mk]
  exact sqrt_le_sqrt (add_le_add (sq_le_sq.2 h1) (sq_le_sq.2 h2))

theorem norm_scale (c x y : ℝ) : ‖(⟨c * x, c * y⟩ : ℂ)‖ = |c| * ‖(⟨x, y⟩ : ℂ)‖ := by
  rw [norm_mk, norm_mk, ← sqrt_sq_eq_abs, ← sqrt_mul (by positivity)]
  congr 1
  ring

/-! ## Reduced latitude -/

/-- The reduced latitude for a latitude in radians. -/
noncomputable def par (f phi : ℝ) : ℝ := arctan ((1 - f) * tan phi)

theorem par_spec {f phi : ℝ} (h1 : f < 1) (hc : 0 < cos phi) :
    cos (par f phi) = cos phi / ‖(⟨cos phi, (1 - f) * sin phi⟩ : ℂ)‖ ∧
      sin (par f phi) = (1 - f) * sin phi / ‖(⟨cos phi, (1 - f) * sin phi⟩ : ℂ)‖ := by
  have : par f phi = arctan ((1 - f) * sin phi / cos phi) := by
    unfold par; rw [tan_eq_sin_div_cos, mul_div_assoc]
  rw [this]
  exact dir_arctan hc

theorem par_norm {f phi : ℝ} (h0 : 0 ≤ f) (h1 : f < 1) :
    1 - f ≤ ‖(⟨cos phi, (1 - f) * sin phi⟩ : ℂ)‖ := by
  have : ‖(⟨(1 - f) * cos phi, (1 - f) * sin phi⟩ : ℂ)‖ ≤ ‖(⟨cos phi, (1 - f) * sin phi⟩ : ℂ)‖ :=
    norm_mono (by
      rw [abs_mul, abs_of_pos (show 0 < 1 - f by linarith)]
      nlinarith [abs_nonneg (cos phi)]) le_rfl
  rw [norm_scale, abs_of_pos (show 0 < 1 - f by linarith)] at this
  have h := norm_dir phi
  unfold dir at h
  rwa [h, mul_one] at this

theorem par_lipschitz {f phi phi' : ℝ} (h0 : 0 ≤ f) (h1 : f < 1) (hc : 0 < cos phi)
    (hc' : 0 < cos phi') :
    ‖(⟨cos (par f phi) - cos (par f phi'), sin (par f phi) - sin (par f phi')⟩ : ℂ)‖ ≤
      ‖(⟨cos phi - cos phi', sin phi - sin phi'⟩ : ℂ)‖ / (1 - f) := by
  obtain ⟨c1, s1⟩ := par_spec h1 hc
  obtain ⟨c2, s2⟩ := par_spec h1 hc'
  rw [c1, s1, c2, s2]
  have hf : 0 < 1 - f := by linarith
  refine (unit_lipschitz hf (par_norm h0 h1) (par_norm h0 h1)).trans ?_
  gcongr
  refine norm_mono le_rfl ?_
  rw [← mul_sub, abs_mul, abs_of_pos hf]
  nlinarith [abs_nonneg (sin phi - sin phi')]

theorem par_cos {f phi : ℝ} (h0 : 0 ≤ f) (h1 : f < 1) (hc : 0 < cos phi) :
    0 < cos (par f phi) ∧ (1 - f) * cos (par f phi) ≤ cos phi := by
  obtain ⟨c1, -⟩ := par_spec h1 hc
  have hn := par_norm (phi := phi) h0 h1
  have hf : 0 < 1 - f := by linarith
  set n := ‖(⟨cos phi, (1 - f) * sin phi⟩ : ℂ)‖
  have hn0 : 0 < n := by linarith
  rw [c1]
  refine ⟨by positivity, ?_⟩
  rw [mul_div_assoc', div_le_iff₀ hn0]
  nlinarith

/-! ## One pass, for both methods

A pass replaces the latitude by the direction of a vector near the given point. -/

/-- A method: the vector whose direction is the next latitude. -/
structure Method where
  x : ℝ → ℝ
  y : ℝ → ℝ

/-- The next latitude. -/
noncomputable def Method.next (M : Method) (phi : ℝ) : ℝ := arctan (M.y phi / M.x phi)

/-- What is needed of a method for a point at distance `p` from the axis: its vectors are at least
`r` long, point away from the axis and no farther than the point, and depend on the latitude with
Lipschitz constant `k * r`. -/
structure Method.Good (M : Method) (p r k : ℝ) : Prop where
  rpos : 0 < r
  xpos : ∀ phi, 0 < cos phi → cos phi ≤ p / r → 0 < M.x phi
  xle : ∀ phi, 0 < cos phi → M.x phi ≤ p
  long : ∀ phi, r ≤ ‖(⟨M.x phi, M.y phi⟩ : ℂ)‖
  lip : ∀ phi phi', 0 < cos phi → 0 < cos phi' →
    ‖(⟨M.x phi - M.x phi', M.y phi - M.y phi'⟩ : ℂ)‖ ≤
      k * r * ‖(⟨cos phi - cos phi', sin phi - sin phi'⟩ : ℂ)‖

/-- Chord between two angles. -/
noncomputable def chord (s t : ℝ) : ℝ := ‖(⟨cos s - cos t, sin s - sin t⟩ : ℂ)‖

theorem chord_eq (s t : ℝ) : chord s t = ‖dir s - dir t‖ := rfl

theorem chord_triangle (s t u : ℝ) : chord s u ≤ chord s t + chord t u := by
  rw [chord_eq, chord_eq, chord_eq]
  have := norm_add_le (dir s - dir t) (dir t - dir u)
  rwa [sub_add_sub_cancel] at this

theorem chord_le_two (s t : ℝ) : chord s t ≤ 2 := by
  rw [chord_eq]
  have := norm_sub_le (dir s) (dir t)
  rw [norm_dir, norm_dir] at this
  linarith

theorem chord_comm (s t : ℝ) : chord s t = chord t s := by
  rw [chord_eq, chord_eq, norm_sub_rev]

theorem chord_nonneg (s t : ℝ) : 0 ≤ chord s t := norm_nonneg _

/-- A chord is no longer than its arc. -/
theorem chord_le_abs (s t : ℝ) : chord s t ≤ |s - t| := by
  refine le_of_sq_le_sq ?_ (abs_nonneg _)
  unfold chord
  rw [sq_norm_mk, sq_abs]
  have h1 : (cos s - cos t) ^ 2 + (sin s - sin t) ^ 2 = 2 - 2 * cos (s - t) := by
    rw [cos_sub]
    linear_combination sin_sq_add_cos_sq s + sin_sq_add_cos_sq t
  rw [h1]
  have := one_sub_sq_div_two_le_cos (x := s - t)
  linarith

variable {M : Method} {p r k : ℝ}

theorem Method.next_spec (h : M.Good p r k) {phi : ℝ} (c0 : 0 < cos phi) (c1 : cos phi ≤ p / r) :
    0 < cos (M.next phi) ∧ cos (M.next phi) ≤ p / r := by
  have hx := h.xpos phi c0 c1
  have hl := h.long phi
  have hr := h.rpos
  obtain ⟨e, -⟩ := dir_arctan (y := M.y phi) hx
  have hxp := h.xle phi c0
  unfold Method.next
  rw [e]
  exact ⟨div_pos hx (by linarith), div_le_div₀ (by linarith) hxp hr hl⟩

theorem Method.contract (h : M.Good p r k) {phi star : ℝ} (c0 : 0 < cos phi) (c1 : cos phi ≤ p / r)
    (s0 : 0 < cos star) (s1 : cos star ≤ p / r) :
    chord (M.next phi) (M.next star) ≤ k * chord phi star := by
  have hr := h.rpos
  obtain ⟨e1, e2⟩ := dir_arctan (y := M.y phi) (h.xpos phi c0 c1)
  obtain ⟨e3, e4⟩ := dir_arctan (y := M.y star) (h.xpos star s0 s1)
  unfold chord Method.next
  rw [e1, e2, e3, e4]
  refine (unit_lipschitz hr (h.long _) (h.long _)).trans ?_
  rw [div_le_iff₀ hr]
  have := h.lip phi star c0 s0
  linarith

/-- The latitudes of successive passes approach a fixed one geometrically. -/
theorem Method.iterate (h : M.Good p r k) (hk : 0 ≤ k) {phi star : ℝ} (c0 : 0 < cos phi)
    (c1 : cos phi ≤ p / r) (s0 : 0 < cos star) (s1 : cos star ≤ p / r) (hs : M.next star = star)
    (n : ℕ) : 0 < cos (M.next^[n] phi) ∧ cos (M.next^[n] phi) ≤ p / r ∧
      chord (M.next^[n] phi) star ≤ k ^ n * chord phi star := by
  induction n with
  | zero => exact ⟨c0, c1, by simp⟩
  | succ n ih =>
    obtain ⟨i1, i2, i3⟩ := ih
    rw [Function.iterate_succ_apply']
    obtain ⟨j1, j2⟩ := M.next_spec h i1 i2
    refine ⟨j1, j2, ?_⟩
    have := M.contract h i1 i2 s0 s1
    rw [hs] at this
    calc chord (M.next (M.next^[n] phi)) star ≤ k * chord (M.next^[n] phi) star := this
      _ ≤ k * (k ^ n * chord phi star) := by gcongr
      _ = k ^ (n + 1) * chord phi star := by ring

/-- When the last change was small, so is the error. -/
theorem Method.stopped (h : M.Good p r k) (hk1 : k < 1) {phi star eps : ℝ} (hk : 0 ≤ k)
    (c0 : 0 < cos phi)
    (c1 : cos phi ≤ p / r) (s0 : 0 < cos star) (s1 : cos star ≤ p / r) (hs : M.next star = star)
    (he : |M.next phi - phi| ≤ eps) : chord (M.next phi) star ≤ k / (1 - k) * eps := by
  have h1 := M.contract h c0 c1 s0 s1
  rw [hs] at h1
  have h2 := chord_triangle phi (M.next phi) star
  have h3 := chord_le_abs phi (M.next phi)
  rw [abs_sub_comm] at h3
  rw [div_mul_eq_mul_div, le_div_iff₀ (by linarith)]
  nlinarith

/-! ## The two methods -/

/-- The size of the corrections: e² a / (1 - f). -/
noncomputable def gam (a f : ℝ) : ℝ := (2 * f - f ^ 2) * a / (1 - f)

theorem gam_nonneg {a f : ℝ} (ha : 0 < a) (h0 : 0 ≤ f) (h1 : f < 1) : 0 ≤ gam a f :=
  div_nonneg (mul_nonneg (by nlinarith) ha.le) (by linarith)

noncomputable def bowringMethod (a f p z : ℝ) : Method :=
  { x := fun phi => p - (1 - f) * gam a f * cos (par f phi) ^ 3
    y := fun phi => z + gam a f * sin (par f phi) ^ 3 }

noncomputable def moritzMethod (a f p z : ℝ) : Method :=
  { x := fun phi => p - (1 - f) * gam a f * cos (par f phi)
    y := fun _ => z }

theorem cube_lipschitz {x y : ℝ} (hx : |x| ≤ 1) (hy : |y| ≤ 1) : |x ^ 3 - y ^ 3| ≤ 3 * |x - y| := by
  rw [show x ^ 3 - y ^ 3 = (x ^ 2 + x * y + y ^ 2) * (x - y) by ring, abs_mul]
  refine mul_le_mul_of_nonneg_right ?_ (abs_nonneg _)
  obtain ⟨a1, a2⟩ := abs_le.1 hx
  obtain ⟨b1, b2⟩ := abs_le.1 hy
  rw [abs_le]
  constructor <;> nlinarith

theorem abs_cube_le {x : ℝ} (hx : |x| ≤ 1) : |x ^ 3| ≤ |x| := by
  rw [abs_pow]
  have := abs_nonneg x
  calc |x| ^ 3 = |x| * |x| ^ 2 := by ring
    _ ≤ |x| * 1 := by gcongr; nlinarith
    _ = |x| := mul_one _

/-- Vectors obtained from the point by corrections no larger than `gam`. -/
theorem long_of {a f p z α β u : ℝ} (ha : 0 < a) (h0 : 0 ≤ f) (h1 : f < 1)
    (hα : |α| ≤ gam a f * |cos u|) (hβ : |β| ≤ gam a f * |sin u|) :
    ‖(⟨p, z⟩ : ℂ)‖ - gam a f ≤ ‖(⟨p - α, z + β⟩ : ℂ)‖ := by
  have hg := gam_nonneg ha h0 h1
  have h2 : ‖(⟨α, -β⟩ : ℂ)‖ ≤ gam a f := by
    have h3 : ‖(⟨α, -β⟩ : ℂ)‖ ≤ ‖(⟨gam a f * cos u, gam a f * sin u⟩ : ℂ)‖ :=
      norm_mono (by rw [abs_mul, abs_of_nonneg hg]; exact hα)
        (by rw [abs_neg, abs_mul, abs_of_nonneg hg]; exact hβ)
    rw [norm_scale, abs_of_nonneg hg] at h3
    have h4 := norm_dir u
    unfold dir at h4
    rwa [h4, mul_one] at h3
  have h5 := norm_sub_norm_le (⟨p, z⟩ : ℂ) ⟨α, -β⟩
  have h6 : (⟨p, z⟩ : ℂ) - ⟨α, -β⟩ = ⟨p - α, z + β⟩ := by
    apply Complex.ext
    · simp
    · simp
  rw [h6] at h5
  linarith

theorem bowring_good {a f p z : ℝ} (ha : 0 < a) (h0 : 0 ≤ f) (h1 : f < 1) (hp : 0 < p)
    (hq : 2 * gam a f < ‖(⟨p, z⟩ : ℂ)‖) :
    (bowringMethod a f p z).Good p (‖(⟨p, z⟩ : ℂ)‖ - gam a f)
      (3 * gam a f / ((1 - f) * (‖(⟨p, z⟩ : ℂ)‖ - gam a f))) := by
  have hg := gam_nonneg ha h0 h1
  have hf : 0 < 1 - f := by linarith
  have hr : 0 < ‖(⟨p, z⟩ : ℂ)‖ - gam a f := by linarith
  refine ⟨hr, ?_, ?_, ?_, ?_⟩
  · intro phi c0 c1
    obtain ⟨k1, k2⟩ := par_cos h0 h1 c0
    have k3 := cos_le_one (par f phi)
    have k4 : cos (par f phi) ^ 3 ≤ cos (par f phi) := by
      have := abs_cube_le (abs_cos_le_one (par f phi))
      rwa [abs_of_pos k1, abs_of_pos (by positivity)] at this
    show 0 < p - (1 - f) * gam a f * cos (par f phi) ^ 3
    have k5 : (1 - f) * gam a f * cos (par f phi) ^ 3 ≤ gam a f * (p / (‖(⟨p, z⟩ : ℂ)‖ - gam a f)) :=
      calc (1 - f) * gam a f * cos (par f phi) ^ 3 ≤ (1 - f) * gam a f * cos (par f phi) := by gcongr
        _ = gam a f * ((1 - f) * cos (par f phi)) := by ring
        _ ≤ gam a f * (p / (‖(⟨p, z⟩ : ℂ)‖ - gam a f)) := by gcongr; linarith
    have k6 : gam a f * (p / (‖(⟨p, z⟩ : ℂ)‖ - gam a f)) < p := by
      rw [mul_div_assoc', div_lt_iff₀ hr]
      nlinarith
    linarith
  · intro phi c0
    obtain ⟨k1, -⟩ := par_cos h0 h1 c0
    show p - (1 - f) * gam a f * cos (par f phi) ^ 3 ≤ p
    have : 0 ≤ (1 - f) * gam a f * cos (par f phi) ^ 3 := by positivity
    linarith
  · intro phi
    refine long_of (u := par f phi) ha h0 h1 ?_ ?_
    · rw [abs_mul, abs_mul, abs_of_pos hf, abs_of_nonneg hg]
      have k1 := abs_cube_le (abs_cos_le_one (par f phi))
      calc (1 - f) * gam a f * |cos (par f phi) ^ 3| ≤ 1 * gam a f * |cos (par f phi)| := by
            gcongr; linarith
        _ = gam a f * |cos (par f phi)| := by ring
    · rw [abs_mul, abs_of_nonneg hg]
      have k1 := abs_cube_le (abs_sin_le_one (par f phi))
      gcongr
  · intro phi phi' c0 c0'
    have k1 := par_lipschitz h0 h1 c0 c0'
    have k2 := cube_lipschitz (abs_cos_le_one (par f phi)) (abs_cos_le_one (par f phi'))
    have k3 := cube_lipschitz (abs_sin_le_one (par f phi)) (abs_sin_le_one (par f phi'))
    show ‖(⟨p - (1 - f) * gam a f * cos (par f phi) ^ 3 -
        (p - (1 - f) * gam a f * cos (par f phi') ^ 3),
      z + gam a f * sin (par f phi) ^ 3 - (z + gam a f * sin (par f phi') ^ 3)⟩ : ℂ)‖ ≤ _
    have k4 : ‖(⟨p - (1 - f) * gam a f * cos (par f phi) ^ 3 -
        (p - (1 - f) * gam a f * cos (par f phi') ^ 3),
      z + gam a f * sin (par f phi) ^ 3 - (z + gam a f * sin (par f phi') ^ 3)⟩ : ℂ)‖ ≤
      ‖(⟨3 * gam a f * (cos (par f phi) - cos (par f phi')),
        3 * gam a f * (sin (par f phi) - sin (par f phi'))⟩ : ℂ)‖ := by
      refine norm_mono ?_ ?_
      · rw [show p - (1 - f) * gam a f * cos (par f phi) ^ 3 -
          (p - (1 - f) * gam a f * cos (par f phi') ^ 3) =
          -((1 - f) * gam a f * (cos (par f phi) ^ 3 - cos (par f phi') ^ 3)) by ring, abs_neg,
          abs_mul, abs_mul, abs_mul, abs_of_pos hf, abs_of_nonneg hg,
          abs_of_nonneg (show 0 ≤ 3 * gam a f by positivity)]
        calc (1 - f) * gam a f * |cos (par f phi) ^ 3 - cos (par f phi') ^ 3| ≤
              1 * gam a f * (3 * |cos (par f phi) - cos (par f phi')|) := by gcongr; linarith
          _ = 3 * gam a f * |cos (par f phi) - cos (par f phi')| := by ring
      · rw [show z + gam a f * sin (par f phi) ^ 3 - (z + gam a f * sin (par f phi') ^ 3) =
          gam a f * (sin (par f phi) ^ 3 - sin (par f phi') ^ 3) by ring,
          abs_mul, abs_mul, abs_of_nonneg hg, abs_of_nonneg (show 0 ≤ 3 * gam a f by positivity)]
        calc gam a f * |sin (par f phi) ^ 3 - sin (par f phi') ^ 3| ≤
              gam a f * (3 * |sin (par f phi) - sin (par f phi')|) := by gcongr
          _ = 3 * gam a f * |sin (par f phi) - sin (par f phi')| := by ring
    refine k4.trans ?_
    rw [norm_scale, abs_of_nonneg (show 0 ≤ 3 * gam a f by positivity)]
    calc 3 * gam a f * _ ≤ 3 * gam a f *
          (‖(⟨cos phi - cos phi', sin phi - sin phi'⟩ : ℂ)‖ / (1 - f)) := by gcongr
      _ = _ := by field_simp

theorem moritz_good {a f p z : ℝ} (ha : 0 < a) (h0 : 0 ≤ f) (h1 : f < 1) (hp : 0 < p)
    (hq : 2 * gam a f < ‖(⟨p, z⟩ : ℂ)‖) :
    (moritzMethod a f p z).Good p (‖(⟨p, z⟩ : ℂ)‖ - gam a f)
      (gam a f / ((1 - f) * (‖(⟨p, z⟩ : ℂ)‖ - gam a f))) := by
  have hg := gam_nonneg ha h0 h1
  have hf : 0 < 1 - f := by linarith
  have hr : 0 < ‖(⟨p, z⟩ : ℂ)‖ - gam a f := by linarith
  refine ⟨hr, ?_, ?_, ?_, ?_⟩
  · intro phi c0 c1
    obtain ⟨k1, k2⟩ := par_cos h0 h1 c0
    show 0 < p - (1 - f) * gam a f * cos (par f phi)
    have k5 : (1 - f) * gam a f * cos (par f phi) ≤ gam a f * (p / (‖(⟨p, z⟩ : ℂ)‖ - gam a f)) :=
      calc (1 - f) * gam a f * cos (par f phi) = gam a f * ((1 - f) * cos (par f phi)) := by ring
        _ ≤ gam a f * (p / (‖(⟨p, z⟩ : ℂ)‖ - gam a f)) := by gcongr; linarith
    have k6 : gam a f * (p / (‖(⟨p, z⟩ : ℂ)‖ - gam a f)) < p := by
      rw [mul_div_assoc', div_lt_iff₀ hr]
      nlinarith
    linarith
  · intro phi c0
    obtain ⟨k1, -⟩ := par_cos h0 h1 c0
    show p - (1 - f) * gam a f * cos (par f phi) ≤ p
    have : 0 ≤ (1 - f) * gam a f * cos (par f phi) := by positivity
    linarith
  · intro phi
    have := long_of (p := p) (z := z) (α := (1 - f) * gam a f * cos (par f phi)) (β := 0)
      (u := par f phi) ha h0 h1 (by
        rw [abs_mul, abs_mul, abs_of_pos hf, abs_of_nonneg hg]
        calc (1 - f) * gam a f * |cos (par f phi)| ≤ 1 * gam a f * |cos (par f phi)| := by
              gcongr; linarith
          _ = gam a f * |cos (par f phi)| := by ring) (by rw [abs_zero]; positivity)
    rw [add_zero] at this
    exact this
  · intro phi phi' c0 c0'
    have k1 := par_lipschitz h0 h1 c0 c0'
    show ‖(⟨p - (1 - f) * gam a f * cos (par f phi) -
        (p - (1 - f) * gam a f * cos (par f phi')), z - z⟩ : ℂ)‖ ≤ _
    have k4 : ‖(⟨p - (1 - f) * gam a f * cos (par f phi) -
        (p - (1 - f) * gam a f * cos (par f phi')), z - z⟩ : ℂ)‖ ≤
      ‖(⟨gam a f * (cos (par f phi) - cos (par f phi')),
        gam a f * (sin (par f phi) - sin (par f phi'))⟩ : ℂ)‖ := by
      refine norm_mono ?_ ?_
      · rw [show p - (1 - f) * gam a f * cos (par f phi) -
          (p - (1 - f) * gam a f * cos (par f phi')) =
          -((1 - f) * gam a f * (cos (par f phi) - cos (par f phi'))) by ring, abs_neg,
          abs_mul, abs_mul, abs_mul, abs_of_pos hf, abs_of_nonneg hg]
        calc (1 - f) * gam a f * |cos (par f phi) - cos (par f phi')| ≤
              1 * gam a f * |cos (par f phi) - cos (par f phi')| := by gcongr; linarith
          _ = gam a f * |cos (par f phi) - cos (par f phi')| := by ring
      · rw [sub_self, abs_zero]; positivity
    refine k4.trans ?_
    rw [norm_scale, abs_of_nonneg hg]
    calc gam a f * _ ≤ gam a f *
          (‖(⟨cos phi - cos phi', sin phi - sin phi'⟩ : ℂ)‖ / (1 - f)) := by gcongr
      _ = _ := by field_simp

/-! ## The passes of the code are passes of the methods -/

theorem par_eq {a f phi : ℝ} (ha : 0 < a) : arctan ((1 - f) * a * tan phi / a) = par f phi := by
  unfold par
  congr 1
  field_simp

theorem ePrimeSq_eq {a f : ℝ} (ha : 0 < a) (h0 : 0 ≤ f) (h1 : f < 1) :
    ePrimeSq a f * ((1 - f) * a) = gam a f ∧ eSq a f * a = (1 - f) * gam a f := by
  have hf : 1 - f ≠ 0 := by linarith
  constructor
  · unfold ePrimeSq gam
    rw [sq_sqrt (mul_nonneg (by nlinarith) (by positivity))]
    field_simp
  · rw [eSq_eq ha h0 h1]
    unfold gam
    field_simp

theorem bowringStep_eq {a f p z phi : ℝ} (ha : 0 < a) (h0 : 0 ≤ f) (h1 : f < 1) :
    bowringStep a f p z phi = (bowringMethod a f p z).next phi := by
  obtain ⟨e1, e2⟩ := ePrimeSq_eq ha h0 h1
  unfold bowringStep bowringLatitude Method.next bowringMethod
  rw [par_eq ha, e1, e2]

theorem par_N {a f phi : ℝ} (ha : 0 < a) (h0 : 0 ≤ f) (h1 : f < 1) (hc : 0 < cos phi) :
    primeVertical a f phi * cos phi = a * cos (par f phi) ∧
      primeVertical a f phi * (1 - f) * sin phi = a * sin (par f phi) := by
  obtain ⟨e1, e2⟩ := cos_sin_reduced ha h0 h1 hc
  have e : arctan ((1 - f) * a / a * tan phi) = par f phi := by
    unfold par
    congr 1
    field_simp
  have hf : 1 - f ≠ 0 := by linarith
  rw [e] at e1 e2
  refine ⟨e1, ?_⟩
  rw [ecc1_sq ha h0 (by linarith), show 1 - (2 * f - f ^ 2) = (1 - f) * (1 - f) by ring] at e2
  refine mul_left_cancel₀ hf ?_
  linear_combination e2

theorem moritzStep_eq {a f p z phi : ℝ} (ha : 0 < a) (h0 : 0 ≤ f) (h1 : f < 1) (hp : 0 < p)
    (hc : 0 < cos phi) : (moritzStep a f p z phi).1 = (moritzMethod a f p z).next phi := by
  obtain ⟨e1, -⟩ := par_N ha h0 h1 hc
  have hf : 1 - f ≠ 0 := by linarith
  unfold moritzStep Method.next moritzMethod
  dsimp only
  rw [ecc1_sq ha h0 (by linarith)]
  have hN : a / sqrt (1 - (2 * f - f ^ 2) * sin phi ^ 2) = primeVertical a f phi := by
    unfold primeVertical; rw [ecc1_sq ha h0 (by linarith)]
  rw [hN]
  congr 2
  unfold gam
  rw [add_sub_cancel, mul_sub, mul_one]
  congr 1
  have : p * ((2 * f - f ^ 2) * primeVertical a f phi / (p / cos phi)) =
      (2 * f - f ^ 2) * (primeVertical a f phi * cos phi) := by field_simp
  rw [this, e1]
  field_simp

/-- The geodetic latitude and height of a point, as distances from the axis and the equatorial
plane. -/
structure Geodetic (a f p z phi h : ℝ) : Prop where
  lo : -(π / 2) < phi
  hi : phi < π / 2
  axis : (primeVertical a f phi + h) * cos phi = p
  plane : (primeVertical a f phi * (1 - (2 * f - f ^ 2)) + h) * sin phi = z
  above : 0 < primeVertical a f phi * (1 - (2 * f - f ^ 2)) + h

theorem Geodetic.cos_pos {a f p z phi h : ℝ} (g : Geodetic a f p z phi h) : 0 < cos phi :=
  cos_pos_of_mem_Ioo ⟨g.lo, g.hi⟩

theorem primeVertical_pos {a f : ℝ} (ha : 0 < a) (h0 : 0 ≤ f) (h1 : f < 1) (phi : ℝ) :
    0 < primeVertical a f phi := by
  unfold primeVertical
  rw [ecc1_sq ha h0 (by linarith)]
  exact div_pos ha (sqrt_pos.2 (radicand_pos h1 h0 phi))

/-- The vectors of both methods at the true latitude point along the true normal. -/
theorem bowring_at {a f p z phi h : ℝ} (ha : 0 < a) (h0 : 0 ≤ f) (h1 : f < 1)
    (g : Geodetic a f p z phi h) : ∃ F, 0 < F ∧ (bowringMethod a f p z).x phi = F * cos phi ∧
      (bowringMethod a f p z).y phi = F * sin phi := by
  obtain ⟨e1, e2⟩ := par_N ha h0 h1 g.cos_pos
  have hf : 1 - f ≠ 0 := by linarith
  have hN := primeVertical_pos ha h0 h1 phi
  have hsc := sin_sq_add_cos_sq (par f phi)
  have hc1 := cos_sq_le_one (par f phi)
  refine ⟨primeVertical a f phi + h -
    (2 * f - f ^ 2) * primeVertical a f phi * cos (par f phi) ^ 2, ?_, ?_, ?_⟩
  · have := g.above
    have he : 0 ≤ (2 * f - f ^ 2) * primeVertical a f phi := mul_nonneg (by nlinarith) hN.le
    nlinarith
  · show p - (1 - f) * gam a f * cos (par f phi) ^ 3 = _
    have : (1 - f) * gam a f = (2 * f - f ^ 2) * a := by unfold gam; field_simp
    rw [this, ← g.axis]
    linear_combination (2 * f - f ^ 2) * cos (par f phi) ^ 2 * e1
  · show z + gam a f * sin (par f phi) ^ 3 = _
    have : gam a f * sin (par f phi) ^ 3 =
        (2 * f - f ^ 2) / (1 - f) * sin (par f phi) ^ 2 * (a * sin (par f phi)) := by
      unfold gam; ring
    rw [this, ← e2, ← g.plane]
    have h3 : (2 * f - f ^ 2) / (1 - f) * sin (par f phi) ^ 2 *
        (primeVertical a f phi * (1 - f) * sin phi) =
        (2 * f - f ^ 2) * sin (par f phi) ^ 2 * primeVertical a f phi * sin phi := by field_simp
    rw [h3]
    linear_combination (2 * f - f ^ 2) * primeVertical a f phi * sin phi * hsc

theorem moritz_at {a f p z phi h : ℝ} (ha : 0 < a) (h0 : 0 ≤ f) (h1 : f < 1)
    (g : Geodetic a f p z phi h) : ∃ F, 0 < F ∧ (moritzMethod a f p z).x phi = F * cos phi ∧
      (moritzMethod a f p z).y phi = F * sin phi := by
  obtain ⟨e1, e2⟩ := par_N ha h0 h1 g.cos_pos
  have hf : 1 - f ≠ 0 := by linarith
  refine ⟨primeVertical a f phi * (1 - (2 * f - f ^ 2)) + h, g.above, ?_, g.plane.symm⟩
  show p - (1 - f) * gam a f * cos (par f phi) = _
  have : (1 - f) * gam a f = (2 * f - f ^ 2) * a := by unfold gam; field_simp
  rw [this, ← g.axis]
  linear_combination (2 * f - f ^ 2) * e1

/-- Hence the true latitude is left alone, and it satisfies the bound kept by the passes. -/
theorem Method.fixed {phi F : ℝ} (h : M.Good p r k) (lo : -(π / 2) < phi) (hi : phi < π / 2)
    (hF : 0 < F) (hx : M.x phi = F * cos phi) (hy : M.y phi = F * sin phi) :
    M.next phi = phi ∧ cos phi ≤ p / r := by
  have hc : 0 < cos phi := cos_pos_of_mem_Ioo ⟨lo, hi⟩
  constructor
  · unfold Method.next
    rw [hx, hy, mul_div_mul_left _ _ hF.ne', ← tan_eq_sin_div_cos, arctan_tan lo hi]
  · have hl := h.long phi
    have hp := h.xle phi hc
    rw [hx, hy, norm_scale, abs_of_pos hF] at hl
    have hd := norm_dir phi
    unfold dir at hd
    rw [hd, mul_one] at hl
    rw [hx] at hp
    have hr := h.rpos
    rw [le_div_iff₀ hr]
    nlinarith

/-! ## How far the result is from the point -/

/-- The distance between two points. -/
noncomputable def P3.dist (u v : P3) : ℝ := sqrt ((u.x - v.x) ^ 2 + (u.y - v.y) ^ 2 + (u.z - v.z) ^ 2)

/-- The residual along the meridian. -/
noncomputable def slip (a f p z phi : ℝ) : ℝ :=
  p * sin phi - z * cos phi - (2 * f - f ^ 2) * primeVertical a f phi * sin phi * cos phi

/-- With the height of the code, the coordinates found differ from the point by the residual,
along the meridian. -/
theorem bowring_dist {a f phi : ℝ} (q : P3) (ha : 0 < a) (h0 : 0 ≤ f) (h1 : f < 1) :
    (toCartesian (geodeticLon q) (phi / (π / 180))
      (bowringHeight a f (axisDistance q) q.z phi) a f).dist q =
      |slip a f (axisDistance q) q.z phi| := by
  have hdeg : phi / (π / 180) * (π / 180) = phi := by
    have := pi_ne_zero
    field_simp
  obtain ⟨l1, l2⟩ := lon_spec q
  have hsc := sin_sq_add_cos_sq phi
  have hlc := sin_sq_add_cos_sq (geodeticLon q * (π / 180))
  have hr := radicand_pos h1 h0 phi
  have hN : a / sqrt (1 - (2 * f - f ^ 2) * sin phi ^ 2) = primeVertical a f phi := by
    unfold primeVertical; rw [ecc1_sq ha h0 (by linarith)]
  have hNa : a ^ 2 / primeVertical a f phi =
      primeVertical a f phi * (1 - (2 * f - f ^ 2) * sin phi ^ 2) := by
    have hs := sq_sqrt hr.le
    have hs0 := sqrt_pos.2 hr
    rw [← hN]
    set ρ := sqrt (1 - (2 * f - f ^ 2) * sin phi ^ 2)
    rw [← hs]
    field_simp
  unfold toCartesian bowringHeight P3.dist
  dsimp only
  rw [cos_wrapped, sin_wrapped, hdeg, ecc1_sq ha h0 (by linarith), eSq_eq ha h0 h1, hN, hNa]
  set N := primeVertical a f phi
  set w := axisDistance q
  set h := w * cos phi + q.z * sin phi - N * (1 - (2 * f - f ^ 2) * sin phi ^ 2) with hh
  have k1 : (N + h) * cos phi = w - slip a f w q.z phi * sin phi := by
    unfold slip
    rw [hh]
    linear_combination w * hsc
  have k2 : (N * (1 - (2 * f - f ^ 2)) + h) * sin phi = q.z + slip a f w q.z phi * cos phi := by
    unfold slip
    rw [hh]
    linear_combination (q.z + N * (2 * f - f ^ 2) * sin phi) * hsc
  rw [k1, k2, ← sqrt_sq_eq_abs, ← l1, ← l2]
  congr 1
  linear_combination (slip a f w q.z phi ^ 2 * sin phi ^ 2) * hlc + slip a f w q.z phi ^ 2 * hsc

theorem slip_true {a f p z phi h : ℝ} (g : Geodetic a f p z phi h) : slip a f p z phi = 0 := by
  unfold slip
  rw [← g.axis, ← g.plane]
  ring

theorem slip_lipschitz {a f p z phi star h : ℝ} (ha : 0 < a) (h0 : 0 ≤ f) (h1 : f < 1)
    (hc : 0 < cos phi) (g : Geodetic a f p z star h) :
    |slip a f p z phi| ≤ (‖(⟨p, z⟩ : ℂ)‖ + 2 * gam a f) * chord phi star := by
  have e : ∀ t, 0 < cos t → slip a f p z t =
      p * sin t - z * cos t - (1 - f) * gam a f * (cos (par f t) * sin t) := by
    intro t ht
    obtain ⟨e1, -⟩ := par_N ha h0 h1 ht
    have hf : 1 - f ≠ 0 := by linarith
    have : (1 - f) * gam a f = (2 * f - f ^ 2) * a := by unfold gam; field_simp
    unfold slip
    rw [this]
    linear_combination -(2 * f - f ^ 2) * sin t * e1
  have hg := gam_nonneg ha h0 h1
  have hf : 0 < 1 - f := by linarith
  have hp := par_lipschitz h0 h1 hc g.cos_pos
  have h3 : ∀ x y : ℝ, |x| ≤ ‖(⟨x, y⟩ : ℂ)‖ ∧ |y| ≤ ‖(⟨x, y⟩ : ℂ)‖ := fun x y =>
    ⟨Complex.abs_re_le_norm ⟨x, y⟩, Complex.abs_im_le_norm ⟨x, y⟩⟩
  have hd : slip a f p z phi = (p * (sin phi - sin star) - z * (cos phi - cos star)) -
      (1 - f) * gam a f * (cos (par f phi) * (sin phi - sin star) +
        (cos (par f phi) - cos (par f star)) * sin star) := by
    have := slip_true g
    rw [e star g.cos_pos] at this
    rw [e phi hc]
    linear_combination this
  have t1 : |p * (sin phi - sin star) - z * (cos phi - cos star)| ≤
      ‖(⟨p, z⟩ : ℂ)‖ * chord phi star := by
    refine abs_le_of_sq_le_sq ?_ (mul_nonneg (norm_nonneg _) (chord_nonneg _ _))
    unfold chord
    rw [mul_pow, sq_norm_mk, sq_norm_mk]
    nlinarith [sq_nonneg (p * (cos phi - cos star) + z * (sin phi - sin star))]
  have t2 : |cos (par f phi) * (sin phi - sin star)| ≤ chord phi star := by
    rw [abs_mul]
    have := (h3 (cos phi - cos star) (sin phi - sin star)).2
    calc |cos (par f phi)| * |sin phi - sin star| ≤ 1 * chord phi star := by
          gcongr
          · exact abs_cos_le_one _
          · exact this
      _ = _ := one_mul _
  have t3 : (1 - f) * |(cos (par f phi) - cos (par f star)) * sin star| ≤ chord phi star := by
    rw [abs_mul]
    have h4 := (h3 (cos (par f phi) - cos (par f star)) (sin (par f phi) - sin (par f star))).1
    have h5 := h4.trans hp
    rw [le_div_iff₀ hf] at h5
    calc (1 - f) * (|cos (par f phi) - cos (par f star)| * |sin star|) ≤
          (1 - f) * (|cos (par f phi) - cos (par f star)| * 1) := by
            gcongr; exact abs_sin_le_one _
      _ = |cos (par f phi) - cos (par f star)| * (1 - f) := by ring
      _ ≤ _ := h5
  rw [hd]
  refine (abs_sub _ _).trans ?_
  rw [abs_mul, abs_mul, abs_of_pos hf, abs_of_nonneg hg]
  have t4 := abs_add_le (cos (par f phi) * (sin phi - sin star))
    ((cos (par f phi) - cos (par f star)) * sin star)
  have hch := chord_nonneg phi star
  have t5 : (1 - f) * gam a f * |cos (par f phi) * (sin phi - sin star) +
      (cos (par f phi) - cos (par f star)) * sin star| ≤ gam a f * (2 * chord phi star) := by
    have : (1 - f) * |cos (par f phi) * (sin phi - sin star) +
      (cos (par f phi) - cos (par f star)) * sin star| ≤ 2 * chord phi star := by
      nlinarith
    calc _ = gam a f * ((1 - f) * |cos (par f phi) * (sin phi - sin star) +
        (cos (par f phi) - cos (par f star)) * sin star|) := by ring
      _ ≤ _ := by gcongr
  linarith

/-! ## The loops -/

theorem bowringLoop_spec (a f eps : ℝ) (fuel : ℕ) (L : List Bowring) :
    ∃ n ≤ fuel, bowringLoop a f eps fuel L = L.map (bowringPass a f eps)^[n] ∧
      (n = fuel ∨ ∀ s ∈ L, ((bowringPass a f eps)^[n] s).moving = false) := by
  induction fuel generalizing L with
  | zero => exact ⟨0, le_rfl, by simp [bowringLoop], Or.inl rfl⟩
  | succ fuel ih =>
    unfold bowringLoop
    by_cases h : L.any (·.moving)
    · rw [if_pos h]
      obtain ⟨n, hn, e1, e2⟩ := ih (L.map (bowringPass a f eps))
      refine ⟨n + 1, by omega, ?_, ?_⟩
      · rw [e1, List.map_map]; rfl
      · rcases e2 with e2 | e2
        · left; omega
        · right
          intro s hs
          exact e2 _ (List.mem_map_of_mem hs)
    · rw [if_neg h]
      refine ⟨0, Nat.zero_le _, by simp, Or.inr ?_⟩
      intro s hs
      rw [Bool.not_eq_true, List.any_eq_false] at h
      simpa using h s hs

theorem moritzLoop_spec (a f eps : ℝ) (fuel : ℕ) (L : List Moritz) :
    ∃ n ≤ fuel, moritzLoop a f eps fuel L = L.map (moritzPass a f eps)^[n] ∧
      (n = fuel ∨ ∀ s ∈ L, ((moritzPass a f eps)^[n] s).moving = false) := by
  induction fuel generalizing L with
  | zero => exact ⟨0, le_rfl, by simp [moritzLoop], Or.inl rfl⟩
  | succ fuel ih =>
    unfold moritzLoop
    by_cases h : L.any (·.moving)
    · rw [if_pos h]
      obtain ⟨n, hn, e1, e2⟩ := ih (L.map (moritzPass a f eps))
      refine ⟨n + 1, by omega, ?_, ?_⟩
      · rw [e1, List.map_map]; rfl
      · rcases e2 with e2 | e2
        · left; omega
        · right
          intro s hs
          exact e2 _ (List.mem_map_of_mem hs)
    · rw [if_neg h]
      refine ⟨0, Nat.zero_le _, by simp, Or.inr ?_⟩
      intro s hs
      rw [Bool.not_eq_true, List.any_eq_false] at h
      simpa using h s hs

theorem bowringPass_iter (a f eps : ℝ) (s : Bowring) (n : ℕ) :
    ((bowringPass a f eps)^[n] s).q = s.q ∧
      ((bowringPass a f eps)^[n] s).phi = (bowringStep a f (axisDistance s.q) s.q.z)^[n] s.phi := by
  induction n with
  | zero => exact ⟨rfl, rfl⟩
  | succ n ih =>
    rw [Function.iterate_succ_apply', Function.iterate_succ_apply']
    refine ⟨ih.1, ?_⟩
    show bowringStep a f _ _ _ = _
    rw [ih.1, ih.2]

theorem moritzPass_iter (a f eps : ℝ) (s : Moritz) (n : ℕ) :
    ((moritzPass a f eps)^[n] s).q = s.q ∧ ((moritzPass a f eps)^[n] s).phi =
      (fun phi => (moritzStep a f (axisDistance s.q) s.q.z phi).1)^[n] s.phi := by
  induction n with
  | zero => exact ⟨rfl, rfl⟩
  | succ n ih =>
    rw [Function.iterate_succ_apply', Function.iterate_succ_apply']
    refine ⟨ih.1, ?_⟩
    show (moritzStep a f _ _ _).1 = _
    rw [ih.1, ih.2]

/-! ## The latitude the methods start from -/

/-- The latitude a point of this direction would have on the ellipsoid. -/
noncomputable def start (f p z : ℝ) : ℝ := arctan (z / (p * (1 - f) ^ 2))

theorem start_spec {f p z r : ℝ} (h0 : 0 ≤ f) (h1 : f < 1) (hp : 0 < p) (hr : 0 < r)
    (hrq : r ≤ ‖(⟨p, z⟩ : ℂ)‖) : 0 < cos (start f p z) ∧ cos (start f p z) ≤ p / r := by
  refine ⟨cos_arctan_pos _, ?_⟩
  have hf : 0 < 1 - f := by linarith
  have e : z / (p * (1 - f) ^ 2) = (z / (1 - f) ^ 2) / p := by field_simp
  have hd := (dir_arctan (y := z / (1 - f) ^ 2) hp).1
  unfold start
  rw [e, hd]
  refine div_le_div_of_nonneg_left hp.le hr (hrq.trans ?_)
  refine norm_mono le_rfl ?_
  rw [abs_div, abs_of_pos (by positivity : (0 : ℝ) < (1 - f) ^ 2), le_div_iff₀ (by positivity)]
  have : (1 - f) ^ 2 ≤ 1 := by nlinarith
  nlinarith [abs_nonneg z]

theorem bowring_start {a f p z : ℝ} (ha : 0 < a) (h0 : 0 ≤ f) (h1 : f < 1) (hp : 0 < p) :
    bowringLatitude a f p z (arctan (a * z / ((1 - f) * a * p))) =
      (bowringMethod a f p z).next (start f p z) := by
  rw [← bowringStep_eq ha h0 h1]
  unfold bowringStep
  congr 2
  unfold start
  rw [tan_arctan]
  have hf : 1 - f ≠ 0 := by linarith
  field_simp

theorem bowring_iterates {a f eps : ℝ} {q : P3} (ha : 0 < a) (h0 : 0 ≤ f) (h1 : f < 1)
    (hp : 0 < axisDistance q) (n : ℕ) : ((bowringPass a f eps)^[n] (bowringInit a f q)).phi =
      (bowringMethod a f (axisDistance q) q.z).next^[n + 1] (start f (axisDistance q) q.z) := by
  induction n with
  | zero => exact bowring_start ha h0 h1 hp
  | succ n ih =>
    rw [Function.iterate_succ_apply', Function.iterate_succ_apply' _ (n + 1), ← ih,
      ← bowringStep_eq ha h0 h1]
    have hq := (bowringPass_iter a f eps (bowringInit a f q) n).1
    unfold bowringPass at hq ⊢
    dsimp only at hq ⊢
    rw [hq]
    rfl

/-! ## C33 for the two iterative methods -/

/-- Distance of a point from the centre. -/
noncomputable def radius (q : P3) : ℝ := sqrt (q.x ^ 2 + q.y ^ 2 + q.z ^ 2)

theorem radius_eq (q : P3) : ‖(⟨axisDistance q, q.z⟩ : ℂ)‖ = radius q := by
  rw [norm_mk]
  unfold radius axisDistance
  rw [sq_sqrt (by positivity)]

theorem axisDistance_pos {q : P3} (h : q.x ≠ 0 ∨ q.y ≠ 0) : 0 < axisDistance q := by
  unfold axisDistance
  refine sqrt_pos.2 ?_
  rcases h with h | h <;> positivity

/-- The geodetic coordinates exist. -/
theorem exists_geodetic {a f p z : ℝ} (ha : 0 < a) (h0 : 0 ≤ f) (h1 : f ≤ 1 / 100) (hp : 0 < p)
    (hq : a / 2 ≤ ‖(⟨p, z⟩ : ℂ)‖) : ∃ phi h, Geodetic a f p z phi h := by
  have hreg : (2 * f - f ^ 2) ^ 2 < (p / a) ^ 2 + ((1 - f) * z / a) ^ 2 := by
    have hs : (a / 2) ^ 2 ≤ p ^ 2 + z ^ 2 := by
      rw [← sq_norm_mk]; gcongr
    have h3 : (9801 / 10000 : ℝ) ≤ (1 - f) ^ 2 := by nlinarith
    have h4 : (2 * f - f ^ 2) ^ 2 ≤ (2 / 100) ^ 2 := by
      have : 0 ≤ 2 * f - f ^ 2 := by nlinarith
      gcongr
      nlinarith
    have e : (p / a) ^ 2 + ((1 - f) * z / a) ^ 2 = (p ^ 2 + (1 - f) ^ 2 * z ^ 2) / a ^ 2 := by
      field_simp
    have h5 : 9801 / 10000 * z ^ 2 ≤ (1 - f) ^ 2 * z ^ 2 := by gcongr
    rw [e]
    refine h4.trans_lt ?_
    rw [lt_div_iff₀ (by positivity)]
    nlinarith [sq_pos_of_pos ha, sq_nonneg p]
  obtain ⟨r1, r2, r3, r4⟩ := zhu_point ha h0 (by linarith) hp hreg
  rw [ecc1_sq ha h0 (by linarith)] at r3 r4
  obtain ⟨b1, b2⟩ := abs_lt.1 r1
  have := pi_pos
  exact ⟨_, _, by nlinarith, by nlinarith, r2, r3, r4⟩

theorem gam_small {a f q : ℝ} (ha : 0 < a) (h0 : 0 ≤ f) (h1 : f ≤ 1 / 100) (hq : a / 2 ≤ q) :
    gam a f ≤ 81 / 20 * f * q ∧ 2 * gam a f < q ∧ gam a f ≤ 81 / 2000 * q := by
  have hf : 0 < 1 - f := by linarith
  have h2 : gam a f ≤ 81 / 20 * f * q := by
    unfold gam
    rw [div_le_iff₀ hf]
    have : f * a / 2 ≤ f * q := by nlinarith
    have h4 : 0 ≤ f * q * (1 / 100 - f) := by
      have := mul_nonneg h0 (by linarith : 0 ≤ q)
      nlinarith
    nlinarith [mul_nonneg (sq_nonneg f) ha.le]
  have h3 : f * q ≤ 1 / 100 * q := by nlinarith
  refine ⟨h2, by linarith, by linarith⟩

/-- C33: with Bowring's method every point away from the axis and at least half the semi-major
axis away from the centre gets coordinates whose position is the point, up to a relative error
that shrinks by `13 f` with every pass (0.044 for the Earth), or up to `15 f eps` when the loop
stops before the maximum number of iterations. -/
theorem C33_bowring (l : List P3) (a f eps : ℝ) (iterations : ℕ) (method : String)
    (hm : method.toLower = "bowring") (ha : 0 < a) (h0 : 0 ≤ f) (h1 : f ≤ 1 / 100) (he : 0 ≤ eps)
    (hl : ∀ q ∈ l, (q.x ≠ 0 ∨ q.y ≠ 0) ∧ a / 2 ≤ radius q) :
    ∃ r, toGeodetic l a f method eps iterations = .ok r ∧ r.length = l.length ∧
      ∀ (i : ℕ) (q : P3), l[i]? = some q → ∃ lon lat h, r[i]? = some (lon, lat, h) ∧
        -180 < lon ∧ lon ≤ 180 ∧ |lat| < 90 ∧
        (toCartesian lon lat h a f).dist q ≤
          11 / 10 * radius q * max (2 * (13 * f) ^ (iterations + 2)) (15 * f * eps) := by
  have n1 : ¬ "bowring" = "moritz" := by decide
  have hf1 : f < 1 := by linarith
  obtain ⟨n, hn, e1, e2⟩ := bowringLoop_spec a f eps (iterations + 1) (l.map (bowringInit a f))
  refine ⟨bowring l a f eps iterations, ?_, ?_, ?_⟩
  · unfold toGeodetic; rw [hm, if_neg n1, if_pos rfl]
  · unfold bowring; rw [e1]; simp
  intro i q hiq
  have hmem := List.mem_of_getElem? hiq
  obtain ⟨hax, hrad⟩ := hl q hmem
  have hp := axisDistance_pos hax
  obtain ⟨j1, j2⟩ := bowringPass_iter a f eps (bowringInit a f q) n
  set s := (bowringPass a f eps)^[n] (bowringInit a f q) with hs
  have hsq : s.q = q := j1
  refine ⟨geodeticLon q, s.phi / (π / 180),
    bowringHeight a f (axisDistance q) q.z s.phi, ?_, (lon_range q).1, (lon_range q).2, ?_⟩
  · unfold bowring
    rw [e1, List.map_map, List.map_map, List.getElem?_map, hiq]
    simp only [Option.map_some, Function.comp_apply]
    rw [← hs, hsq]
  rw [bowring_dist q ha h0 hf1]
  set M := bowringMethod a f (axisDistance q) q.z with hM
  rw [← radius_eq] at hrad ⊢
  set Q := ‖(⟨axisDistance q, q.z⟩ : ℂ)‖ with hQ
  obtain ⟨g1, g2, g3⟩ := gam_small ha h0 h1 hrad
  have hQ0 : 0 < Q := by linarith
  have hg := gam_nonneg ha h0 hf1
  have hgood := bowring_good ha h0 hf1 hp g2
  rw [← hQ, ← hM] at hgood
  set k := 3 * gam a f / ((1 - f) * (Q - gam a f)) with hk
  have hk0 : 0 ≤ k := div_nonneg (by linarith) (mul_nonneg (by linarith) (by linarith))
  have hk13 : k ≤ 13 * f := by
    rw [hk, div_le_iff₀ (mul_pos (by linarith) (by linarith))]
    have : 47 / 50 * Q ≤ (1 - f) * (Q - gam a f) := by
      have : 1919 / 2000 * Q ≤ Q - gam a f := by linarith
      nlinarith
    have h5 : 13 * f * (47 / 50 * Q) ≤ 13 * f * ((1 - f) * (Q - gam a f)) := by gcongr
    nlinarith [mul_nonneg h0 hQ0.le]
  obtain ⟨star, h, geo⟩ := exists_geodetic ha h0 h1 hp hrad
  obtain ⟨F, hF, fx, fy⟩ := bowring_at ha h0 hf1 geo
  obtain ⟨hfix, hreg⟩ := M.fixed hgood geo.lo geo.hi hF fx fy
  obtain ⟨st0, st1⟩ := start_spec (z := q.z) h0 hf1 hp hgood.rpos (by rw [← hQ]; linarith)
  have hphi : s.phi = M.next^[n + 1] (start f (axisDistance q) q.z) := by
    rw [hs, bowring_iterates ha h0 hf1 hp]
  obtain ⟨it0, it1, it2⟩ := M.iterate hgood hk0 st0 st1 geo.cos_pos hreg hfix (n + 1)
  have hch : chord s.phi star ≤ max (2 * (13 * f) ^ (iterations + 2)) (15 * f * eps) := by
    rcases e2 with e2 | e2
    · refine le_max_of_le_left ?_
      rw [hphi]
      refine it2.trans ?_
      rw [e2, mul_comm]
      have h6 : k ^ (iterations + 1 + 1) ≤ (13 * f) ^ (iterations + 2) :=
        pow_le_pow_left₀ hk0 hk13 _
      exact mul_le_mul (chord_le_two _ _) h6 (by positivity) (by norm_num)
    · refine le_max_of_le_right ?_
      have e3 := e2 _ (List.mem_map_of_mem hmem)
      rw [← hs] at e3
      cases n with
      | zero => exact absurd (show true = false from e3) (by decide)
      | succ n =>
        obtain ⟨it0', it1', -⟩ := M.iterate hgood hk0 st0 st1 geo.cos_pos hreg hfix (n + 1)
        have hprev : ((bowringPass a f eps)^[n] (bowringInit a f q)).phi =
            M.next^[n + 1] (start f (axisDistance q) q.z) := by
          rw [bowring_iterates ha h0 hf1 hp]
        have hstop : |s.phi - M.next^[n + 1] (start f (axisDistance q) q.z)| ≤ eps := by
          rw [← hprev]
          rw [hs, Function.iterate_succ_apply'] at e3 ⊢
          have : decide (eps < |(bowringPass a f eps
            ((bowringPass a f eps)^[n] (bowringInit a f q))).phi -
              ((bowringPass a f eps)^[n] (bowringInit a f q)).phi|) = false := e3
          exact not_lt.1 (of_decide_eq_false this)
        rw [hphi, Function.iterate_succ_apply'] at hstop ⊢
        have hk1 : k < 1 := by linarith
        refine (M.stopped hgood hk1 hk0 it0' it1' geo.cos_pos hreg hfix hstop).trans ?_
        refine mul_le_mul_of_nonneg_right ?_ he
        rw [div_le_iff₀ (by linarith)]
        nlinarith
  have hc : 0 < cos s.phi := by rw [hphi]; exact it0
  have hin : -(π / 2) < s.phi ∧ s.phi < π / 2 := by
    rw [hphi, Function.iterate_succ_apply']
    exact ⟨neg_pi_div_two_lt_arctan _, arctan_lt_pi_div_two _⟩
  refine ⟨?_, (slip_lipschitz ha h0 hf1 hc geo).trans ?_⟩
  · have := pi_pos
    rw [abs_lt, lt_div_iff₀ (by positivity), div_lt_iff₀ (by positivity)]
    constructor <;> linarith [hin.1, hin.2]
  · rw [← hQ]
    refine mul_le_mul ?_ hch (chord_nonneg _ _) (by positivity)
    linarith

example : ∃ r, toGeodetic [⟨6378137, 0, 1000⟩, ⟨100, -3, -6356000⟩] 6378137 (1 / 298) "Bowring"
    (1 / 10 ^ 10) 10 = .ok r ∧ r.length = 2 := by
  obtain ⟨r, h1, h2, -⟩ := C33_bowring [⟨6378137, 0, 1000⟩, ⟨100, -3, -6356000⟩] 6378137 (1 / 298)
    (1 / 10 ^ 10) 10 "Bowring" (by decide +kernel) (by norm_num) (by norm_num) (by norm_num)
    (by norm_num) (by
      intro q hq
      simp only [List.mem_cons, List.not_mem_nil, or_false] at hq
      rcases hq with rfl | rfl
      · refine ⟨Or.inl (by norm_num), ?_⟩
        unfold radius; refine le_sqrt_of_sq_le ?_; norm_num
      · refine ⟨Or.inl (by norm_num), ?_⟩
        unfold radius; refine le_sqrt_of_sq_le ?_; norm_num)
  exact ⟨r, h1, h2⟩

end Verif.Spatial
