import Verif.Model.SolidEarth
import Verif.Spec.Displacement
import Verif.Props.Rotations
import Mathlib.Tactic.Linarith
import Mathlib.Tactic.LinearCombination
import Mathlib.Tactic.FieldSimp
import Mathlib.Tactic.Ring

/-!
# Solid Earth tides: C39 and C40
-/

namespace Verif.SolidEarth

open Verif Real Spec

/-! ### Spherical coordinates -/

theorem vec_ext {f g : Vec} (h0 : f 0 = g 0) (h1 : f 1 = g 1) (h2 : f 2 = g 2) : f = g := by
  funext i
  fin_cases i
  exacts [h0, h1, h2]

@[simp] theorem point_0 (r p l : ℝ) : point r p l 0 = r * (cos p * cos l) := by simp [point, up]
@[simp] theorem point_1 (r p l : ℝ) : point r p l 1 = r * (cos p * sin l) := by simp [point, up]
@[simp] theorem point_2 (r p l : ℝ) : point r p l 2 = r * sin p := by simp [point, up]

theorem radius_point {r : ℝ} (hr : 0 < r) (p l : ℝ) : radius (point r p l) = r := by
  unfold radius
  rw [sqrt_eq_iff_mul_self_eq (by positivity) hr.le, point_0, point_1, point_2]
  have h1 := sin_sq_add_cos_sq p
  have h2 := sin_sq_add_cos_sq l
  linear_combination r ^ 2 * h1 + r ^ 2 * cos p ^ 2 * h2

theorem sinphi_point {r : ℝ} (hr : 0 < r) (p l : ℝ) : sinphi (point r p l) = sin p := by
  unfold sinphi
  rw [radius_point hr, point_2, mul_div_cancel_left₀ _ hr.ne']

theorem cosphi_point {r p : ℝ} (hr : 0 < r) (hp : 0 < cos p) (l : ℝ) :
    cosphi (point r p l) = cos p := by
  unfold cosphi
  rw [radius_point hr, div_eq_iff hr.ne', sqrt_eq_iff_mul_self_eq (by positivity) (by positivity),
    point_0, point_1]
  have h2 := sin_sq_add_cos_sq l
  linear_combination r ^ 2 * cos p ^ 2 * h2

theorem sinla_point {r p : ℝ} (hr : 0 < r) (hp : 0 < cos p) (l : ℝ) :
    sinla (point r p l) = sin l := by
  unfold sinla
  rw [cosphi_point hr hp, radius_point hr, point_1]
  field_simp

theorem cosla_point {r p : ℝ} (hr : 0 < r) (hp : 0 < cos p) (l : ℝ) :
    cosla (point r p l) = cos l := by
  unfold cosla
  rw [cosphi_point hr hp, radius_point hr, point_0]
  field_simp

theorem scalar_point {r R : ℝ} (hr : 0 < r) (hR : 0 < R) (p l P L : ℝ) :
    scalar (point r p l) (point R P L) = dotProduct (up p l) (up P L) := by
  unfold scalar
  rw [radius_point hr, radius_point hR]
  simp only [point_0, point_1, point_2, up, dotProduct, Fin.sum_univ_three, Matrix.cons_val_zero,
    Matrix.cons_val_one, Matrix.cons_val]
  field_simp

/-- Every position off the axis has spherical coordinates. -/
theorem exists_point (X : Vec) (h : ¬ (X 0 = 0 ∧ X 1 = 0)) :
    ∃ r p l, 0 < r ∧ 0 < cos p ∧ X = point r p l := by
  have hrho : 0 < X 0 ^ 2 + X 1 ^ 2 := by
    rcases not_and_or.1 h with h | h
    · have := sq_pos_of_ne_zero h; positivity
    · have := sq_pos_of_ne_zero h; positivity
  set rho := sqrt (X 0 ^ 2 + X 1 ^ 2) with hrho'
  have hp : 0 < rho := sqrt_pos.2 hrho
  have hsq : rho ^ 2 = X 0 ^ 2 + X 1 ^ 2 := sq_sqrt hrho.le
  have hc : (X 0 : ℝ) = rho * cos (Complex.arg ⟨X 0, X 1⟩) ∧
      X 1 = rho * sin (Complex.arg ⟨X 0, X 1⟩) := by
    have hn : ‖(⟨X 0, X 1⟩ : ℂ)‖ = rho := by
      rw [Complex.norm_def, Complex.normSq_mk, hrho']; congr 1; ring
    have h0 : (⟨X 0, X 1⟩ : ℂ) ≠ 0 := by
      intro e; rw [e, norm_zero] at hn; exact hp.ne hn
    rw [Complex.cos_arg h0, Complex.sin_arg, hn]
    constructor <;> field_simp
  refine ⟨sqrt (rho ^ 2 + X 2 ^ 2), arctan (X 2 / rho), Complex.arg ⟨X 0, X 1⟩, by positivity,
    cos_arctan_pos _, ?_⟩
  have hs : sqrt (1 + (X 2 / rho) ^ 2) = sqrt (rho ^ 2 + X 2 ^ 2) / rho := by
    rw [sqrt_eq_iff_mul_self_eq (by positivity) (by positivity), div_mul_div_comm,
      mul_self_sqrt (by positivity)]
    field_simp
  have hpos : 0 < sqrt (rho ^ 2 + X 2 ^ 2) := by positivity
  refine vec_ext ?_ ?_ ?_
  · rw [point_0, cos_arctan, hs]
    nth_rw 1 [hc.1]
    field_simp
  · rw [point_1, cos_arctan, hs]
    nth_rw 1 [hc.2]
    field_simp
  · rw [point_2, sin_arctan, hs]
    field_simp

/-- Every position but the centre is a point at some distance, latitude and longitude. -/
theorem exists_body (B : Vec) (h : B ≠ 0) : ∃ R P L, 0 < R ∧ 0 ≤ cos P ∧ B = point R P L := by
  by_cases h' : B 0 = 0 ∧ B 1 = 0
  · have h2 : B 2 ≠ 0 := by
      intro e
      apply h
      refine vec_ext ?_ ?_ ?_
      exacts [h'.1, h'.2, e]
    rcases lt_or_gt_of_ne h2 with h2 | h2
    · refine ⟨-B 2, -(π / 2), 0, by linarith, by simp, ?_⟩
      refine vec_ext ?_ ?_ ?_
      · rw [point_0]; simp [h'.1]
      · rw [point_1]; simp [h'.2]
      · rw [point_2]; simp
    · refine ⟨B 2, π / 2, 0, h2, by simp, ?_⟩
      refine vec_ext ?_ ?_ ?_
      · rw [point_0]; simp [h'.1]
      · rw [point_1]; simp [h'.2]
      · rw [point_2]; simp
  · obtain ⟨r, p, l, h1, h2, h3⟩ := exists_point B h'
    exact ⟨r, p, l, h1, h2.le, h3⟩

/-! ### The specification in components -/

theorem local3_0 (u n e p l : ℝ) :
    local3 u n e p l 0 = u * (cos p * cos l) - n * (sin p * cos l) - e * sin l := by
  simp [local3, up, north, east]; ring
theorem local3_1 (u n e p l : ℝ) :
    local3 u n e p l 1 = u * (cos p * sin l) - n * (sin p * sin l) + e * cos l := by
  simp [local3, up, north, east]; ring
theorem local3_2 (u n e p l : ℝ) : local3 u n e p l 2 = u * sin p + n * cos p := by
  simp [local3, up, north, east]

theorem local3_add (u n e u' n' e' p l : ℝ) :
    local3 u n e p l + local3 u' n' e' p l = local3 (u + u') (n + n') (e + e') p l := by
  refine vec_ext ?_ ?_ ?_ <;> simp only [Pi.add_apply, local3_0, local3_1, local3_2] <;> ring

theorem legendre_two (x : ℝ) : (legendreP 2).eval x = 3 / 2 * x ^ 2 - 1 / 2 := by
  simp [legendreP, Polynomial.derivative_pow]
  ring

theorem legendre_three (x : ℝ) : (legendreP 3).eval x = 5 / 2 * x ^ 3 - 3 / 2 * x := by
  simp [legendreP, Polynomial.derivative_pow]
  ring

theorem dot_up (p l P L : ℝ) :
    dotProduct (up p l) (up P L) = cos p * cos P * cos (l - L) + sin p * sin P := by
  simp only [up, dotProduct, Fin.sum_univ_three, Matrix.cons_val_zero, Matrix.cons_val_one,
    Matrix.cons_val, cos_sub]
  ring

/-- The response to a potential of degree 2 in components. -/
theorem response_two (h l2 F P L : ℝ) {p : ℝ} (hp : 0 < cos p) (l : ℝ) :
    response h l2 (tidal 2 F P L) p l =
      let s := cos p * cos P * cos (l - L) + sin p * sin P
      local3 (h * (F * (3 / 2 * s ^ 2 - 1 / 2)))
        (l2 * (F * (3 * s * (-sin p * cos P * cos (l - L) + cos p * sin P))))
        (l2 * (F * (3 * s * (-cos P * sin (l - L))))) p l := by
  have e1 : ∀ p l, tidal 2 F P L p l =
      F * (3 / 2 * (cos p * cos P * cos (l - L) + sin p * sin P) ^ 2 - 1 / 2) := by
    intro p l; rw [tidal, legendre_two, dot_up]
  have d1 : deriv (fun x => tidal 2 F P L x l) p = F * (3 *
      (cos p * cos P * cos (l - L) + sin p * sin P) *
      (-sin p * cos P * cos (l - L) + cos p * sin P)) := by
    simp only [e1]
    have := ((((((hasDerivAt_cos p).mul_const (cos P)).mul_const (cos (l - L))).add
      ((hasDerivAt_sin p).mul_const (sin P))).pow 2).const_mul (3 / 2)).sub_const (1 / 2)
    refine (this.const_mul F).deriv.trans ?_
    simp [-mul_eq_mul_left_iff, -mul_eq_mul_right_iff]
    ring
  have d2 : deriv (fun x => tidal 2 F P L p x) l = F * (3 *
      (cos p * cos P * cos (l - L) + sin p * sin P) *
      (-cos P * sin (l - L))) * cos p := by
    simp only [e1]
    have := (((((hasDerivAt_id l).sub_const L).cos.const_mul (cos p * cos P)).add_const
      (sin p * sin P)).pow 2).const_mul (3 / 2) |>.sub_const (1 / 2)
    refine (this.const_mul F).deriv.trans ?_
    simp [-mul_eq_mul_left_iff, -mul_eq_mul_right_iff]
    ring
  dsimp only
  rw [response, e1, d1, d2, mul_div_cancel_right₀ _ hp.ne']

/-- The response to a potential of degree 3 in components. -/
theorem response_three (h l3 F P L : ℝ) {p : ℝ} (hp : 0 < cos p) (l : ℝ) :
    response h l3 (tidal 3 F P L) p l =
      let s := cos p * cos P * cos (l - L) + sin p * sin P
      local3 (h * (F * (5 / 2 * s ^ 3 - 3 / 2 * s)))
        (l3 * (F * ((15 / 2 * s ^ 2 - 3 / 2) * (-sin p * cos P * cos (l - L) + cos p * sin P))))
        (l3 * (F * ((15 / 2 * s ^ 2 - 3 / 2) * (-cos P * sin (l - L))))) p l := by
  have e1 : ∀ p l, tidal 3 F P L p l =
      F * (5 / 2 * (cos p * cos P * cos (l - L) + sin p * sin P) ^ 3 -
        3 / 2 * (cos p * cos P * cos (l - L) + sin p * sin P)) := by
    intro p l; rw [tidal, legendre_three, dot_up]
  have d1 : deriv (fun x => tidal 3 F P L x l) p = F * ((15 / 2 *
      (cos p * cos P * cos (l - L) + sin p * sin P) ^ 2 - 3 / 2) *
      (-sin p * cos P * cos (l - L) + cos p * sin P)) := by
    simp only [e1]
    have h0 := (((hasDerivAt_cos p).mul_const (cos P)).mul_const (cos (l - L))).add
      ((hasDerivAt_sin p).mul_const (sin P))
    have := ((h0.pow 3).const_mul (5 / 2)).sub (h0.const_mul (3 / 2))
    refine (this.const_mul F).deriv.trans ?_
    simp [-mul_eq_mul_left_iff, -mul_eq_mul_right_iff]
    ring
  have d2 : deriv (fun x => tidal 3 F P L p x) l = F * ((15 / 2 *
      (cos p * cos P * cos (l - L) + sin p * sin P) ^ 2 - 3 / 2) *
      (-cos P * sin (l - L))) * cos p := by
    simp only [e1]
    have h0 := (((hasDerivAt_id l).sub_const L).cos.const_mul (cos p * cos P)).add_const
      (sin p * sin P)
    have := ((h0.pow 3).const_mul (5 / 2)).sub (h0.const_mul (3 / 2))
    refine (this.const_mul F).deriv.trans ?_
    simp [-mul_eq_mul_left_iff, -mul_eq_mul_right_iff]
    ring
  dsimp only
  rw [response, e1, d1, d2, mul_div_cancel_right₀ _ hp.ne']

theorem response_diurnal (h l2 F P L : ℝ) {p : ℝ} (hp : 0 < cos p) (l : ℝ) :
    response h l2 (diurnal F P (L - π / 2)) p l =
      local3 (h * (-(3 / 4) * F * sin (2 * P) * sin (2 * p) * sin (l - L)))
        (l2 * (-(3 / 2) * F * sin (2 * P) * cos (2 * p) * sin (l - L)))
        (l2 * (-(3 / 2) * F * sin (2 * P) * sin p * cos (l - L))) p l := by
  have e1 : ∀ p l, diurnal F P (L - π / 2) p l =
      -(3 / 4) * F * sin (2 * P) * sin (2 * p) * sin (l - L) := by
    intro p l
    rw [diurnal, show l - (L - π / 2) = l - L + π / 2 by ring, cos_add_pi_div_two]; ring
  have d1 : deriv (fun x => diurnal F P (L - π / 2) x l) p =
      -(3 / 2) * F * sin (2 * P) * cos (2 * p) * sin (l - L) := by
    simp only [e1]
    have := ((((hasDerivAt_id p).const_mul 2).sin).const_mul
      (-(3 / 4) * F * sin (2 * P))).mul_const (sin (l - L))
    refine this.deriv.trans ?_
    simp [-mul_eq_mul_left_iff, -mul_eq_mul_right_iff]
    ring
  have d2 : deriv (fun x => diurnal F P (L - π / 2) p x) l =
      -(3 / 2) * F * sin (2 * P) * sin p * cos (l - L) * cos p := by
    simp only [e1]
    have := ((hasDerivAt_id l).sub_const L).sin.const_mul
      (-(3 / 4) * F * sin (2 * P) * sin (2 * p))
    refine this.deriv.trans ?_
    simp [sin_two_mul p]
    ring
  rw [response, e1, d1, d2, mul_div_cancel_right₀ _ hp.ne']

theorem response_semidiurnal (h l2 F P L : ℝ) {p : ℝ} (hp : 0 < cos p) (l : ℝ) :
    response h l2 (semidiurnal F P (L - π / 4)) p l =
      local3 (h * (-(3 / 4) * F * cos P ^ 2 * cos p ^ 2 * sin (2 * (l - L))))
        (l2 * (3 / 2 * F * cos P ^ 2 * (sin p * cos p) * sin (2 * (l - L))))
        (l2 * (-(3 / 2) * F * cos P ^ 2 * cos p * cos (2 * (l - L)))) p l := by
  have e1 : ∀ p l, semidiurnal F P (L - π / 4) p l =
      -(3 / 4) * F * cos P ^ 2 * cos p ^ 2 * sin (2 * (l - L)) := by
    intro p l
    rw [semidiurnal, show 2 * (l - (L - π / 4)) = 2 * (l - L) + π / 2 by ring,
      cos_add_pi_div_two]; ring
  have d1 : deriv (fun x => semidiurnal F P (L - π / 4) x l) p =
      3 / 2 * F * cos P ^ 2 * (sin p * cos p) * sin (2 * (l - L)) := by
    simp only [e1]
    have := (((hasDerivAt_cos p).pow 2).const_mul
      (-(3 / 4) * F * cos P ^ 2)).mul_const (sin (2 * (l - L)))
    refine this.deriv.trans ?_
    simp [-mul_eq_mul_left_iff, -mul_eq_mul_right_iff]
    ring
  have d2 : deriv (fun x => semidiurnal F P (L - π / 4) p x) l =
      -(3 / 2) * F * cos P ^ 2 * cos p * cos (2 * (l - L)) * cos p := by
    simp only [e1]
    have := ((((hasDerivAt_id l).sub_const L).const_mul 2).sin).const_mul
      (-(3 / 4) * F * cos P ^ 2 * cos p ^ 2)
    refine this.deriv.trans ?_
    simp [-mul_eq_mul_left_iff, -mul_eq_mul_right_iff]
    ring
  rw [response, e1, d1, d2, mul_div_cancel_right₀ _ hp.ne']

/-- The parts of the potential of degree 2 used below add up to it. -/
theorem C39_bands (F P L p l : ℝ) : tidal 2 F P L p l =
    zonalPart F P p + diurnal F P L p l + semidiurnal F P L p l := by
  rw [tidal, legendre_two, dot_up, zonalPart, diurnal, semidiurnal, sin_two_mul, sin_two_mul,
    cos_two_mul]
  have h1 := sin_sq_add_cos_sq p
  have h2 := sin_sq_add_cos_sq P
  generalize cos (l - L) = c
  have h1' : cos p ^ 2 = 1 - sin p ^ 2 := by linarith
  have h2' : cos P ^ 2 = 1 - sin P ^ 2 := by linarith
  linear_combination (3 / 4 * F * c ^ 2 * 0 + 3 / 4 * F * cos P ^ 2) * h1' +
    (3 / 4 * F * (1 - sin p ^ 2)) * h2'

/-! ### The displacement by one body -/

theorem smul_local3 (c u n e p l : ℝ) :
    c • local3 u n e p l = local3 (c * u) (c * n) (c * e) p l := by
  refine vec_ext ?_ ?_ ?_ <;> simp only [Pi.smul_apply, smul_eq_mul, local3_0, local3_1,
    local3_2] <;> ring

theorem up_eq (p l : ℝ) : up p l = local3 1 0 0 p l := by
  simp [local3]

/-- The direction of a body in the frame of the station. -/
theorem direction (p l P L : ℝ) : up P L =
    local3 (cos p * cos P * cos (l - L) + sin p * sin P)
      (-sin p * cos P * cos (l - L) + cos p * sin P) (-cos P * sin (l - L)) p l := by
  have h1 := sin_sq_add_cos_sq p
  have h2 := sin_sq_add_cos_sq l
  refine vec_ext ?_ ?_ ?_
  · rw [local3_0, cos_sub, sin_sub]
    simp only [up, Matrix.cons_val_zero]
    linear_combination (-cos P * (cos l * cos L + sin l * sin L) * cos l) * h1 -
      (cos P * cos L) * h2
  · rw [local3_1, cos_sub, sin_sub]
    simp only [up, Matrix.cons_val_one, Matrix.cons_val_zero]
    linear_combination (-cos P * (cos l * cos L + sin l * sin L) * sin l) * h1 -
      (cos P * sin L) * h2
  · rw [local3_2]
    simp only [up, Matrix.cons_val]
    linear_combination (-sin P) * h1

theorem unit_point {R : ℝ} (hR : 0 < R) (P L : ℝ) (i : Fin 3) (c : ℝ) :
    c * point R P L i / radius (point R P L) = c * up P L i := by
  rw [radius_point hR, point, Pi.smul_apply, smul_eq_mul]
  field_simp

theorem F2_point {R : ℝ} (hR : 0 < R) (ratio a P L : ℝ) :
    F2 ratio a (point R P L) = ratio * a ^ 4 / R ^ 3 := by
  rw [F2, radius_point hR]; field_simp

theorem F3_point {R : ℝ} (hR : 0 < R) (ratio a P L : ℝ) :
    F3 ratio a (point R P L) = ratio * a ^ 5 / R ^ 4 := by
  rw [F3, radius_point hR]; field_simp

theorem degree2_point (k : Keywords) (ratio a : ℝ) {r p R : ℝ} (hr : 0 < r) (hp : 0 < cos p)
    (hR : 0 < R) (l P L : ℝ) :
    degree2 k ratio a (point r p l) (point R P L) =
      response (k.h2 - 0.0006 * (1 - 3 / 2 * cos p ^ 2)) (k.l2 + 0.0002 * (1 - 3 / 2 * cos p ^ 2))
        (tidal 2 (ratio * a ^ 4 / R ^ 3) P L) p l := by
  have e : degree2 k ratio a (point r p l) (point R P L) = fun i =>
      (ratio * a ^ 4 / R ^ 3) * ((3 * (k.l2 + 0.0002 * (1 - 3 / 2 * cos p ^ 2)) *
        (cos p * cos P * cos (l - L) + sin p * sin P)) * up P L i +
      (3 * ((k.h2 - 0.0006 * (1 - 3 / 2 * cos p ^ 2)) / 2 -
        (k.l2 + 0.0002 * (1 - 3 / 2 * cos p ^ 2))) *
        (cos p * cos P * cos (l - L) + sin p * sin P) ^ 2 -
        (k.h2 - 0.0006 * (1 - 3 / 2 * cos p ^ 2)) / 2) * up p l i) := by
    funext i
    rw [degree2]
    dsimp only
    rw [F2_point hR, unit_point hR, unit_point hr, scalar_point hr hR, dot_up, loveH2, shidaL2,
      cosphi_point hr hp]
  rw [e, response_two _ _ _ _ _ hp, direction p l P L, up_eq p l]
  dsimp only
  generalize cos p * cos P * cos (l - L) + sin p * sin P = s
  generalize -sin p * cos P * cos (l - L) + cos p * sin P = m
  generalize -cos P * sin (l - L) = q
  generalize ratio * a ^ 4 / R ^ 3 = F
  generalize k.h2 - 0.0006 * (1 - 3 / 2 * cos p ^ 2) = h2
  generalize k.l2 + 0.0002 * (1 - 3 / 2 * cos p ^ 2) = l2
  refine vec_ext ?_ ?_ ?_ <;> simp only [local3_0, local3_1, local3_2] <;> ring

theorem degree3_point (k : Keywords) (ratio a : ℝ) {r p R : ℝ} (hr : 0 < r) (hp : 0 < cos p)
    (hR : 0 < R) (l P L : ℝ) :
    degree3 k ratio a (point r p l) (point R P L) =
      response k.h3 k.l3 (tidal 3 (ratio * a ^ 5 / R ^ 4) P L) p l := by
  have e : degree3 k ratio a (point r p l) (point R P L) = fun i =>
      (ratio * a ^ 5 / R ^ 4) * ((3 * k.l3 / 2 *
        (5 * (cos p * cos P * cos (l - L) + sin p * sin P) ^ 2 - 1)) * up P L i +
      (5 / 2 * (k.h3 - 3 * k.l3) * (cos p * cos P * cos (l - L) + sin p * sin P) ^ 3 +
        3 / 2 * (k.l3 - k.h3) * (cos p * cos P * cos (l - L) + sin p * sin P)) * up p l i) := by
    funext i
    rw [degree3]
    dsimp only
    rw [F3_point hR, unit_point hR, unit_point hr, scalar_point hr hR, dot_up]
  rw [e, response_three _ _ _ _ _ hp, direction p l P L, up_eq p l]
  dsimp only
  generalize cos p * cos P * cos (l - L) + sin p * sin P = s
  generalize -sin p * cos P * cos (l - L) + cos p * sin P = m
  generalize -cos P * sin (l - L) = q
  generalize ratio * a ^ 5 / R ^ 4 = F
  refine vec_ext ?_ ?_ ?_ <;> simp only [local3_0, local3_1, local3_2] <;> ring

/-- Assembling a displacement from its components (the last lines of every correction). -/
theorem assemble {r p : ℝ} (hr : 0 < r) (hp : 0 < cos p) (l u n e : ℝ) :
    (![u * cosla (point r p l) * cosphi (point r p l) - e * sinla (point r p l) -
        n * cosla (point r p l) * sinphi (point r p l),
      u * sinla (point r p l) * cosphi (point r p l) + e * cosla (point r p l) -
        n * sinla (point r p l) * sinphi (point r p l),
      u * sinphi (point r p l) + n * cosphi (point r p l)] : Vec) = local3 u n e p l := by
  rw [cosla_point hr hp, sinla_point hr hp, cosphi_point hr hp, sinphi_point hr]
  refine vec_ext ?_ ?_ ?_ <;> simp only [local3_0, local3_1, local3_2, Matrix.cons_val_zero,
    Matrix.cons_val_one, Matrix.cons_val] <;> ring

theorem assemble_horizontal {r p : ℝ} (hr : 0 < r) (hp : 0 < cos p) (l n e : ℝ) :
    (![-e * sinla (point r p l) - n * cosla (point r p l) * sinphi (point r p l),
      e * cosla (point r p l) - n * sinla (point r p l) * sinphi (point r p l),
      n * cosphi (point r p l)] : Vec) = local3 0 n e p l := by
  rw [cosla_point hr hp, sinla_point hr hp, cosphi_point hr hp, sinphi_point hr]
  refine vec_ext ?_ ?_ ?_ <;> simp only [local3_0, local3_1, local3_2, Matrix.cons_val_zero,
    Matrix.cons_val_one, Matrix.cons_val] <;> ring

theorem diurnalOffsets_point {r p R : ℝ} (hr : 0 < r) (hp : 0 < cos p) (hR : 0 < R)
    (f l P L : ℝ) : diurnalOffsets f (point r p l) (point R P L) =
      (-0.0025 * (-(3 / 4) * f * sin (2 * P) * sin (2 * p) * sin (l - L)),
       -0.0007 * (-(3 / 2) * f * sin (2 * P) * cos (2 * p) * sin (l - L)),
       -0.0007 * (-(3 / 2) * f * sin (2 * P) * sin p * cos (l - L))) := by
  rw [diurnalOffsets]
  rw [cosla_point hr hp, sinla_point hr hp, cosphi_point hr hp, sinphi_point hr, radius_point hR,
    point_0, point_1, point_2, sin_two_mul, sin_two_mul, cos_two_mul', cos_sub, sin_sub]
  refine Prod.ext ?_ (Prod.ext ?_ ?_) <;> dsimp only <;> field_simp <;> ring

theorem semidiurnalOffsets_point {r p R : ℝ} (hr : 0 < r) (hp : 0 < cos p) (hR : 0 < R)
    (f l P L : ℝ) : semidiurnalOffsets f (point r p l) (point R P L) =
      (-0.0022 * (-(3 / 4) * f * cos P ^ 2 * cos p ^ 2 * sin (2 * (l - L))),
       -0.0007 * (3 / 2 * f * cos P ^ 2 * (sin p * cos p) * sin (2 * (l - L))),
       -0.0007 * (-(3 / 2) * f * cos P ^ 2 * cos p * cos (2 * (l - L)))) := by
  rw [semidiurnalOffsets]
  rw [cosla_point hr hp, sinla_point hr hp, cosphi_point hr hp, sinphi_point hr, radius_point hR,
    point_0, point_1, sin_two_mul (l - L), cos_two_mul' (l - L), cos_sub, sin_sub]
  refine Prod.ext ?_ (Prod.ext ?_ ?_) <;> dsimp only <;> field_simp <;> ring

theorem assoc_two_one {P : ℝ} (h : 0 ≤ cos P) : assocP 2 1 (sin P) = 3 * sin P * cos P := by
  rw [assocP, ← cos_sq', sqrt_sq h]
  simp [legendreP, Polynomial.derivative_pow]
  ring

theorem assoc_two_two {P : ℝ} (h : 0 ≤ cos P) : assocP 2 2 (sin P) = 3 * cos P ^ 2 := by
  rw [assocP, ← cos_sq', sqrt_sq h]
  simp [legendreP, Polynomial.derivative_pow]
  ring

theorem latitudeOffsets_point {r p R : ℝ} (hr : 0 < r) (hp : 0 < cos p) (hR : 0 < R)
    (f l P L : ℝ) : latitudeOffsets f (point r p l) (point R P L) =
      (-0.0012 * sin p * f * (sin P * cos P) * (sin p * cos (l - L)),
       0.0012 * sin p * f * (sin P * cos P) * (cos (2 * p) * sin (l - L)),
       -(1 / 2) * 0.0024 * sin p * cos p * f * cos P ^ 2 * cos (2 * (l - L)),
       -(1 / 2) * 0.0024 * sin p * cos p * f * cos P ^ 2 * (sin p * sin (2 * (l - L)))) := by
  rw [latitudeOffsets]
  rw [cosla_point hr hp, sinla_point hr hp, cosphi_point hr hp, sinphi_point hr, radius_point hR,
    point_0, point_1, point_2, sin_two_mul (l - L), cos_two_mul' (l - L), cos_two_mul' p, cos_sub,
    sin_sub]
  refine Prod.ext ?_ (Prod.ext ?_ (Prod.ext ?_ ?_)) <;> dsimp only <;> field_simp <;> ring

theorem outOfPhaseDiurnal_point {r p R R' : ℝ} (hr : 0 < r) (hp : 0 < cos p) (hR : 0 < R)
    (hR' : 0 < R') (l P L P' L' f f' : ℝ) :
    outOfPhaseDiurnal (point r p l) (point R P L) (point R' P' L') f f' =
      response (-0.0025) (-0.0007) (diurnal f P (L - π / 2)) p l +
      response (-0.0025) (-0.0007) (diurnal f' P' (L' - π / 2)) p l := by
  rw [outOfPhaseDiurnal]
  rw [assemble hr hp, diurnalOffsets_point hr hp hR, diurnalOffsets_point hr hp hR',
    response_diurnal _ _ _ _ _ hp, response_diurnal _ _ _ _ _ hp, local3_add]

theorem outOfPhaseSemidiurnal_point {r p R R' : ℝ} (hr : 0 < r) (hp : 0 < cos p) (hR : 0 < R)
    (hR' : 0 < R') (l P L P' L' f f' : ℝ) :
    outOfPhaseSemidiurnal (point r p l) (point R P L) (point R' P' L') f f' =
      response (-0.0022) (-0.0007) (semidiurnal f P (L - π / 4)) p l +
      response (-0.0022) (-0.0007) (semidiurnal f' P' (L' - π / 4)) p l := by
  rw [outOfPhaseSemidiurnal]
  rw [assemble hr hp, semidiurnalOffsets_point hr hp hR, semidiurnalOffsets_point hr hp hR',
    response_semidiurnal _ _ _ _ _ hp, response_semidiurnal _ _ _ _ _ hp, local3_add]

theorem latitudeDependence_point {r p R R' P P' : ℝ} (hr : 0 < r) (hp : 0 < cos p) (hR : 0 < R)
    (hR' : 0 < R') (hP : 0 ≤ cos P) (hP' : 0 ≤ cos P') (l L L' f f' : ℝ) :
    latitudeDependence (point r p l) (point R P L) (point R' P' L') f f' =
      latitudeDiurnal 0.0012 f P L p l + latitudeSemidiurnal 0.0024 f P L p l +
      (latitudeDiurnal 0.0012 f' P' L' p l + latitudeSemidiurnal 0.0024 f' P' L' p l) := by
  rw [latitudeDependence, assemble_horizontal hr hp, latitudeOffsets_point hr hp hR,
    latitudeOffsets_point hr hp hR']
  simp only [latitudeDiurnal, latitudeSemidiurnal, local3_add, assoc_two_one hP,
    assoc_two_one hP', assoc_two_two hP, assoc_two_two hP']
  congr 1 <;> ring

/-! ### C39 -/

/-- C39.  The displacement by the Sun and the Moon, for every station off the axis and all
positions of Sun and Moon: the sum, over the two bodies, of the responses described in
`Spec.byBody`, with the latitude dependent Love and Shida numbers of degree 2.  (Added to it are
the frequency dependent corrections, which depend on time only, and the permanent tide if
requested: see `C40_frequency_diurnal`, `C40_frequency_long_period` and `C40_mean_tide`.) -/
theorem C39_mathews (k : Keywords) (a t : ℝ) (meanTide : Bool) {r p R R' P P' : ℝ} (hr : 0 < r)
    (hp : 0 < cos p) (hR : 0 < R) (hR' : 0 < R') (hP : 0 ≤ cos P) (hP' : 0 ≤ cos P')
    (l L L' : ℝ) :
    tideOrNaN k a meanTide t (point r p l) (point R P L) (point R' P' L') =
      some (byBody (k.h2 - 0.0006 * (1 - 3 / 2 * cos p ^ 2))
          (k.l2 + 0.0002 * (1 - 3 / 2 * cos p ^ 2)) k.h3 k.l3 k.massRatioSolar a R P L p l +
        byBody (k.h2 - 0.0006 * (1 - 3 / 2 * cos p ^ 2))
          (k.l2 + 0.0002 * (1 - 3 / 2 * cos p ^ 2)) k.h3 k.l3 k.massRatioLunar a R' P' L' p l +
        frequencyDiurnal (point r p l) (doodsonArguments (t + 48622)) +
        frequencyLongPeriod (point r p l) (doodsonArguments (t + 48622)) +
        if meanTide then freeToMean (point r p l) (k.h2 - 0.0006 * (1 - 3 / 2 * cos p ^ 2))
          (k.l2 + 0.0002 * (1 - 3 / 2 * cos p ^ 2)) else 0) := by
  have hne : ∀ {R P L : ℝ}, 0 < R → point R P L ≠ 0 := by
    intro R P L h e
    have := radius_point h P L
    rw [e] at this
    simp [radius] at this
    linarith
  have hdeg : ¬ Degenerate (point r p l) (point R P L) (point R' P' L') := by
    rintro (⟨h0, h1⟩ | h | h)
    · rw [point_0] at h0
      rw [point_1] at h1
      have hc : cos l = 0 := by
        rcases mul_eq_zero.1 h0 with h | h
        · exact absurd h hr.ne'
        · exact (mul_eq_zero.1 h).resolve_left hp.ne'
      have hs : sin l = 0 := by
        rcases mul_eq_zero.1 h1 with h | h
        · exact absurd h hr.ne'
        · exact (mul_eq_zero.1 h).resolve_left hp.ne'
      have := sin_sq_add_cos_sq l
      rw [hc, hs] at this
      norm_num at this
    · exact hne hR h
    · exact hne hR' h
  rw [tideOrNaN, if_neg hdeg]
  refine congrArg some ?_
  have hin : inPhase k a (point r p l) (point R P L) (point R' P' L') =
      degree2 k k.massRatioSolar a (point r p l) (point R P L) +
      degree2 k k.massRatioLunar a (point r p l) (point R' P' L') +
      degree3 k k.massRatioSolar a (point r p l) (point R P L) +
      degree3 k k.massRatioLunar a (point r p l) (point R' P' L') := by
    funext i; rfl
  have hh : loveH2 k (point r p l) = k.h2 - 0.0006 * (1 - 3 / 2 * cos p ^ 2) := by
    rw [loveH2, cosphi_point hr hp]
  have hl : shidaL2 k (point r p l) = k.l2 + 0.0002 * (1 - 3 / 2 * cos p ^ 2) := by
    rw [shidaL2, cosphi_point hr hp]
  rw [tideRow]
  rw [hin, degree2_point _ _ _ hr hp hR, degree2_point _ _ _ hr hp hR',
    degree3_point _ _ _ hr hp hR, degree3_point _ _ _ hr hp hR',
    outOfPhaseDiurnal_point hr hp hR hR', outOfPhaseSemidiurnal_point hr hp hR hR',
    latitudeDependence_point hr hp hR hR' hP hP', F2_point hR, F2_point hR', hh, hl, byBody, byBody]
  cases meanTide
  · rw [if_neg (by decide), if_neg (by decide)]; abel
  · rw [if_pos rfl, if_pos rfl]; abel

end Verif.SolidEarth
