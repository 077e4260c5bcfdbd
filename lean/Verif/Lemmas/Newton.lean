import Verif.Model.Spatial
import Mathlib.Analysis.Calculus.MeanValue
import Mathlib.Analysis.SpecialFunctions.Trigonometric.Bounds
import Mathlib.Analysis.SpecialFunctions.Trigonometric.ArctanDeriv
import Mathlib.Analysis.Real.Pi.Bounds
import Mathlib.Tactic.Linarith
import Mathlib.Tactic.Ring
import Mathlib.Tactic.FieldSimp
/-!
Convergence of the iteration of `convert_ellipsoid`.
-/
namespace Verif.Spatial
open Verif Real

/-- The function whose root is sought, after division by the square of the semi-major axis. -/
noncomputable def sought (k c s u : ℝ) : ℝ := k * sin u + c * tan u - s

noncomputable def slope (k c u : ℝ) : ℝ := k * cos u + c / (cos u * cos u)

theorem cos_far {u : ℝ} (hu : |u| ≤ 0.8) : 0.68 ≤ cos u := by
  have h := one_sub_sq_div_two_le_cos (x := u)
  have h2 : u ^ 2 ≤ 0.8 ^ 2 := by
    rw [← sq_abs]
    exact pow_le_pow_left₀ (abs_nonneg _) hu 2
  nlinarith

theorem tan_far {u : ℝ} (hu : |u| ≤ 0.8) : |tan u| ≤ 1.08 ∧ 1 / (cos u * cos u) ≤ 2.17 := by
  have h := cos_far hu
  have hs := sin_sq_add_cos_sq u
  constructor
  · rw [tan_eq_sin_div_cos, abs_div, abs_of_pos (a := cos u) (by linarith), div_le_iff₀ (by linarith)]
    rw [← abs_of_pos (a := 1.08 * cos u) (by linarith)]
    exact sq_le_sq.1 (by nlinarith)
  · rw [div_le_iff₀ (by nlinarith)]
    nlinarith

theorem sought_deriv (k c s u : ℝ) (h : cos u ≠ 0) : HasDerivAt (sought k c s) (slope k c u) u := by
  have h1 := ((hasDerivAt_sin u).const_mul k).add ((hasDerivAt_tan h).const_mul c)
  have h2 := h1.sub_const s
  have e : k * cos u + c * (1 / cos u ^ 2) = slope k c u := by
    unfold slope
    rw [pow_two, mul_one_div]
  rw [e] at h2
  exact h2

theorem slope_deriv (k c u : ℝ) (h : cos u ≠ 0) :
    HasDerivAt (slope k c) (-(k * sin u) + 2 * c * (tan u * (1 / (cos u * cos u)))) u := by
  have h1 := (hasDerivAt_cos u).const_mul k
  have h2 := ((hasDerivAt_cos u).mul (hasDerivAt_cos u)).inv (mul_ne_zero h h)
  have h3 := h1.add (h2.const_mul c)
  have e : k * -sin u + c * (-(-sin u * cos u + cos u * -sin u) / (cos u * cos u) ^ 2) =
      -(k * sin u) + 2 * c * (tan u * (1 / (cos u * cos u))) := by
    rw [tan_eq_sin_div_cos]
    field_simp
    ring
  have e2 : slope k c = (fun u => k * cos u + c * (cos u * cos u)⁻¹) := by
    funext u
    unfold slope
    rw [div_eq_mul_inv]
  rw [e2]
  exact h3.congr_deriv e

/-- The curvature of the function. -/
theorem curvature {k c u : ℝ} (hk : |k| ≤ 0.01) (hc0 : 0 ≤ c) (hc : c ≤ 1.02) (hu : |u| ≤ 0.8) :
    |-(k * sin u) + 2 * c * (tan u * (1 / (cos u * cos u)))| ≤ 5 := by
  obtain ⟨t1, t2⟩ := tan_far hu
  have hcos := cos_far hu
  have q0 : 0 < 1 / (cos u * cos u) := by positivity
  have a1 : |k * sin u| ≤ 0.01 := by
    rw [abs_mul]
    have := abs_sin_le_one u
    nlinarith [abs_nonneg k, abs_nonneg (sin u)]
  have a2 : |2 * c * (tan u * (1 / (cos u * cos u)))| ≤ 4.9 := by
    rw [abs_mul (2 * c), abs_mul (tan u), abs_of_pos q0, abs_of_nonneg (a := 2 * c) (by linarith)]
    have : |tan u| * (1 / (cos u * cos u)) ≤ 1.08 * 2.17 :=
      mul_le_mul t1 t2 q0.le (by norm_num)
    have h0 : 0 ≤ |tan u| * (1 / (cos u * cos u)) := by positivity
    nlinarith
  calc _ ≤ |-(k * sin u)| + |2 * c * (tan u * (1 / (cos u * cos u)))| := abs_add_le _ _
    _ ≤ 5 := by rw [abs_neg]; linarith

/-- The second order remainder. -/
theorem remainder {k c s u v : ℝ} (hk : |k| ≤ 0.01) (hc0 : 0 ≤ c) (hc : c ≤ 1.02) (hu : |u| ≤ 0.8)
    (hv : |v| ≤ 0.8) :
    |sought k c s v - sought k c s u - slope k c u * (v - u)| ≤ 5 * (v - u) ^ 2 := by
  have cvx : Convex ℝ (Set.uIcc u v) := convex_uIcc u v
  have inside : ∀ x ∈ Set.uIcc u v, |x| ≤ 0.8 ∧ |x - u| ≤ |v - u| := by
    intro x hx
    obtain ⟨u1, u2⟩ := abs_le.1 hu
    obtain ⟨v1, v2⟩ := abs_le.1 hv
    rcases Set.mem_uIcc.1 hx with ⟨x1, x2⟩ | ⟨x1, x2⟩
    · exact ⟨abs_le.2 ⟨by linarith, by linarith⟩, by
        rw [abs_of_nonneg (by linarith), abs_of_nonneg (by linarith)]; linarith⟩
    · exact ⟨abs_le.2 ⟨by linarith, by linarith⟩, by
        rw [abs_of_nonpos (by linarith), abs_of_nonpos (by linarith)]; linarith⟩
  have nz : ∀ x, |x| ≤ 0.8 → cos x ≠ 0 := fun x hx => by have := cos_far hx; linarith
  have lip : ∀ x ∈ Set.uIcc u v, |slope k c x - slope k c u| ≤ 5 * |v - u| := by
    intro x hx
    have := cvx.norm_image_sub_le_of_norm_hasDerivWithin_le (f := slope k c) (C := 5)
      (f' := fun x => -(k * sin x) + 2 * c * (tan x * (1 / (cos x * cos x))))
      (fun y hy => (slope_deriv k c y (nz y (inside y hy).1)).hasDerivWithinAt)
      (fun y hy => curvature hk hc0 hc (inside y hy).1) Set.left_mem_uIcc hx
    rw [Real.norm_eq_abs, Real.norm_eq_abs] at this
    have := (inside x hx).2
    linarith
  have main := cvx.norm_image_sub_le_of_norm_hasDerivWithin_le
    (f := fun x => sought k c s x - slope k c u * x) (C := 5 * |v - u|)
    (f' := fun x => slope k c x - slope k c u)
    (fun y hy => by
      have h1 := sought_deriv k c s y (nz y (inside y hy).1)
      have h2 := (hasDerivAt_id y).const_mul (slope k c u)
      have h3 := h1.sub h2
      rw [mul_one] at h3
      exact h3.hasDerivWithinAt)
    (fun y hy => lip y hy) Set.left_mem_uIcc Set.right_mem_uIcc
  rw [Real.norm_eq_abs, Real.norm_eq_abs] at main
  have e : sought k c s v - slope k c u * v - (sought k c s u - slope k c u * u) =
      sought k c s v - sought k c s u - slope k c u * (v - u) := by ring
  rw [e] at main
  rw [← sq_abs]
  linarith [main, show 5 * |v - u| * |v - u| = 5 * |v - u| ^ 2 by ring]

theorem slope_lower {k c u : ℝ} (hk : |k| ≤ 0.01) (hc : 0.66 ≤ c) (hu : |u| ≤ 0.8) :
    0.65 ≤ slope k c u := by
  have hcos := cos_far hu
  have h1 := cos_le_one u
  have hq : c ≤ c / (cos u * cos u) := by
    have : cos u * cos u ≤ 1 := by nlinarith
    rw [le_div_iff₀ (by nlinarith)]
    nlinarith
  obtain ⟨k1, k2⟩ := abs_le.1 hk
  unfold slope
  nlinarith

/-- A step from a positive place leads to a positive place when the root is positive. -/
theorem step_pos {k c s u : ℝ} (hk0 : 0 ≤ k) (hk : k ≤ c) (hs : 0 < s) (hu : 0 < u) (hu' : |u| ≤ 0.8)
    (hsl : 0 < slope k c u) : 0 < u - sought k c s u / slope k c u := by
  have hc := cos_far hu'
  have hc1 := cos_le_one u
  have hs0 : sin u < u := sin_lt hu
  have h1 : 0 ≤ u - sin u * cos u := by nlinarith [sin_pos_of_pos_of_lt_pi hu (by
    linarith [pi_gt_d2, (abs_le.1 hu').2])]
  have h2 : sin u - u * cos u ≤ u - sin u * cos u := by nlinarith
  have hq : 1 ≤ 1 / (cos u * cos u) := by
    rw [le_div_iff₀ (by nlinarith)]; nlinarith
  have key : 0 < u * slope k c u - sought k c s u := by
    have e : u * slope k c u - sought k c s u =
        c * (u - sin u * cos u) * (1 / (cos u * cos u)) - k * (sin u - u * cos u) + s := by
      unfold slope sought
      rw [tan_eq_sin_div_cos]
      have : cos u ≠ 0 := by linarith
      field_simp
      ring
    rw [e]
    have g1 : c * (u - sin u * cos u) ≤ c * (u - sin u * cos u) * (1 / (cos u * cos u)) :=
      le_mul_of_one_le_right (mul_nonneg (by linarith) h1) hq
    have g2 : k * (sin u - u * cos u) ≤ k * (u - sin u * cos u) := mul_le_mul_of_nonneg_left h2 hk0
    have g3 : k * (u - sin u * cos u) ≤ c * (u - sin u * cos u) := mul_le_mul_of_nonneg_right hk h1
    linarith
  have : u - sought k c s u / slope k c u = (u * slope k c u - sought k c s u) / slope k c u := by
    field_simp
  rw [this]
  exact div_pos key hsl

/-- The iteration from a start with a small residual: it stays where the cosine is large, and its
residual is that of the tolerance or of quadratic convergence. -/
theorem newton_converges {A k c s eps : ℝ} (hA : 0 < A) (hk : |k| ≤ 0.01) (hc0 : 0.66 ≤ c)
    (hc : c ≤ 1.02) (he : eps ≤ 0.65 * A) (n : ℕ) (u d : ℝ) (hd : 0 ≤ d) (hd2 : 7.7 * d ≤ 1 / 16)
    (hu : |u| + 1.1 * d ≤ 0.8) (hf : |sought k c s u| ≤ 0.65 * d) :
    |newtonLow (A * k) (A * c) (A * s) eps n u| ≤ 0.8 ∧
    |sought k c s (newtonLow (A * k) (A * c) (A * s) eps n u)| ≤
      max (5 * eps ^ 2) ((7.7 * d) ^ 2 ^ n) ∧
    (0 ≤ k → 0 < s → 0 < u → 0 < newtonLow (A * k) (A * c) (A * s) eps n u) := by
  induction n generalizing u d with
  | zero =>
    unfold newtonLow
    refine ⟨by linarith, le_max_of_le_right ?_, fun _ _ h => h⟩
    rw [pow_zero, pow_one]
    linarith
  | succ n ih =>
    have hu' : |u| ≤ 0.8 := by linarith
    have sl := slope_lower hk hc0 hu'
    have e1 : A * k * sin u + A * c * tan u - A * s = A * sought k c s u := by
      unfold sought; ring
    have e2 : A * k * cos u + A * c / (cos u * cos u) = A * slope k c u := by
      unfold slope; ring
    obtain ⟨delta, hdelta⟩ : ∃ delta, delta = sought k c s u / slope k c u := ⟨_, rfl⟩
    have e3 : A * sought k c s u / (A * slope k c u) = delta := by
      rw [hdelta, mul_div_mul_left _ _ hA.ne']
    have hsd : |delta| ≤ d := by
      rw [hdelta, abs_div, abs_of_pos (a := slope k c u) (by linarith), div_le_iff₀ (by linarith)]
      nlinarith
    obtain ⟨d1, d2⟩ := abs_le.1 hsd
    obtain ⟨u1, u2⟩ := abs_le.1 (le_refl |u|)
    have hv : |u - delta| ≤ |u| + d := abs_le.2 ⟨by linarith, by linarith⟩
    have hv' : |u - delta| ≤ 0.8 := by linarith
    have rem := remainder (s := s) hk (by linarith) hc hu' hv'
    have e4 : sought k c s (u - delta) - sought k c s u - slope k c u * (u - delta - u) =
        sought k c s (u - delta) := by
      rw [hdelta]
      field_simp
      ring
    rw [e4, show (u - delta - u) ^ 2 = delta ^ 2 by ring] at rem
    have dd : delta ^ 2 ≤ d ^ 2 := by
      rw [← sq_abs]
      exact pow_le_pow_left₀ (abs_nonneg _) hsd 2
    have pos : 0 ≤ k → 0 < s → 0 < u → 0 < u - delta := fun g1 g2 g3 => by
      rw [hdelta]
      exact step_pos g1 (by linarith [(abs_le.1 hk).2]) g2 g3 hu' (by linarith)
    rw [newtonLow]
    dsimp only
    rw [e1, e2, e3, if_neg (by rw [abs_of_pos (by positivity)]; nlinarith)]
    split
    · rename_i hlt
      refine ⟨hv', le_max_of_le_left (rem.trans ?_), pos⟩
      have : delta ^ 2 ≤ eps ^ 2 := by
        rw [← sq_abs]
        exact pow_le_pow_left₀ (abs_nonneg _) hlt.le 2
      linarith
    · have hdn : 7.7 * d ^ 2 ≤ d / 16 := by nlinarith
      have key := ih (u - delta) (7.7 * d ^ 2) (by positivity) (by linarith) (by linarith)
        (by linarith [sq_nonneg d])
      have e5 : (7.7 * (7.7 * d ^ 2)) ^ 2 ^ n = (7.7 * d) ^ 2 ^ (n + 1) := by
        rw [show (7.7 : ℝ) * (7.7 * d ^ 2) = (7.7 * d) ^ 2 by ring, ← pow_mul, pow_succ' 2 n]
      rw [e5] at key
      exact ⟨key.1, key.2.1, fun g1 g2 g3 => key.2.2 g1 g2 (pos g1 g2 g3)⟩

end Verif.Spatial
