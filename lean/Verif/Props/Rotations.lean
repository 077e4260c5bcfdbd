import Verif.Model.Math
import Mathlib.Tactic.Linarith
import Mathlib.Tactic.FinCases
import Mathlib.LinearAlgebra.Matrix.Determinant.Basic
import Mathlib.Analysis.Real.Pi.Bounds
/-!
Property C06: rotation matrices.
-/
namespace Verif.Math
open Verif Real Matrix

/-- A proper rotation: orthogonal with determinant one. -/
def IsRotation (R : Mat3) : Prop := R * R.transpose = 1 ∧ R.transpose * R = 1 ∧ R.det = 1

theorem IsRotation.mul {A B : Mat3} (ha : IsRotation A) (hb : IsRotation B) :
    IsRotation (A * B) := by
  refine ⟨?_, ?_, ?_⟩
  · rw [transpose_mul, Matrix.mul_assoc, ← Matrix.mul_assoc B, hb.1, Matrix.one_mul, ha.1]
  · rw [transpose_mul, Matrix.mul_assoc, ← Matrix.mul_assoc A.transpose, ha.2.1, Matrix.one_mul,
      hb.2.1]
  · rw [det_mul, ha.2.2, hb.2.2, mul_one]

/-- Elementary rotations named by their axis. -/
noncomputable def rx (t : ℝ) : Mat3 := !![1, 0, 0; 0, cos t, sin t; 0, -sin t, cos t]
noncomputable def ry (t : ℝ) : Mat3 := !![cos t, 0, -sin t; 0, 1, 0; sin t, 0, cos t]
noncomputable def rz (t : ℝ) : Mat3 := !![cos t, sin t, 0; -sin t, cos t, 0; 0, 0, 1]

theorem rotate_x (t : ℝ) : rotate t "x" = .ok (rx t) := by simp [rotate, rx]
theorem rotate_y (t : ℝ) : rotate t "y" = .ok (ry t) := by simp [rotate, ry]
theorem rotate_z (t : ℝ) : rotate t "z" = .ok (rz t) := by simp [rotate, rz]

theorem rotate_cases (t : ℝ) (axis : String) (R : Mat3) (h : rotate t axis = .ok R) :
    R = rx t ∨ R = ry t ∨ R = rz t := by
  unfold rotate at h
  split_ifs at h <;> simp_all [rx, ry, rz]

theorem rx_isRotation (t : ℝ) : IsRotation (rx t) := by
  have h := sin_sq_add_cos_sq t
  refine ⟨?_, ?_, ?_⟩
  · ext i j
    fin_cases i <;> fin_cases j <;> simp [rx, Matrix.mul_apply, Fin.sum_univ_three] <;> nlinarith
  · ext i j
    fin_cases i <;> fin_cases j <;> simp [rx, Matrix.mul_apply, Fin.sum_univ_three] <;> nlinarith
  · rw [det_fin_three]; simp [rx]; nlinarith

theorem ry_isRotation (t : ℝ) : IsRotation (ry t) := by
  have h := sin_sq_add_cos_sq t
  refine ⟨?_, ?_, ?_⟩
  · ext i j
    fin_cases i <;> fin_cases j <;> simp [ry, Matrix.mul_apply, Fin.sum_univ_three] <;> nlinarith
  · ext i j
    fin_cases i <;> fin_cases j <;> simp [ry, Matrix.mul_apply, Fin.sum_univ_three] <;> nlinarith
  · rw [det_fin_three]; simp [ry]; nlinarith

theorem rz_isRotation (t : ℝ) : IsRotation (rz t) := by
  have h := sin_sq_add_cos_sq t
  refine ⟨?_, ?_, ?_⟩
  · ext i j
    fin_cases i <;> fin_cases j <;> simp [rz, Matrix.mul_apply, Fin.sum_univ_three] <;> nlinarith
  · ext i j
    fin_cases i <;> fin_cases j <;> simp [rz, Matrix.mul_apply, Fin.sum_univ_three] <;> nlinarith
  · rw [det_fin_three]; simp [rz]; nlinarith

/-- C06: every matrix the library's `rotate` returns is a proper rotation. -/
theorem C06_rotate_orthogonal (t : ℝ) (axis : String) (R : Mat3) (h : rotate t axis = .ok R) :
    R * R.transpose = 1 ∧ R.transpose * R = 1 ∧ R.det = 1 := by
  rcases rotate_cases t axis R h with rfl | rfl | rfl
  · exact rx_isRotation t
  · exact ry_isRotation t
  · exact rz_isRotation t

/-- C06: lengths are preserved. -/
theorem C06_rotate_preserves_length (t : ℝ) (axis : String) (R : Mat3)
    (h : rotate t axis = .ok R) (v : Fin 3 → ℝ) :
    (R *ᵥ v) ⬝ᵥ (R *ᵥ v) = v ⬝ᵥ v := by
  have ho := (C06_rotate_orthogonal t axis R h).2.1
  rw [dotProduct_mulVec, vecMul_mulVec, ho]
  simp

/-- C06: successive rotations about one axis add their angles. -/
theorem C06_rotate_add (s t : ℝ) (axis : String) (A B : Mat3)
    (hA : rotate s axis = .ok A) (hB : rotate t axis = .ok B) :
    rotate (s + t) axis = .ok (A * B) := by
  unfold rotate at *
  split_ifs at * <;> simp only [Except.ok.injEq, reduceCtorEq] at * <;> subst hA <;> subst hB <;>
    · ext i j
      fin_cases i <;> fin_cases j <;>
        simp [Matrix.mul_apply, Fin.sum_univ_three, cos_add, sin_add] <;> ring

/-- C06: rotating by an angle and then by its opposite is the identity. -/
theorem C06_rotate_neg (t : ℝ) (axis : String) (A B : Mat3)
    (hA : rotate t axis = .ok A) (hB : rotate (-t) axis = .ok B) : A * B = 1 := by
  have h := C06_rotate_add t (-t) axis A B hA hB
  rw [add_neg_cancel] at h
  unfold rotate at h
  split_ifs at h <;> simp only [Except.ok.injEq, reduceCtorEq] at h <;> rw [← h] <;>
    · ext i j
      fin_cases i <;> fin_cases j <;> simp

/-- C06: any other axis name is refused. -/
theorem C06_rotate_refuses (t : ℝ) (axis : String) :
    rotate t axis = .error .valueError ↔
      axis ∉ ["x", "X", "y", "Y", "z", "Z"] := by
  unfold rotate
  split_ifs with h1 h2 h3
  · simp; tauto
  · simp; tauto
  · simp; tauto
  · simp; tauto

/-- C06: the nutation matrix is three elementary rotations. -/
theorem C06_nutation_factors (mean true_ psi : ℝ) :
    ∃ A B C, rotate (-true_) "x" = .ok A ∧ rotate (-psi) "z" = .ok B ∧ rotate mean "x" = .ok C ∧
      nutationMatrix mean true_ psi = A * B * C := by
  refine ⟨_, _, _, rotate_x _, rotate_z _, rotate_x _, ?_⟩
  ext i j
  fin_cases i <;> fin_cases j <;>
    simp [nutationMatrix, rx, rz, Matrix.mul_apply, Fin.sum_univ_three] <;> ring

/-- C06: the nutation matrix is a proper rotation. -/
theorem C06_nutation_orthogonal (mean true_ psi : ℝ) :
    IsRotation (nutationMatrix mean true_ psi) := by
  obtain ⟨A, B, C, hA, hB, hC, h⟩ := C06_nutation_factors mean true_ psi
  rw [h]
  exact (IsRotation.mul (C06_rotate_orthogonal _ _ _ hA) (C06_rotate_orthogonal _ _ _ hB)).mul
    (C06_rotate_orthogonal _ _ _ hC)

/-- C06: without nutation the matrix is the identity. -/
theorem C06_nutation_zero (mean : ℝ) : nutationMatrix mean mean 0 = 1 := by
  have h := sin_sq_add_cos_sq mean
  ext i j
  fin_cases i <;> fin_cases j <;> simp [nutationMatrix] <;> nlinarith

/-- C06: the precession matrix is the product of the four classical rotations. -/
theorem C06_precession_factors (CHI PSI OMEGA EPS : ℝ) :
    ∃ A B C D, rotate CHI "z" = .ok A ∧ rotate (-OMEGA) "x" = .ok B ∧ rotate (-PSI) "z" = .ok C ∧
      rotate EPS "x" = .ok D ∧ precessionOfAngles CHI PSI OMEGA EPS = A * B * C * D := by
  refine ⟨_, _, _, _, rotate_z _, rotate_x _, rotate_z _, rotate_x _, ?_⟩
  ext i j
  fin_cases i <;> fin_cases j <;>
    simp [precessionOfAngles, rx, rz, Matrix.mul_apply, Fin.sum_univ_three] <;> ring

/-- C06: the precession matrix is a proper rotation at every time. -/
theorem C06_precession_orthogonal (T : ℝ) : IsRotation (precessionMatrix T) := by
  unfold precessionMatrix
  obtain ⟨A, B, C, D, hA, hB, hC, hD, h⟩ := C06_precession_factors _ _ _ _
  rw [h]
  exact ((IsRotation.mul (C06_rotate_orthogonal _ _ _ hA) (C06_rotate_orthogonal _ _ _ hB)).mul
    (C06_rotate_orthogonal _ _ _ hC)).mul (C06_rotate_orthogonal _ _ _ hD)

/-- C06: at the reference epoch the precession matrix is the identity. -/
theorem C06_precession_epoch : precessionMatrix 0 = 1 := by
  have h := sin_sq_add_cos_sq (84381.406 * (π / 648000))
  unfold precessionMatrix
  simp only [polynomialSum]
  ext i j
  have e : π / 648000 * 84381.406 = 84381.406 * (π / 648000) := mul_comm _ _
  fin_cases i <;> fin_cases j <;> simp [precessionOfAngles, e] <;> nlinarith

/-- C06: the polar motion matrix never raises and is a proper rotation. -/
theorem C06_polar_motion_orthogonal (px py T : ℝ) :
    ∃ R, polarMotionMatrix px py T = .ok R ∧ IsRotation R := by
  refine ⟨rx (py * (π / 648000)) * ry (px * (π / 648000)) *
    rz (-(-4.7e-5 * T) * (π / 648000)), ?_, ?_⟩
  · unfold polarMotionMatrix
    simp only [rotate_x, rotate_y, rotate_z]
    rfl
  · exact (IsRotation.mul (rx_isRotation _) (ry_isRotation _)).mul (rz_isRotation _)

/-- C06 is false for the frame bias matrix, which is a second-order approximation: its first
row does not have unit length. -/
theorem C06_frame_bias_orthogonal_false : ¬ IsRotation frameBiasMatrix := by
  intro h
  have h00 := congrFun (congrFun h.1 0) 0
  simp [frameBiasMatrix, frameBiasOfAngles, Matrix.mul_apply, Fin.sum_univ_three] at h00
  have hpi : 0 < π := pi_pos
  ring_nf at h00
  have : 0 < π ^ 4 := by positivity
  nlinarith

/-- Products of numbers bounded by `ε`. -/
theorem abs_mul_le_sq {a b ε : ℝ} (ha : |a| ≤ ε) (hb : |b| ≤ ε) : |a * b| ≤ ε ^ 2 := by
  rw [abs_mul, sq]
  exact mul_le_mul ha hb (abs_nonneg _) (le_trans (abs_nonneg _) ha)

/-- C06 for the frame bias matrix up to second order: if the bias angles are at most `ε ≤ 1`
then `B Bᵀ` differs from the identity by at most `2 ε²` in each entry. -/
theorem C06_frame_bias_near_orthogonal_partial (xi0 eta0 da0 ε : ℝ) (h1 : |xi0| ≤ ε)
    (h2 : |eta0| ≤ ε) (h3 : |da0| ≤ ε) (hε : ε ≤ 1) (i j : Fin 3) :
    |(frameBiasOfAngles xi0 eta0 da0 * (frameBiasOfAngles xi0 eta0 da0).transpose) i j
      - (1 : Mat3) i j| ≤ 2 * ε ^ 2 := by
  have h0 : 0 ≤ ε := le_trans (abs_nonneg _) h1
  have sq_le : ∀ a : ℝ, |a| ≤ ε → a ^ 2 ≤ ε ^ 2 := fun a ha => by
    rw [← sq_abs]; exact pow_le_pow_left₀ (abs_nonneg _) ha 2
  have hε2 : ε ^ 2 ≤ 1 := pow_le_one₀ h0 hε
  have hx := sq_le _ h1
  have he := sq_le _ h2
  have hd := sq_le _ h3
  have diag : ∀ a b : ℝ, a ^ 2 ≤ ε ^ 2 → b ^ 2 ≤ ε ^ 2 →
      |((a ^ 2 + b ^ 2) / 2) ^ 2| ≤ 2 * ε ^ 2 := by
    intro a b ha hb
    have p : 0 ≤ (a ^ 2 + b ^ 2) / 2 := by positivity
    have q : (a ^ 2 + b ^ 2) / 2 ≤ ε ^ 2 := by linarith
    rw [abs_of_nonneg (by positivity)]
    nlinarith
  have off : ∀ a b c : ℝ, |a| ≤ ε → |b| ≤ ε → |c| ≤ ε → |a * (b ^ 2 - c ^ 2) / 2 + b * c|
      ≤ 2 * ε ^ 2 := by
    intro a b c ha hb hc
    have p := abs_mul_le_sq hb hc
    have q : |a * (b ^ 2 - c ^ 2) / 2| ≤ ε ^ 2 := by
      have r : |b ^ 2 - c ^ 2| ≤ ε ^ 2 := by
        rw [abs_le]
        have := sq_le _ hb
        have := sq_le _ hc
        constructor <;> nlinarith [sq_nonneg b, sq_nonneg c]
      have : |a * (b ^ 2 - c ^ 2) / 2| = |a| * |b ^ 2 - c ^ 2| / 2 := by
        rw [abs_div, abs_mul]; norm_num
      rw [this]
      have := mul_le_mul ha r (abs_nonneg _) h0
      nlinarith [sq_nonneg ε]
    calc _ ≤ |a * (b ^ 2 - c ^ 2) / 2| + |b * c| := abs_add_le _ _
      _ ≤ _ := by linarith
  fin_cases i <;> fin_cases j <;>
    simp [frameBiasOfAngles, Matrix.mul_apply, Fin.sum_univ_three]
  · convert diag da0 xi0 hd hx using 2; ring
  · convert off da0 xi0 eta0 h3 h1 h2 using 2; ring
  · convert off (-xi0) da0 eta0 (by simpa using h1) h3 h2 using 2; ring
  · convert off da0 xi0 eta0 h3 h1 h2 using 2; ring
  · convert diag da0 eta0 hd he using 2; ring
  · convert off (-eta0) da0 (-xi0) (by simpa using h2) h3 (by simpa using h1) using 2; ring
  · convert off (-xi0) da0 eta0 (by simpa using h1) h3 h2 using 2; ring
  · convert off (-eta0) da0 (-xi0) (by simpa using h2) h3 (by simpa using h1) using 2; ring
  · convert diag eta0 xi0 he hx using 2; ring

/-- The actual bias angles are below `1.1e-7` radians, so the error is below `3e-14`. -/
theorem C06_frame_bias_error_partial (i j : Fin 3) :
    |(frameBiasMatrix * frameBiasMatrix.transpose) i j - (1 : Mat3) i j| ≤ 3e-14 := by
  have hp := pi_lt_four
  have hp0 := pi_pos
  have b : ∀ c : ℝ, |c| ≤ 0.0166170 → |-c * (π / 648000)| ≤ 1.1e-7 := by
    intro c hc
    rw [abs_mul, abs_neg, abs_of_pos (by positivity : 0 < π / 648000)]
    have : |c| * (π / 648000) ≤ 0.0166170 * (4 / 648000) :=
      mul_le_mul hc (by linarith) (by positivity) (by norm_num)
    norm_num at *
    linarith
  have := C06_frame_bias_near_orthogonal_partial (-0.0166170 * (π / 648000))
    (-0.0068192 * (π / 648000)) (-0.01460 * (π / 648000)) 1.1e-7
    (b _ (by norm_num)) (b _ (by norm_num)) (b _ (by norm_num)) (by norm_num) i j
  refine le_trans this ?_
  norm_num

example : rotate (π / 2) "Y" = .ok (ry (π / 2)) := by simp [rotate, ry]

end Verif.Math
