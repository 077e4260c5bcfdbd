import Verif.Lemmas.TrigPoly
import Verif.Lemmas.NodalFes
/-!
# The spherical triangle of the FES corrections as sums of unit numbers
-/
namespace Verif.Nodal
open Real Spec.Minor

/-- The half angles of the triangle, `c` the ratio of Napier's analogy. -/
theorem napier (c h : ℝ) (hh : cos h ≠ 0) :
    Complex.exp (((h - arctan (c * tan h) : ℝ) : ℂ) * Complex.I) *
      ((cos h * sqrt (1 + (c * tan h) ^ 2) : ℝ) : ℂ) =
      (((1 + c) / 2 : ℝ) : ℂ) + (((1 - c) / 2 : ℝ) : ℂ) * Complex.exp (((2 * h : ℝ) : ℂ) * Complex.I) := by
  have hs : 0 < sqrt (1 + (c * tan h) ^ 2) := sqrt_pos.2 (by positivity)
  have h1 : cos (arctan (c * tan h)) * sqrt (1 + (c * tan h) ^ 2) = 1 := by
    rw [cos_arctan]
    field_simp
  have h2 : sin (arctan (c * tan h)) * sqrt (1 + (c * tan h) ^ 2) = c * tan h := by
    rw [sin_arctan]
    field_simp
  have h3 : tan h * cos h = sin h := tan_mul_cos hh
  have h4 := sin_sq_add_cos_sq h
  rw [Complex.exp_mul_I, Complex.exp_mul_I, ← Complex.ofReal_cos, ← Complex.ofReal_sin, ← Complex.ofReal_cos,
    ← Complex.ofReal_sin]
  generalize arctan (c * tan h) = α at h1 h2
  generalize sqrt (1 + (c * tan h) ^ 2) = r at h1 h2 hs
  generalize tan h = t at h1 h2 h3
  apply Complex.ext
  · simp only [Complex.mul_re, Complex.add_re, Complex.add_im, Complex.ofReal_re, Complex.ofReal_im,
      Complex.mul_im, Complex.I_re, Complex.I_im]
    rw [cos_sub, cos_two_mul]
    linear_combination (cos h) ^ 2 * h1 + cos h * sin h * h2 + c * sin h * h3 + ((1 + c) / 2 + (c - 1) / 2) * h4
  · simp only [Complex.mul_re, Complex.add_re, Complex.add_im, Complex.ofReal_re, Complex.ofReal_im,
      Complex.mul_im, Complex.I_re, Complex.I_im]
    rw [sin_sub, sin_two_mul]
    linear_combination (sin h) * (cos h) * h1 - cos h ^ 2 * h2 - c * cos h * h3

/-- The two sums. -/
def polyA : Poly := [(0, 0, (1 + 1.01883) / 2), (1, 0, (1 - 1.01883) / 2)]
def polyB : Poly := [(0, 0, (1 + 0.64412) / 2), (1, 0, (1 - 0.64412) / 2)]

theorem val_pair (c : ℚ) (n p : ℝ) : Poly.val [(0, 0, (1 + c) / 2), (1, 0, (1 - c) / 2)] n p =
    (((1 + c) / 2 : ℝ) : ℂ) + (((1 - c) / 2 : ℝ) : ℂ) *
      Complex.exp (((2 * (n * dtr / 2) : ℝ) : ℂ) * Complex.I) := by
  rw [val_cons, val_cons, val_nil, unit_zero, unit]
  rw [show (((1 : ℤ) : ℝ) * n + ((0 : ℤ) : ℝ) * p) * dtr = 2 * (n * dtr / 2) by push_cast; ring]
  push_cast
  ring

theorem norm_pair (c : ℚ) (n p : ℝ) : ‖Poly.val [(0, 0, (1 + c) / 2), (1, 0, (1 - c) / 2)] n p‖ ^ 2 =
    (1 + c ^ 2) / 2 + (1 - c ^ 2) / 2 * cos (n * dtr) := by
  rw [val_pair, Complex.exp_mul_I, ← Complex.ofReal_cos, ← Complex.ofReal_sin, Complex.sq_norm,
    Complex.normSq_apply, show 2 * (n * dtr / 2) = n * dtr by ring]
  simp only [Complex.mul_re, Complex.add_re, Complex.add_im, Complex.ofReal_re, Complex.ofReal_im,
      Complex.mul_im, Complex.I_re, Complex.I_im]
  have := sin_sq_add_cos_sq (n * dtr)
  linear_combination ((1 - (c : ℝ)) / 2) ^ 2 * this

/-- The directions of the triangle. -/
theorem directions (n p : ℝ) (h : cos (n * dtr / 2) ≠ 0) : ∃ U V : ℂ,
    U * (‖polyA.val n p‖ : ℂ) = polyA.val n p ∧ V * (‖polyB.val n p‖ : ℂ) = polyB.val n p ∧
    ‖U‖ = 1 ∧ ‖V‖ = 1 ∧ Complex.exp ((xi n : ℂ) * Complex.I) = U * V ∧
    Complex.exp ((nu n : ℂ) * Complex.I) = (starRingEnd ℂ) U * V := by
  have hA := napier 1.01883 (n * dtr / 2) h
  have hB := napier 0.64412 (n * dtr / 2) h
  have eA : polyA.val n p = _ := val_pair 1.01883 n p
  have eB : polyB.val n p = _ := val_pair 0.64412 n p
  simp only [Rat.cast_ofScientific] at eA eB
  rw [← eA] at hA
  rw [← eB] at hB
  rw [show arctan (1.01883 * tan (n * dtr / 2)) = at1 n from rfl] at hA
  rw [show arctan (0.64412 * tan (n * dtr / 2)) = at2 n from rfl] at hB
  have hxi : Complex.exp ((xi n : ℂ) * Complex.I) =
      Complex.exp (((-at1 n - at2 n + n * dtr : ℝ) : ℂ) * Complex.I) := by
    unfold xi arctan2
    generalize -at1 n - at2 n + n * dtr = y
    have := Complex.norm_mul_exp_arg_mul_I (⟨cos y, sin y⟩ : ℂ)
    have hn : ‖(⟨cos y, sin y⟩ : ℂ)‖ = 1 := by
      rw [Complex.norm_def, Complex.normSq_mk, ← sq, ← sq, cos_sq_add_sin_sq, sqrt_one]
    rw [hn, Complex.ofReal_one, one_mul] at this
    rw [this, Complex.exp_mul_I, ← Complex.ofReal_cos, ← Complex.ofReal_sin]
    apply Complex.ext <;> simp only [Complex.mul_re, Complex.add_re, Complex.add_im, Complex.ofReal_re,
      Complex.ofReal_im, Complex.mul_im, Complex.I_re, Complex.I_im] <;> ring
  obtain ⟨σ, hσ, hc⟩ : ∃ σ : ℝ, σ * σ = 1 ∧ cos (n * dtr / 2) = σ * |cos (n * dtr / 2)| := by
    rcases lt_or_gt_of_ne h with h | h
    · exact ⟨-1, by norm_num, by rw [abs_of_neg h]; ring⟩
    · exact ⟨1, by norm_num, by rw [abs_of_pos h]; ring⟩
  have hσc : (σ : ℂ) * (σ : ℂ) = 1 := by exact_mod_cast hσ
  have hσn : ‖(σ : ℂ)‖ = 1 := by
    rw [Complex.norm_real, Real.norm_eq_abs]
    nlinarith [abs_nonneg σ, abs_mul_abs_self σ]
  have norms : ∀ (y r : ℝ) (z : ℂ), Complex.exp ((y : ℂ) * Complex.I) *
      ((cos (n * dtr / 2) * sqrt (1 + r ^ 2) : ℝ) : ℂ) = z →
      (σ : ℂ) * Complex.exp ((y : ℂ) * Complex.I) * (‖z‖ : ℂ) = z := by
    intro y r z hz
    have e : ‖z‖ = |cos (n * dtr / 2)| * sqrt (1 + r ^ 2) := by
      rw [← hz, norm_mul, Complex.norm_exp_ofReal_mul_I, one_mul, Complex.norm_real, Real.norm_eq_abs, abs_mul,
        abs_of_nonneg (sqrt_nonneg _)]
    rw [e]
    rw [hc] at hz
    rw [← hz]
    push_cast
    ring
  refine ⟨(σ : ℂ) * Complex.exp (((n * dtr / 2 - at1 n : ℝ) : ℂ) * Complex.I),
    (σ : ℂ) * Complex.exp (((n * dtr / 2 - at2 n : ℝ) : ℂ) * Complex.I), norms _ _ _ hA, norms _ _ _ hB,
    ?_, ?_, ?_, ?_⟩
  · rw [norm_mul, hσn, Complex.norm_exp_ofReal_mul_I, mul_one]
  · rw [norm_mul, hσn, Complex.norm_exp_ofReal_mul_I, mul_one]
  · rw [hxi, show (σ : ℂ) * Complex.exp (((n * dtr / 2 - at1 n : ℝ) : ℂ) * Complex.I) *
      ((σ : ℂ) * Complex.exp (((n * dtr / 2 - at2 n : ℝ) : ℂ) * Complex.I)) =
      ((σ : ℂ) * (σ : ℂ)) * (Complex.exp (((n * dtr / 2 - at1 n : ℝ) : ℂ) * Complex.I) *
        Complex.exp (((n * dtr / 2 - at2 n : ℝ) : ℂ) * Complex.I)) by ring, hσc, one_mul, ← Complex.exp_add]
    congr 1
    push_cast
    ring
  · rw [map_mul, ← Complex.exp_conj, map_mul, Complex.conj_ofReal, Complex.conj_ofReal, Complex.conj_I,
      show (σ : ℂ) * Complex.exp (((n * dtr / 2 - at1 n : ℝ) : ℂ) * -Complex.I) *
      ((σ : ℂ) * Complex.exp (((n * dtr / 2 - at2 n : ℝ) : ℂ) * Complex.I)) =
      ((σ : ℂ) * (σ : ℂ)) * (Complex.exp (((n * dtr / 2 - at1 n : ℝ) : ℂ) * -Complex.I) *
        Complex.exp (((n * dtr / 2 - at2 n : ℝ) : ℂ) * Complex.I)) by ring, hσc, one_mul, ← Complex.exp_add]
    congr 1
    unfold nu
    push_cast
    ring

/-- The ratio of a half angle to the sum belonging to it. -/
theorem ratio_near {X a : ℝ} (hX : 0 < X) (ha : 0 < a) {k d : ℝ} (hk : 0 < k)
    (h1 : (1 - d) * (k ^ 2 * a ^ 2) ≤ X ^ 2) (h2 : X ^ 2 ≤ (1 + d) * (k ^ 2 * a ^ 2)) :
    |X / (k * a) - 1| ≤ d := by
  have hka : 0 < k * a := mul_pos hk ha
  obtain ⟨r, hr⟩ : ∃ r, r = X / (k * a) := ⟨_, rfl⟩
  have hX' : X = r * (k * a) := by rw [hr]; field_simp
  have hr0 : 0 < r := by rw [hr]; positivity
  rw [← hr]
  have h3 : (1 - d) ≤ r ^ 2 := by
    rw [hX'] at h1
    have : (1 - d) * (k * a) ^ 2 ≤ r ^ 2 * (k * a) ^ 2 := by linarith [h1, mul_pow r (k * a) 2, mul_pow k a 2]
    exact le_of_mul_le_mul_right this (by positivity)
  have h4 : r ^ 2 ≤ (1 + d) := by
    rw [hX'] at h2
    have : r ^ 2 * (k * a) ^ 2 ≤ (1 + d) * (k * a) ^ 2 := by linarith [h2, mul_pow r (k * a) 2, mul_pow k a 2]
    exact le_of_mul_le_mul_right this (by positivity)
  rw [abs_le]
  constructor <;> nlinarith

theorem pow_near {r t : ℝ} (hr : |r - 1| ≤ 4e-5) (ht : |t - 1| ≤ 4e-5) {i j : ℕ} (hij : i + j ≤ 6) :
    |r ^ i * t ^ j - 1| ≤ 25e-5 := by
  rw [abs_le] at hr ht
  have r1 : 1 - 4e-5 ≤ r := by linarith
  have r2 : r ≤ 1 + 4e-5 := by linarith
  have t1 : 1 - 4e-5 ≤ t := by linarith
  have t2 : t ≤ 1 + 4e-5 := by linarith
  have r0 : 0 ≤ r := by linarith
  have t0 : 0 ≤ t := by linarith
  have u : r ^ i * t ^ j ≤ (1 + 4e-5) ^ 6 := by
    refine (mul_le_mul (pow_le_pow_left₀ r0 r2 i) (pow_le_pow_left₀ t0 t2 j) (by positivity) (by positivity)).trans ?_
    rw [← pow_add]
    exact pow_le_pow_right₀ (by norm_num) hij
  have l : (1 - 4e-5) ^ 6 ≤ r ^ i * t ^ j := by
    refine le_trans ?_ (mul_le_mul (pow_le_pow_left₀ (by norm_num) r1 i) (pow_le_pow_left₀ (by norm_num) t1 j)
      (pow_nonneg (by norm_num) _) (by positivity))
    rw [← pow_add]
    exact pow_le_pow_of_le_one (by norm_num) (by norm_num) hij
  rw [abs_le]
  constructor
  · refine le_trans ?_ (sub_le_sub_right l 1)
    norm_num
  · refine le_trans (sub_le_sub_right u 1) ?_
    norm_num

/-- Half angles and sums: `cos (I / 2) = r k |A|` and `sin (I / 2) = t l |B|` with `r` and `t` near one. -/
theorem halves (n p : ℝ) : ∃ r t : ℝ, |r - 1| ≤ 4e-5 ∧ |t - 1| ≤ 4e-5 ∧
    cos (II n / 2) = r * (0.96902 * ‖polyA.val n p‖) ∧ sin (II n / 2) = t * (0.2469754 * ‖polyB.val n p‖) := by
  have c1 := neg_one_le_cos (n * dtr)
  have c2 := cos_le_one (n * dtr)
  have hA : ‖polyA.val n p‖ ^ 2 = _ := norm_pair 1.01883 n p
  have hB : ‖polyB.val n p‖ ^ 2 = _ := norm_pair 0.64412 n p
  simp only [Rat.cast_ofScientific] at hA hB
  have hx := cos_half n
  have hy := sin_half n
  rw [cos_II] at hx hy
  have hI : 0 ≤ II n ∧ II n ≤ π := ⟨arccos_nonneg _, arccos_le_pi _⟩
  have X0 : 0 ≤ cos (II n / 2) := cos_nonneg_of_neg_pi_div_two_le_of_le (by linarith [hI.1, pi_pos]) (by linarith [hI.2])
  have Y0 : 0 ≤ sin (II n / 2) := sin_nonneg_of_nonneg_of_le_pi (by linarith [hI.1]) (by linarith [hI.2, pi_pos])
  have X1 : 0 < cos (II n / 2) := lt_of_le_of_ne X0 fun e => by rw [← e] at hx; norm_num at hx; linarith
  have Y1 : 0 < sin (II n / 2) := lt_of_le_of_ne Y0 fun e => by rw [← e] at hy; norm_num at hy; linarith
  have a1 : 0 < ‖polyA.val n p‖ := lt_of_le_of_ne (norm_nonneg _) fun e => by
    rw [← e] at hA; norm_num at hA; linarith
  have b1 : 0 < ‖polyB.val n p‖ := lt_of_le_of_ne (norm_nonneg _) fun e => by
    rw [← e] at hB; norm_num at hB; linarith
  refine ⟨cos (II n / 2) / (0.96902 * ‖polyA.val n p‖), sin (II n / 2) / (0.2469754 * ‖polyB.val n p‖),
    ratio_near X1 a1 (by norm_num) ?_ ?_, ratio_near Y1 b1 (by norm_num) ?_ ?_, ?_, ?_⟩
  · rw [hA, hx]; norm_num; linarith
  · rw [hA, hx]; norm_num; linarith
  · rw [hB, hy]; norm_num; linarith
  · rw [hB, hy]; norm_num; linarith
  · field_simp
  · field_simp

/-! ### The branches -/

/-- The cosine of the inclination. -/
def polyC : Poly := Poly.cosines [⟨-0.035692561, 1, 0⟩] ++ [(0, 0, 0.913694997)]

theorem val_C (n p : ℝ) : polyC.val n p = (cos (II n) : ℂ) := by
  have e : cosSum [⟨-0.035692561, 1, 0⟩] n p = -0.035692561 * cos (n * dtr) := by
    simp [cosSum]
  rw [polyC, val_append, val_cosines, val_cons, val_nil, unit_zero, cos_II, e, ← Complex.ofReal_ratCast,
    Rat.cast_ofScientific]
  push_cast
  ring

/-- Coefficient and sum of the branches that are monomials of the half angles. -/
def FesKind.monomial : FesKind → Option (ℚ × Poly)
  | .mf => some (4 * 0.96902 ^ 2 * 0.2469754 ^ 2 / 0.1578,
      (polyA.conj.mul polyA.conj).mul (polyB.conj.mul polyB.conj))
  | .o1 => some (2 * 0.96902 ^ 3 * 0.2469754 / 0.38, (polyA.mul polyA).mul (polyA.mul polyB))
  | .j1 => some (4 * 0.96902 * 0.2469754 / 0.7214, polyC.mul (polyA.mul polyB.conj))
  | .oo1 => some (2 * 0.96902 * 0.2469754 ^ 3 / 0.01640,
      (polyB.conj.mul polyB.conj).mul (polyB.conj.mul polyA.conj))
  | .m2 => some (0.96902 ^ 4 / 0.9154, (polyA.mul polyA).mul (polyA.mul polyA))
  | .eta2 => some (4 * 0.96902 ^ 2 * 0.2469754 ^ 2 / 0.1565, (polyA.mul polyA).mul (polyB.conj.mul polyB.conj))
  | .m3 => some (0.96902 ^ 6 / 0.8758, ((polyA.mul polyA).mul (polyA.mul polyA)).mul (polyA.mul polyA))
  | _ => none

theorem monomial_near (k : FesKind) {q : ℚ} {P : Poly} (h : k.monomial = some (q, P)) (n p : ℝ)
    (hn : cos (n * dtr / 2) ≠ 0) :
    ∃ g : ℝ, |g - 1| ≤ 25e-5 ∧ phasor (k.eval n p) = (g : ℂ) * (P.scale q).val n p := by
  obtain ⟨U, V, hA, hB, hU, hV, hxi, hnu⟩ := directions n p hn
  obtain ⟨r, t, hr, ht, hX, hY⟩ := halves n p
  have hUU : (starRingEnd ℂ) U * U = 1 := by rw [Complex.conj_mul', hU]; simp
  have hVV : (starRingEnd ℂ) V * V = 1 := by rw [Complex.conj_mul', hV]; simp
  have hxi' : Complex.exp (-((xi n : ℂ) * Complex.I)) = (starRingEnd ℂ) U * (starRingEnd ℂ) V := by
    rw [Complex.exp_neg, hxi]
    exact inv_eq_of_mul_eq_one_right (by linear_combination hUU * ((starRingEnd ℂ) V * V) + hVV)
  have hnu' : Complex.exp (-((nu n : ℂ) * Complex.I)) = U * (starRingEnd ℂ) V := by
    rw [Complex.exp_neg, hnu]
    exact inv_eq_of_mul_eq_one_right (by linear_combination hUU * ((starRingEnd ℂ) V * V) + hVV)
  have hs : sin (II n) = 2 * sin (II n / 2) * cos (II n / 2) := by
    rw [← sin_two_mul]; congr 1; ring
  have hs2 : sin (2 * II n) = 2 * sin (II n) * cos (II n) := sin_two_mul _
  generalize ‖polyA.val n p‖ = a at *
  generalize ‖polyB.val n p‖ = b at *
  clear hnu
  cases k <;> simp only [FesKind.monomial, Option.some.injEq, Prod.mk.injEq, reduceCtorEq] at h
  · -- mf
    obtain ⟨rfl, rfl⟩ := h
    refine ⟨r ^ 2 * t ^ 2, pow_near hr ht (by norm_num), ?_⟩
    have e : Complex.exp (((-2 * xi n : ℝ) : ℂ) * Complex.I) =
        Complex.exp (-((xi n : ℂ) * Complex.I)) ^ 2 := by
      simp only [← Complex.exp_nat_mul, ← Complex.exp_add]
      congr 1
      push_cast
      ring
    simp only [phasor, FesKind.eval]
    rw [e, hxi', hs, hX, hY, val_scale]
    simp only [val_mul, val_conj, ← hA, ← hB, map_mul, Complex.conj_ofReal]
    push_cast
    ring
  · -- o1
    obtain ⟨rfl, rfl⟩ := h
    refine ⟨r ^ 3 * t ^ 1, pow_near hr ht (by norm_num), ?_⟩
    have e : Complex.exp (((2 * xi n - nu n : ℝ) : ℂ) * Complex.I) =
        Complex.exp ((xi n : ℂ) * Complex.I) ^ 2 *
        Complex.exp (-((nu n : ℂ) * Complex.I)) := by
      simp only [← Complex.exp_nat_mul, ← Complex.exp_add]
      congr 1
      push_cast
      ring
    simp only [phasor, FesKind.eval]
    rw [e, hxi, hnu', hs, hX, hY, val_scale]
    simp only [val_mul, val_conj, ← hA, ← hB, map_mul, Complex.conj_ofReal]
    push_cast
    linear_combination (2 * r ^ 3 * t * 0.96902 ^ 3 * 0.2469754 / 0.38 * a ^ 3 * b * U ^ 3 * V : ℂ) * hVV
  · -- j1
    obtain ⟨rfl, rfl⟩ := h
    refine ⟨r ^ 1 * t ^ 1, pow_near hr ht (by norm_num), ?_⟩
    have e : Complex.exp (((-nu n : ℝ) : ℂ) * Complex.I) =
        Complex.exp (-((nu n : ℂ) * Complex.I)) := by
      congr 1
      push_cast
      ring
    simp only [phasor, FesKind.eval]
    rw [e, hnu', hs2, hs, hX, hY, val_scale]
    simp only [val_mul, val_conj, ← hA, ← hB, map_mul, Complex.conj_ofReal, val_C]
    push_cast
    ring
  · -- oo1
    obtain ⟨rfl, rfl⟩ := h
    refine ⟨r ^ 1 * t ^ 3, pow_near hr ht (by norm_num), ?_⟩
    have e : Complex.exp (((-2 * xi n - nu n : ℝ) : ℂ) * Complex.I) =
        Complex.exp (-((xi n : ℂ) * Complex.I)) ^ 2 *
        Complex.exp (-((nu n : ℂ) * Complex.I)) := by
      simp only [← Complex.exp_nat_mul, ← Complex.exp_add]
      congr 1
      push_cast
      ring
    simp only [phasor, FesKind.eval]
    rw [e, hxi', hnu', hs, hX, hY, val_scale]
    simp only [val_mul, val_conj, ← hA, ← hB, map_mul, Complex.conj_ofReal]
    push_cast
    linear_combination (2 * r * t ^ 3 * 0.96902 * 0.2469754 ^ 3 / 0.01640 * a * b ^ 3 * (starRingEnd ℂ) U * (starRingEnd ℂ) V ^ 3 : ℂ) * hUU
  · -- m2
    obtain ⟨rfl, rfl⟩ := h
    refine ⟨r ^ 4 * t ^ 0, pow_near hr ht (by norm_num), ?_⟩
    have e : Complex.exp (((2 * xi n - 2 * nu n : ℝ) : ℂ) * Complex.I) =
        Complex.exp ((xi n : ℂ) * Complex.I) ^ 2 *
        Complex.exp (-((nu n : ℂ) * Complex.I)) ^ 2 := by
      simp only [← Complex.exp_nat_mul, ← Complex.exp_add]
      congr 1
      push_cast
      ring
    simp only [phasor, FesKind.eval]
    rw [e, hxi, hnu', hX, val_scale]
    simp only [val_mul, val_conj, ← hA, ← hB, map_mul, Complex.conj_ofReal]
    push_cast
    linear_combination (r ^ 4 * 0.96902 ^ 4 / 0.9154 * a ^ 4 * U ^ 4 : ℂ) * ((starRingEnd ℂ) V * V + 1) * hVV
  · -- eta2
    obtain ⟨rfl, rfl⟩ := h
    refine ⟨r ^ 2 * t ^ 2, pow_near hr ht (by norm_num), ?_⟩
    have e : Complex.exp (((-2 * nu n : ℝ) : ℂ) * Complex.I) =
        Complex.exp (-((nu n : ℂ) * Complex.I)) ^ 2 := by
      simp only [← Complex.exp_nat_mul, ← Complex.exp_add]
      congr 1
      push_cast
      ring
    simp only [phasor, FesKind.eval]
    rw [e, hnu', hs, hX, hY, val_scale]
    simp only [val_mul, val_conj, ← hA, ← hB, map_mul, Complex.conj_ofReal]
    push_cast
    ring
  · -- m3
    obtain ⟨rfl, rfl⟩ := h
    refine ⟨r ^ 6 * t ^ 0, pow_near hr ht (by norm_num), ?_⟩
    have e : Complex.exp (((3 * xi n - 3 * nu n : ℝ) : ℂ) * Complex.I) =
        Complex.exp ((xi n : ℂ) * Complex.I) ^ 3 *
        Complex.exp (-((nu n : ℂ) * Complex.I)) ^ 3 := by
      simp only [← Complex.exp_nat_mul, ← Complex.exp_add]
      congr 1
      push_cast
      ring
    simp only [phasor, FesKind.eval]
    rw [e, hxi, hnu', hX, val_scale]
    simp only [val_mul, val_conj, ← hA, ← hB, map_mul, Complex.conj_ofReal]
    push_cast
    linear_combination (r ^ 6 * 0.96902 ^ 6 / 0.8758 * a ^ 6 * U ^ 6 : ℂ) * (((starRingEnd ℂ) V * V) ^ 2 + (starRingEnd ℂ) V * V + 1) * hVV

/-- Factor and angle from a tangent, against a multiple of the number with that tangent. -/
theorem tangent_near {x y f r : ℝ} (hx : 0 < x) :
    ‖phasor (-arctan (y / x), f) - (r : ℂ) * (starRingEnd ℂ) ⟨x, y⟩‖ = |f - r * ‖(⟨x, y⟩ : ℂ)‖| := by
  rw [arctan_arg hx]
  have h := Complex.norm_mul_exp_arg_mul_I (⟨x, y⟩ : ℂ)
  obtain ⟨z, hz⟩ : ∃ z : ℂ, z = ⟨x, y⟩ := ⟨_, rfl⟩
  rw [← hz] at h ⊢
  have h2 : (starRingEnd ℂ) z = (‖z‖ : ℂ) * Complex.exp (((-Complex.arg z : ℝ) : ℂ) * Complex.I) := by
    conv_lhs => rw [← h]
    rw [map_mul, Complex.conj_ofReal, ← Complex.exp_conj, map_mul, Complex.conj_ofReal, Complex.conj_I]
    congr 2
    push_cast
    ring
  have h3 : phasor (-Complex.arg z, f) - (r : ℂ) * (starRingEnd ℂ) z =
      ((f - r * ‖z‖ : ℝ) : ℂ) * Complex.exp (((-Complex.arg z : ℝ) : ℂ) * Complex.I) := by
    rw [h2]
    unfold phasor
    push_cast
    ring
  rw [h3, norm_mul, Complex.norm_exp_ofReal_mul_I, mul_one, Complex.norm_real, Real.norm_eq_abs]

/-- Two positive numbers with squares near each other. -/
theorem near_of_sq {f g d m : ℝ} (hm : 0 < m) (hfg : m ≤ f + g) (h : |f ^ 2 - g ^ 2| ≤ d * m) : |f - g| ≤ d := by
  have e : |f ^ 2 - g ^ 2| = |f - g| * (f + g) := by
    rw [show f ^ 2 - g ^ 2 = (f - g) * (f + g) by ring, abs_mul, abs_of_pos (lt_of_lt_of_le hm hfg)]
  rw [e] at h
  refine le_of_mul_le_mul_right ?_ hm
  exact (mul_le_mul_of_nonneg_left hfg (abs_nonneg _)).trans h

theorem vec_conj (S v x : ℝ) : (starRingEnd ℂ) (⟨S * cos v + x, S * sin v⟩ : ℂ) =
    (S : ℂ) * Complex.exp (((-v : ℝ) : ℂ) * Complex.I) + (x : ℂ) := by
  rw [Complex.exp_mul_I, ← Complex.ofReal_cos, ← Complex.ofReal_sin, cos_neg, sin_neg]
  apply Complex.ext <;> simp only [Complex.conj_re, Complex.conj_im, Complex.mul_re, Complex.add_re,
    Complex.add_im, Complex.ofReal_re, Complex.ofReal_im, Complex.mul_im, Complex.I_re, Complex.I_im] <;> ring

theorem k1_near (n p : ℝ) : ‖phasor (FesKind.k1.eval n p) -
    ((0.946837 : ℝ) : ℂ) * ((sin (2 * II n) : ℂ) * Complex.exp (((-nu n : ℝ) : ℂ) * Complex.I) +
      ((0.3347 : ℝ) : ℂ))‖ ≤ 3e-4 := by
  obtain ⟨hc, hc2⟩ := cos_nu n
  obtain ⟨l, u⟩ := fes_j1 n p
  obtain ⟨lf, _⟩ := fes_k1 n p
  have hf : (FesKind.k1.eval n p).2 ^ 2 =
      0.8965 * sin (2 * II n) ^ 2 + 0.6001 * sin (2 * II n) * cos (nu n) + 0.1006 := by
    simp only [FesKind.eval]
    refine sq_sqrt ?_
    simp only [FesKind.eval] at l
    have : 0 ≤ sin (2 * II n) := by linarith [(le_div_iff₀ (by norm_num : (0 : ℝ) < 0.7214)).1 l]
    positivity
  simp only [FesKind.eval] at l u
  have hs0 : 0 ≤ sin (2 * II n) := by linarith [(le_div_iff₀ (by norm_num : (0 : ℝ) < 0.7214)).1 l]
  have hs1 : sin (2 * II n) ≤ 1 := sin_le_one _
  have hc1 := cos_le_one (nu n)
  have hsc := sin_sq_add_cos_sq (nu n)
  have hx : 0 < sin (2 * II n) * cos (nu n) + 0.3347 := by positivity
  have hz : ‖(⟨sin (2 * II n) * cos (nu n) + 0.3347, sin (2 * II n) * sin (nu n)⟩ : ℂ)‖ ^ 2 =
      sin (2 * II n) ^ 2 + 0.6694 * sin (2 * II n) * cos (nu n) + 0.11202409 := by
    rw [Complex.sq_norm, Complex.normSq_mk]
    linear_combination sin (2 * II n) ^ 2 * hsc
  rw [← vec_conj, show FesKind.k1.eval n p = (-arctan (sin (2 * II n) * sin (nu n) /
    (sin (2 * II n) * cos (nu n) + 0.3347)), (FesKind.k1.eval n p).2) from rfl, tangent_near hx]
  refine near_of_sq (m := 0.86) (by norm_num) ?_ ?_
  · have := norm_nonneg (⟨sin (2 * II n) * cos (nu n) + 0.3347, sin (2 * II n) * sin (nu n)⟩ : ℂ)
    linarith
  · rw [mul_pow, hz, hf]
    have h1 : 0 ≤ sin (2 * II n) * cos (nu n) := by positivity
    have h2 : sin (2 * II n) * cos (nu n) ≤ 1 := by nlinarith
    have h3 : sin (2 * II n) ^ 2 ≤ 1 := by nlinarith
    rw [abs_le]
    constructor <;> nlinarith [sq_nonneg (sin (2 * II n))]

theorem k2_near (n p : ℝ) : ‖phasor (FesKind.k2.eval n p) -
    ((4.364 : ℝ) : ℂ) * (((sin (II n) ^ 2 : ℝ) : ℂ) * Complex.exp (((-(2 * nu n) : ℝ) : ℂ) * Complex.I) +
      ((0.0727 : ℝ) : ℂ))‖ ≤ 41e-4 := by
  obtain ⟨hc, hc1⟩ := cos_two_nu n
  obtain ⟨l, u⟩ := fes_mf n p
  obtain ⟨lf, _⟩ := fes_k2 n p
  simp only [FesKind.eval] at l u
  have hs0 : 0 ≤ sin (II n) ^ 2 := sq_nonneg _
  have hs1 : sin (II n) ^ 2 ≤ 0.2304 := by linarith [(div_le_iff₀ (by norm_num : (0 : ℝ) < 0.1578)).1 u]
  have hc0 : 0 ≤ cos (2 * nu n) := by linarith
  have hf : (FesKind.k2.eval n p).2 ^ 2 =
      19.0444 * sin (II n) ^ 4 + 2.7702 * sin (II n) ^ 2 * cos (2 * nu n) + 0.0981 := by
    simp only [FesKind.eval]
    exact sq_sqrt (by positivity)
  have hsc := sin_sq_add_cos_sq (2 * nu n)
  have hx : 0 < sin (II n) ^ 2 * cos (2 * nu n) + 0.0727 := by positivity
  have hz : ‖(⟨sin (II n) ^ 2 * cos (2 * nu n) + 0.0727, sin (II n) ^ 2 * sin (2 * nu n)⟩ : ℂ)‖ ^ 2 =
      sin (II n) ^ 4 + 0.1454 * sin (II n) ^ 2 * cos (2 * nu n) + 0.00528529 := by
    rw [Complex.sq_norm, Complex.normSq_mk]
    linear_combination sin (II n) ^ 4 * hsc
  rw [← vec_conj, show FesKind.k2.eval n p = (-arctan (sin (II n) ^ 2 * sin (2 * nu n) /
    (sin (II n) ^ 2 * cos (2 * nu n) + 0.0727)), (FesKind.k2.eval n p).2) from
      Prod.ext (by simp only [FesKind.eval, nuSec]; ring) rfl, tangent_near hx]
  refine near_of_sq (m := 0.72) (by norm_num) ?_ ?_
  · have := norm_nonneg (⟨sin (II n) ^ 2 * cos (2 * nu n) + 0.0727, sin (II n) ^ 2 * sin (2 * nu n)⟩ : ℂ)
    linarith
  · rw [mul_pow, hz, hf]
    have h1 : 0 ≤ sin (II n) ^ 2 * cos (2 * nu n) := by positivity
    have h2 : sin (II n) ^ 2 * cos (2 * nu n) ≤ 0.2304 := by nlinarith
    have h4 : sin (II n) ^ 4 = (sin (II n) ^ 2) ^ 2 := by ring
    have h3 : sin (II n) ^ 4 ≤ 1 := by rw [h4]; nlinarith
    have h5 : 0 ≤ sin (II n) ^ 4 := by positivity
    rw [abs_le]
    constructor <;> nlinarith

/-- A sum near the modulation of a branch, and how near it is. -/
def FesKind.approx : FesKind → Option (Poly × ℚ)
  | .mm => some ((Poly.collect ((0, 0, -1 / 3) :: polyC.mul polyC)).scale (1 / 0.5021), 0)
  | .msf => some (((polyA.mul polyA).mul (polyA.mul polyA)).mul
      ((0, 0, 0.9631) :: Poly.cosines [⟨0.0359, 1, 0⟩]), 2e-3)
  | .k1 =>
    let P := (polyC.mul (polyA.mul polyB.conj)).scale (4 * 0.96902 * 0.2469754)
    some ((Poly.collect ((0, 0, 0.3347) :: P)).scale 0.946837, 0.946837 * (P.size * 25e-5) + 3e-4)
  | .k2 =>
    let P := ((polyA.mul polyA).mul (polyB.conj.mul polyB.conj)).scale (4 * 0.96902 ^ 2 * 0.2469754 ^ 2)
    some ((Poly.collect ((0, 0, 0.0727) :: P)).scale 4.364, 4.364 * (P.size * 25e-5) + 41e-4)
  | .l2 => none
  | k => k.monomial.map fun m => (m.2.scale m.1, (m.2.scale m.1).size * 25e-5)

theorem sub_one_near {g : ℝ} {P : Poly} (hg : |g - 1| ≤ 25e-5) (n p : ℝ) :
    ‖(g : ℂ) * P.val n p - P.val n p‖ ≤ ((P.size * 25e-5 : ℚ) : ℝ) := by
  rw [← sub_one_mul, norm_mul, mul_comm]
  have e : ‖(g : ℂ) - 1‖ = |g - 1| := by
    rw [← Complex.ofReal_one, ← Complex.ofReal_sub, Complex.norm_real, Real.norm_eq_abs]
  rw [e, Rat.cast_mul, Rat.cast_ofScientific]
  exact mul_le_mul (norm_le_size P n p) hg (abs_nonneg _) (le_trans (norm_nonneg _) (norm_le_size P n p))

theorem fes_near (k : FesKind) {P : Poly} {e : ℚ} (h : k.approx = some (P, e)) (n p : ℝ)
    (hn : cos (n * dtr / 2) ≠ 0) : ‖phasor (k.eval n p) - P.val n p‖ ≤ (e : ℝ) := by
  have mono : ∀ m : ℚ × Poly, k.monomial = some m → P = m.2.scale m.1 →
      e = (m.2.scale m.1).size * 25e-5 → ‖phasor (k.eval n p) - P.val n p‖ ≤ (e : ℝ) := by
    rintro ⟨q, Q⟩ hm rfl rfl
    obtain ⟨g, hg, hp⟩ := monomial_near k hm n p hn
    rw [hp]
    exact sub_one_near hg n p
  cases k <;> simp only [FesKind.approx, FesKind.monomial, Option.map_some, Option.some.injEq, Prod.mk.injEq,
    reduceCtorEq] at h
  case mm =>
    obtain ⟨rfl, rfl⟩ := h
    obtain ⟨l, u⟩ := cos_II_bounds n
    have hx : 0 < (2 / 3 - sin (II n) ^ 2) / 0.5021 := by
      rw [sin_II_sq]
      refine div_pos ?_ (by norm_num)
      nlinarith
    have e1 : phasor (FesKind.mm.eval n p) = (((2 / 3 - sin (II n) ^ 2) / 0.5021 : ℝ) : ℂ) := by
      simp only [phasor, FesKind.eval, arctan2]
      generalize (2 / 3 - sin (II n) ^ 2) / 0.5021 = x at hx
      rw [show (⟨x, 0⟩ : ℂ) = (x : ℂ) from rfl, Complex.arg_ofReal_of_nonneg hx.le, zero_pow two_ne_zero, zero_add,
        sqrt_sq hx.le]
      simp
    rw [e1, val_scale, val_collect, val_cons, unit_zero, val_mul, val_C, sin_II_sq]
    refine le_of_eq ?_
    rw [Rat.cast_zero, norm_eq_zero]
    push_cast
    ring
  case msf =>
    obtain ⟨rfl, rfl⟩ := h
    obtain ⟨U, V, hA, -, hU, hV, hxi, hnu⟩ := directions n p hn
    have hVV : (starRingEnd ℂ) V * V = 1 := by rw [Complex.conj_mul', hV]; simp
    have hUU : (starRingEnd ℂ) U * U = 1 := by rw [Complex.conj_mul', hU]; simp
    have hnu' : Complex.exp (-((nu n : ℂ) * Complex.I)) = U * (starRingEnd ℂ) V := by
      rw [Complex.exp_neg, hnu]
      exact inv_eq_of_mul_eq_one_right (by linear_combination hUU * ((starRingEnd ℂ) V * V) + hVV)
    have e1 : phasor (FesKind.msf.eval n p) = U ^ 4 := by
      have e : Complex.exp (((2 * xi n - 2 * nu n : ℝ) : ℂ) * Complex.I) =
          Complex.exp ((xi n : ℂ) * Complex.I) ^ 2 * Complex.exp (-((nu n : ℂ) * Complex.I)) ^ 2 := by
        simp only [← Complex.exp_nat_mul, ← Complex.exp_add]
        congr 1
        push_cast
        ring
      simp only [phasor, FesKind.eval]
      rw [e, hxi, hnu']
      push_cast
      linear_combination U ^ 4 * ((starRingEnd ℂ) V * V + 1) * hVV
    have ha : ‖polyA.val n p‖ ^ 2 = _ := norm_pair 1.01883 n p
    simp only [Rat.cast_ofScientific] at ha
    generalize ‖polyA.val n p‖ = a at hA ha
    have e2 : cosSum [⟨0.0359, 1, 0⟩] n p = 0.0359 * cos (n * dtr) := by simp [cosSum]
    have e3 : U ^ 4 - ((polyA.mul polyA).mul (polyA.mul polyA) |>.mul
        ((0, 0, 0.9631) :: Poly.cosines [⟨0.0359, 1, 0⟩])).val n p =
        ((1 - (a ^ 2) ^ 2 * (0.9631 + 0.0359 * cos (n * dtr)) : ℝ) : ℂ) * U ^ 4 := by
      simp only [val_mul, val_cons, val_cosines, unit_zero, e2, ← hA, ← Complex.ofReal_ratCast,
        Rat.cast_ofScientific]
      push_cast
      ring
    rw [e1, e3, norm_mul, norm_pow, hU, one_pow, mul_one, Complex.norm_real, Real.norm_eq_abs, ha]
    have c1 := neg_one_le_cos (n * dtr)
    have c2 := cos_le_one (n * dtr)
    generalize cos (n * dtr) = c at c1 c2
    rw [Rat.cast_ofScientific, abs_le]
    constructor
    · nlinarith [mul_nonneg (sub_nonneg.2 c1) (sub_nonneg.2 c2), sq_nonneg c]
    · nlinarith [mul_nonneg (sub_nonneg.2 c1) (sub_nonneg.2 c2), sq_nonneg c]
  case k1 =>
    obtain ⟨rfl, rfl⟩ := h
    obtain ⟨g, hg, hp⟩ := monomial_near .j1 rfl n p hn
    have h1 := k1_near n p
    have e1 : (sin (2 * II n) : ℂ) * Complex.exp (((-nu n : ℝ) : ℂ) * Complex.I) = (g : ℂ) *
        ((polyC.mul (polyA.mul polyB.conj)).scale (4 * 0.96902 * 0.2469754)).val n p := by
      simp only [phasor, FesKind.eval] at hp
      rw [val_scale] at hp ⊢
      push_cast at hp ⊢
      linear_combination 0.7214 * hp
    rw [e1] at h1
    generalize (polyC.mul (polyA.mul polyB.conj)).scale (4 * 0.96902 * 0.2469754) = Q at h1
    have h2 := sub_one_near (P := Q) hg n p
    rw [val_scale, val_collect, val_cons, unit_zero, mul_one, ← Complex.ofReal_ratCast, ← Complex.ofReal_ratCast,
      Rat.cast_ofScientific, Rat.cast_ofScientific]
    have e2 : phasor (FesKind.k1.eval n p) - ((0.946837 : ℝ) : ℂ) * (((0.3347 : ℝ) : ℂ) + Q.val n p) =
        (phasor (FesKind.k1.eval n p) - ((0.946837 : ℝ) : ℂ) * ((g : ℂ) * Q.val n p + ((0.3347 : ℝ) : ℂ))) +
        ((0.946837 : ℝ) : ℂ) * ((g : ℂ) * Q.val n p - Q.val n p) := by ring
    rw [e2]
    refine (norm_add_le _ _).trans ?_
    rw [norm_mul, Complex.norm_real, Real.norm_eq_abs, abs_of_pos (by norm_num : (0 : ℝ) < 0.946837)]
    rw [Rat.cast_add, Rat.cast_mul, Rat.cast_ofScientific, Rat.cast_ofScientific]
    linarith
  case k2 =>
    obtain ⟨rfl, rfl⟩ := h
    obtain ⟨g, hg, hp⟩ := monomial_near .eta2 rfl n p hn
    have h1 := k2_near n p
    have e1 : ((sin (II n) ^ 2 : ℝ) : ℂ) * Complex.exp (((-(2 * nu n) : ℝ) : ℂ) * Complex.I) = (g : ℂ) *
        (((polyA.mul polyA).mul (polyB.conj.mul polyB.conj)).scale
          (4 * 0.96902 ^ 2 * 0.2469754 ^ 2)).val n p := by
      simp only [phasor, FesKind.eval] at hp
      rw [show -(2 * nu n) = -2 * nu n by ring]
      rw [val_scale] at hp ⊢
      push_cast at hp ⊢
      linear_combination 0.1565 * hp
    rw [e1] at h1
    generalize ((polyA.mul polyA).mul (polyB.conj.mul polyB.conj)).scale
      (4 * 0.96902 ^ 2 * 0.2469754 ^ 2) = Q at h1
    have h2 := sub_one_near (P := Q) hg n p
    rw [val_scale, val_collect, val_cons, unit_zero, mul_one, ← Complex.ofReal_ratCast, ← Complex.ofReal_ratCast,
      Rat.cast_ofScientific, Rat.cast_ofScientific]
    have e2 : phasor (FesKind.k2.eval n p) - ((4.364 : ℝ) : ℂ) * (((0.0727 : ℝ) : ℂ) + Q.val n p) =
        (phasor (FesKind.k2.eval n p) - ((4.364 : ℝ) : ℂ) * ((g : ℂ) * Q.val n p + ((0.0727 : ℝ) : ℂ))) +
        ((4.364 : ℝ) : ℂ) * ((g : ℂ) * Q.val n p - Q.val n p) := by ring
    rw [e2]
    refine (norm_add_le _ _).trans ?_
    rw [norm_mul, Complex.norm_real, Real.norm_eq_abs, abs_of_pos (by norm_num : (0 : ℝ) < 4.364)]
    rw [Rat.cast_add, Rat.cast_mul, Rat.cast_ofScientific, Rat.cast_ofScientific]
    linarith
  all_goals exact mono _ rfl h.1.symm h.2.symm

end Verif.Nodal
