import Mathlib.Analysis.SpecialFunctions.Complex.Arg
import Mathlib.Analysis.SpecialFunctions.Trigonometric.Bounds
import Mathlib.Algebra.BigOperators.Field
/-!
Sums of slowly modulated oscillations: a series of samples that is a constant plus waves with
separated frequencies and slowly varying factors vanishes only if the constant and all the waves
vanish.
-/
namespace Verif.Separate

open Complex Finset

/-- A wave of unit amplitude. -/
noncomputable def e (φ : ℝ) : ℂ := exp (φ * I)

theorem e_norm (φ : ℝ) : ‖e φ‖ = 1 := norm_exp_ofReal_mul_I φ

theorem e_add (φ ψ : ℝ) : e (φ + ψ) = e φ * e ψ := by
  unfold e; rw [← exp_add]; push_cast; ring_nf

theorem e_conj (φ : ℝ) : (starRingEnd ℂ) (e φ) = e (-φ) := by
  unfold e; rw [← exp_conj, map_mul, conj_ofReal, conj_I]; push_cast; ring_nf

theorem e_pow (φ : ℝ) (j : ℕ) : e (φ * j) = e φ ^ j := by
  unfold e; rw [← exp_nat_mul]; push_cast; ring_nf

theorem e_gap {φ : ℝ} (h : |φ| ≤ Real.pi) : 2 * |φ| / Real.pi ≤ ‖e φ - 1‖ := by
  have h1 : ‖e φ - 1‖ = ‖2 * Real.sin (φ / 2)‖ := by
    unfold e; rw [mul_comm]; exact norm_exp_I_mul_ofReal_sub_one φ
  rw [h1, Real.norm_eq_abs, abs_mul, abs_two]
  have h2 : 2 / Real.pi * |φ / 2| ≤ |Real.sin (φ / 2)| := by
    apply Real.mul_abs_le_abs_sin
    rw [abs_div, abs_two]; linarith
  rw [abs_div, abs_two] at h2
  calc 2 * |φ| / Real.pi = 2 * (2 / Real.pi * (|φ| / 2)) := by ring
    _ ≤ 2 * |Real.sin (φ / 2)| := by linarith

/-- Summation by parts. -/
theorem parts (g : ℕ → ℂ) (z : ℂ) (hz : ‖z‖ = 1) (δ : ℝ) : ∀ N : ℕ,
    (∀ j, j + 1 < N + 1 → ‖g (j + 1) - g j‖ ≤ δ) →
    ‖(z - 1) * (∑ j ∈ range (N + 1), g j * z ^ j) - g N * z ^ (N + 1) + g 0‖ ≤ N * δ
  | 0, _ => by
    have : (z - 1) * (∑ j ∈ range (0 + 1), g j * z ^ j) - g 0 * z ^ (0 + 1) + g 0 = 0 := by
      simp; ring
    rw [this]; simp
  | N + 1, h => by
    have ih := parts g z hz δ N fun j hj => h j (by omega)
    have hl := h N (by omega)
    have : (z - 1) * (∑ j ∈ range (N + 1 + 1), g j * z ^ j) - g (N + 1) * z ^ (N + 1 + 1) + g 0
        = ((z - 1) * (∑ j ∈ range (N + 1), g j * z ^ j) - g N * z ^ (N + 1) + g 0)
          - (g (N + 1) - g N) * z ^ (N + 1) := by
      rw [sum_range_succ _ (N + 1)]; ring
    rw [this]
    refine (norm_sub_le _ _).trans ?_
    rw [norm_mul, norm_pow, hz, one_pow, mul_one]
    push_cast
    linarith

/-- What an oscillation of frequency `φ` per sample leaves of a slowly varying factor. -/
noncomputable def rest (N : ℕ) (φ U δ : ℝ) : ℝ := Real.pi * (2 * U + N * δ) / (2 * |φ|)

theorem sum_le (g : ℕ → ℂ) (N : ℕ) (φ U δ : ℝ) (h0 : φ ≠ 0) (hφ : |φ| ≤ Real.pi) (hU0 : 0 ≤ U)
    (hδ0 : 0 ≤ δ) (hU : ∀ j < N, ‖g j‖ ≤ U) (hδ : ∀ j, j + 1 < N → ‖g (j + 1) - g j‖ ≤ δ) :
    ‖∑ j ∈ range N, g j * e φ ^ j‖ ≤ rest N φ U δ := by
  have hp := Real.pi_pos
  have hφ0 : 0 < |φ| := abs_pos.2 h0
  cases N with
  | zero =>
    simp only [range_zero, sum_empty, norm_zero, rest]
    positivity
  | succ N =>
    have h := parts g (e φ) (e_norm φ) δ N hδ
    set S := ∑ j ∈ range (N + 1), g j * e φ ^ j
    have h1 : ‖(e φ - 1) * S‖ ≤ 2 * U + N * δ := by
      have : (e φ - 1) * S = ((e φ - 1) * S - g N * e φ ^ (N + 1) + g 0)
          + (g N * e φ ^ (N + 1) - g 0) := by ring
      rw [this]
      refine (norm_add_le _ _).trans ?_
      have h2 := norm_sub_le (g N * e φ ^ (N + 1)) (g 0)
      rw [norm_mul, norm_pow, e_norm, one_pow, mul_one] at h2
      have := hU N (by omega)
      have := hU 0 (by omega)
      linarith
    rw [norm_mul] at h1
    have h2 : 2 * |φ| / Real.pi * ‖S‖ ≤ 2 * U + N * δ :=
      (mul_le_mul_of_nonneg_right (e_gap hφ) (norm_nonneg S)).trans h1
    unfold rest
    rw [le_div_iff₀ (by positivity)]
    have h3 : ‖S‖ * (2 * |φ|) = Real.pi * (2 * |φ| / Real.pi * ‖S‖) := by field_simp
    rw [h3]
    have : (2 * U + N * δ) ≤ (2 * U + ((N + 1 : ℕ) : ℝ) * δ) := by push_cast; linarith
    exact mul_le_mul_of_nonneg_left (h2.trans this) hp.le

theorem mul_step {a b a' b' : ℂ} {A B α β : ℝ} (ha : ‖a‖ ≤ A) (hb : ‖b'‖ ≤ B)
    (hα : ‖a' - a‖ ≤ α) (hβ : ‖b' - b‖ ≤ β) : ‖a' * b' - a * b‖ ≤ A * β + B * α := by
  have : a' * b' - a * b = a * (b' - b) + b' * (a' - a) := by ring
  rw [this]
  refine (norm_add_le _ _).trans ?_
  rw [norm_mul, norm_mul]
  have hA : 0 ≤ A := (norm_nonneg _).trans ha
  have hB : 0 ≤ B := (norm_nonneg _).trans hb
  exact add_le_add (mul_le_mul ha hβ (norm_nonneg _) hA) (mul_le_mul hb hα (norm_nonneg _) hB)

theorem re_half (z : ℂ) : ((z.re : ℝ) : ℂ) = (z + (starRingEnd ℂ) z) / 2 := by
  rw [add_conj]; push_cast; ring

variable {ι : Type} [Fintype ι] [DecidableEq ι]

/-- Slowly modulated waves with separated frequencies are independent over enough samples. -/
theorem independent (N : ℕ) (θ : ι → ℝ) (m : ι → ℕ → ℂ) (U L δ r : ι → ℝ)
    (hU : ∀ k, ∀ j < N, ‖m k j‖ ≤ U k) (hL0 : ∀ k, 0 ≤ L k) (hU0 : ∀ k, 0 ≤ U k)
    (hδ0 : ∀ k, 0 ≤ δ k)
    (hL : ∀ k, ∀ j < N, L k ≤ ‖m k j‖) (hδ : ∀ k j, j + 1 < N → ‖m k (j + 1) - m k j‖ ≤ δ k)
    (hr : ∀ k, 0 < r k)
    (hθ : ∀ k, θ k ≠ 0 ∧ |θ k| ≤ Real.pi)
    (hplus : ∀ k l, θ l + θ k ≠ 0 ∧ |(θ l + θ k)| ≤ Real.pi)
    (hminus : ∀ k l, l ≠ k → θ l - θ k ≠ 0 ∧ |(θ l - θ k)| ≤ Real.pi)
    (hmean : ∑ l, r l * rest N (θ l) (U l) (δ l) < N)
    (hwave : ∀ k, 2 * rest N (θ k) (U k) (δ k)
      + ∑ l ∈ univ.erase k, r l * rest N (θ l - θ k) (U l * U k) (U l * δ k + U k * δ l)
      + ∑ l, r l * rest N (θ l + θ k) (U l * U k) (U l * δ k + U k * δ l) < r k * (N * L k ^ 2))
    (x : ℝ) (w : ι → ℂ)
    (h : ∀ j < N, x + ∑ k, (w k * (m k j * e (θ k * j))).re = 0) :
    x = 0 ∧ ∀ k, w k = 0 := by
  -- the sums
  have s0 : ∀ k, ‖∑ j ∈ range N, m k j * e (θ k) ^ j‖ ≤ rest N (θ k) (U k) (δ k) := fun k =>
    sum_le _ N _ _ _ (hθ k).1 (hθ k).2 (hU0 k) (hδ0 k) (hU k) (hδ k)
  have s1 : ∀ k l, l ≠ k → ‖∑ j ∈ range N, m l j * (starRingEnd ℂ) (m k j) * e (θ l - θ k) ^ j‖
      ≤ rest N (θ l - θ k) (U l * U k) (U l * δ k + U k * δ l) := fun k l hlk =>
    sum_le _ N _ _ _ (hminus k l hlk).1 (hminus k l hlk).2 (mul_nonneg (hU0 l) (hU0 k))
      (add_nonneg (mul_nonneg (hU0 l) (hδ0 k)) (mul_nonneg (hU0 k) (hδ0 l)))
      (fun j hj => by
        rw [norm_mul, norm_conj]
        exact mul_le_mul (hU l j hj) (hU k j hj) (norm_nonneg _) (hU0 l))
      (fun j hj => mul_step (hU l j (by omega)) (by rw [norm_conj]; exact hU k _ hj) (hδ l j hj)
        (by rw [← map_sub, norm_conj]; exact hδ k j hj))
  have s2 : ∀ k l, ‖∑ j ∈ range N, m l j * m k j * e (θ l + θ k) ^ j‖
      ≤ rest N (θ l + θ k) (U l * U k) (U l * δ k + U k * δ l) := fun k l =>
    sum_le _ N _ _ _ (hplus k l).1 (hplus k l).2 (mul_nonneg (hU0 l) (hU0 k))
      (add_nonneg (mul_nonneg (hU0 l) (hδ0 k)) (mul_nonneg (hU0 k) (hδ0 l)))
      (fun j hj => by
        rw [norm_mul]
        exact mul_le_mul (hU l j hj) (hU k j hj) (norm_nonneg _) (hU0 l))
      (fun j hj => mul_step (hU l j (by omega)) (hU k _ hj) (hδ l j hj) (hδ k j hj))
  -- the mean
  have em : |x| * N ≤ ∑ k, ‖w k‖ * rest N (θ k) (U k) (δ k) := by
    have h1 : x * N = - ∑ k, (w k * ∑ j ∈ range N, m k j * e (θ k) ^ j).re := by
      have h2 : ∑ j ∈ range N, (x + ∑ k, (w k * (m k j * e (θ k * j))).re) = 0 :=
        sum_eq_zero fun j hj => h j (mem_range.1 hj)
      rw [sum_add_distrib, sum_const, card_range, nsmul_eq_mul, sum_comm] at h2
      have h3 : ∀ k, ∑ j ∈ range N, (w k * (m k j * e (θ k * j))).re
          = (w k * ∑ j ∈ range N, m k j * e (θ k) ^ j).re := by
        intro k
        rw [mul_sum, re_sum]
        exact sum_congr rfl fun j _ => by rw [e_pow]
      rw [sum_congr rfl fun k _ => h3 k] at h2
      linarith
    have h2 : |x| * N = |x * N| := by rw [abs_mul, Nat.abs_cast]
    rw [h2, h1, abs_neg]
    refine (abs_sum_le_sum_abs _ _).trans (sum_le_sum fun k _ => ?_)
    refine (abs_re_le_norm _).trans ?_
    rw [norm_mul]
    exact mul_le_mul_of_nonneg_left (s0 k) (norm_nonneg _)
  -- the waves
  have ew : ∀ k, ‖w k‖ * (N * L k ^ 2) ≤ 2 * (|x| * rest N (θ k) (U k) (δ k))
      + ∑ l ∈ univ.erase k, ‖w l‖ * rest N (θ l - θ k) (U l * U k) (U l * δ k + U k * δ l)
      + ∑ l, ‖w l‖ * rest N (θ l + θ k) (U l * U k) (U l * δ k + U k * δ l) := by
    intro k
    set A := ∑ j ∈ range N, m k j * e (θ k) ^ j with hA
    set P := fun l => ∑ j ∈ range N, m l j * (starRingEnd ℂ) (m k j) * e (θ l - θ k) ^ j with hP
    set Q := fun l => ∑ j ∈ range N, m l j * m k j * e (θ l + θ k) ^ j with hQ
    have h1 : 2 * x * (starRingEnd ℂ) A + ∑ l, w l * P l
        + ∑ l, (starRingEnd ℂ) (w l * Q l) = 0 := by
      have h2 : ∑ j ∈ range N, 2 * ((x + ∑ l, (w l * (m l j * e (θ l * j))).re : ℝ) : ℂ)
          * (starRingEnd ℂ) (m k j * e (θ k) ^ j) = 0 := by
        refine sum_eq_zero fun j hj => ?_
        rw [h j (mem_range.1 hj)]; simp
      rw [← h2, hA, map_sum, mul_sum, hP, hQ]
      simp only [mul_sum, map_sum]
      rw [sum_comm, sum_comm (s := univ) (t := range N), ← sum_add_distrib, ← sum_add_distrib]
      refine sum_congr rfl fun j _ => ?_
      push_cast
      rw [mul_add, add_mul, add_assoc]
      congr 1
      rw [mul_sum, sum_mul, ← sum_add_distrib]
      refine sum_congr rfl fun l _ => ?_
      rw [re_half]
      have a1 : e (θ l - θ k) = e (θ l) * (starRingEnd ℂ) (e (θ k)) := by
        rw [e_conj, ← e_add]; rfl
      have a2 : e (θ l + θ k) = e (θ l) * e (θ k) := e_add _ _
      rw [a1, a2, e_pow]
      simp only [map_mul, map_pow, mul_pow]
      ring
    have h3 : P k = ((∑ j ∈ range N, ‖m k j‖ ^ 2 : ℝ) : ℂ) := by
      rw [hP]
      simp only [sub_self]
      push_cast
      refine sum_congr rfl fun j _ => ?_
      have : e 0 = 1 := by simp [e]
      rw [this, one_pow, mul_one, mul_conj, normSq_eq_norm_sq]; push_cast; rfl
    have h4 : (N : ℝ) * L k ^ 2 ≤ ‖P k‖ := by
      rw [h3, norm_real, Real.norm_eq_abs, abs_of_nonneg (sum_nonneg fun j _ => by positivity)]
      have : ∑ j ∈ range N, L k ^ 2 ≤ ∑ j ∈ range N, ‖m k j‖ ^ 2 :=
        sum_le_sum fun j hj => pow_le_pow_left₀ (hL0 k) (hL k j (mem_range.1 hj)) 2
      rwa [sum_const, card_range, nsmul_eq_mul] at this
    have h5 : w k * P k = -(2 * x * (starRingEnd ℂ) A + ∑ l ∈ univ.erase k, w l * P l
        + ∑ l, (starRingEnd ℂ) (w l * Q l)) := by
      rw [← add_sum_erase univ _ (mem_univ k)] at h1
      linear_combination h1
    have h6 : ‖w k‖ * (N * L k ^ 2) ≤ ‖w k * P k‖ := by
      rw [norm_mul]
      exact mul_le_mul_of_nonneg_left h4 (norm_nonneg _)
    refine h6.trans ?_
    rw [h5, norm_neg]
    refine (norm_add_le _ _).trans (add_le_add ((norm_add_le _ _).trans (add_le_add ?_ ?_)) ?_)
    · rw [norm_mul, norm_mul, norm_conj, norm_real, Real.norm_eq_abs]
      have : ‖(2 : ℂ)‖ = 2 := by simp
      rw [this, mul_assoc]
      exact mul_le_mul_of_nonneg_left
        (mul_le_mul_of_nonneg_left (s0 k) (abs_nonneg _)) (by norm_num)
    · refine (norm_sum_le _ _).trans (sum_le_sum fun l hl => ?_)
      rw [norm_mul]
      exact mul_le_mul_of_nonneg_left (s1 k l (ne_of_mem_erase hl)) (norm_nonneg _)
    · refine (norm_sum_le _ _).trans (sum_le_sum fun l _ => ?_)
      rw [norm_conj, norm_mul]
      exact mul_le_mul_of_nonneg_left (s2 k l) (norm_nonneg _)
  -- the largest of them
  set a : Option ι → ℝ := fun o => o.elim |x| fun k => ‖w k‖ / r k with ha
  obtain ⟨o, -, ho⟩ := exists_max_image (univ : Finset (Option ι)) a ⟨none, mem_univ _⟩
  have hx : |x| ≤ a o := ho none (mem_univ _)
  have hw : ∀ k, ‖w k‖ ≤ a o * r k := fun k => (div_le_iff₀ (hr k)).1 (ho (some k) (mem_univ _))
  have rest0 : ∀ φ U δ, 0 ≤ U → 0 ≤ δ → 0 ≤ rest N φ U δ := fun φ U δ h1 h2 => by
    unfold rest
    have := Real.pi_pos
    positivity
  have hzero : a o ≤ 0 := by
    by_contra hpos
    push Not at hpos
    cases o with
    | none =>
      have h1 : ∑ k, ‖w k‖ * rest N (θ k) (U k) (δ k)
          ≤ a none * ∑ k, r k * rest N (θ k) (U k) (δ k) := by
        rw [mul_sum]
        refine sum_le_sum fun k _ => ?_
        rw [← mul_assoc]
        exact mul_le_mul_of_nonneg_right (hw k) (rest0 _ _ _ (hU0 k) (hδ0 k))
      have h2 : a none * ∑ k, r k * rest N (θ k) (U k) (δ k) < a none * N :=
        mul_lt_mul_of_pos_left hmean hpos
      exact absurd (em.trans h1) (not_le.2 h2)
    | some k =>
      have hk : ‖w k‖ = a (some k) * r k := by
        simp only [ha, Option.elim]
        rw [div_mul_cancel₀ _ (hr k).ne']
      have h1 := ew k
      have nn : ∀ l, 0 ≤ U l * δ k + U k * δ l := fun l =>
        add_nonneg (mul_nonneg (hU0 l) (hδ0 k)) (mul_nonneg (hU0 k) (hδ0 l))
      have h2 : 2 * (|x| * rest N (θ k) (U k) (δ k)) ≤
          a (some k) * (2 * rest N (θ k) (U k) (δ k)) := by
        have := mul_le_mul_of_nonneg_right hx (rest0 (θ k) _ _ (hU0 k) (hδ0 k))
        linarith
      have h3 : ∑ l ∈ univ.erase k, ‖w l‖ * rest N (θ l - θ k) (U l * U k) (U l * δ k + U k * δ l)
          ≤ a (some k) * ∑ l ∈ univ.erase k,
            r l * rest N (θ l - θ k) (U l * U k) (U l * δ k + U k * δ l) := by
        rw [mul_sum]
        refine sum_le_sum fun l _ => ?_
        rw [← mul_assoc]
        exact mul_le_mul_of_nonneg_right (hw l) (rest0 _ _ _ (mul_nonneg (hU0 l) (hU0 k)) (nn l))
      have h4 : ∑ l, ‖w l‖ * rest N (θ l + θ k) (U l * U k) (U l * δ k + U k * δ l)
          ≤ a (some k) * ∑ l, r l * rest N (θ l + θ k) (U l * U k) (U l * δ k + U k * δ l) := by
        rw [mul_sum]
        refine sum_le_sum fun l _ => ?_
        rw [← mul_assoc]
        exact mul_le_mul_of_nonneg_right (hw l) (rest0 _ _ _ (mul_nonneg (hU0 l) (hU0 k)) (nn l))
      have h5 := mul_lt_mul_of_pos_left (hwave k) hpos
      rw [hk] at h1
      rw [mul_add, mul_add] at h5
      have e1 : a (some k) * (r k * (N * L k ^ 2)) = a (some k) * r k * (N * L k ^ 2) := by ring
      linarith
  refine ⟨abs_eq_zero.1 (le_antisymm (hx.trans hzero) (abs_nonneg _)), fun k => ?_⟩
  refine norm_eq_zero.1 (le_antisymm ((hw k).trans ?_) (norm_nonneg _))
  exact mul_nonpos_of_nonpos_of_nonneg hzero (hr k).le

end Verif.Separate
