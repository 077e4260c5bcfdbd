import Verif.Lemmas.Nodal
import Mathlib.Analysis.SpecialFunctions.Trigonometric.ArctanDeriv

/-!
# Bounds on the astronomical terms for FES models
-/

namespace Verif.Nodal

open Real

/-- The cosine of the inclination of the lunar orbit to the equator. -/
theorem cos_II (n : ℝ) : cos (II n) = 0.913694997 - 0.035692561 * cos (n * dtr) := by
  have h1 := neg_one_le_cos (n * dtr)
  have h2 := cos_le_one (n * dtr)
  exact cos_arccos (by linarith) (by linarith)

theorem cos_II_bounds (n : ℝ) : 0.878 ≤ cos (II n) ∧ cos (II n) ≤ 0.94939 := by
  have h1 := neg_one_le_cos (n * dtr)
  have h2 := cos_le_one (n * dtr)
  rw [cos_II]
  constructor <;> linarith

theorem sin_II_nonneg (n : ℝ) : 0 ≤ sin (II n) := by
  unfold II
  rw [sin_arccos]
  exact sqrt_nonneg _

theorem sin_II_sq (n : ℝ) : sin (II n) ^ 2 = 1 - cos (II n) ^ 2 := by
  have := sin_sq_add_cos_sq (II n)
  linarith

theorem cos_half (n : ℝ) : cos (II n / 2) ^ 2 = (1 + cos (II n)) / 2 := by
  rw [cos_sq, mul_div_cancel₀ _ two_ne_zero]; ring

theorem sin_half (n : ℝ) : sin (II n / 2) ^ 2 = (1 - cos (II n)) / 2 := by
  have := sin_sq_add_cos_sq (II n / 2)
  have := cos_half n
  linarith

/-- The right ascension of the lunar intersection stays close to zero. -/
theorem cos_nu (n : ℝ) : 0 < cos (nu n) ∧ 0.94 ≤ cos (nu n) ^ 2 := by
  obtain ⟨t, ht⟩ : ∃ t, t = tan (n * dtr / 2) := ⟨_, rfl⟩
  have h1 : cos (nu n) = (1 + 1.01883 * t * (0.64412 * t)) /
      (sqrt (1 + (1.01883 * t) ^ 2) * sqrt (1 + (0.64412 * t) ^ 2)) := by
    unfold nu at1 at2
    rw [← ht, cos_sub, cos_arctan, cos_arctan, sin_arctan, sin_arctan]
    field_simp
  have p1 : 0 < 1 + (1.01883 * t) ^ 2 := by positivity
  have p2 : 0 < 1 + (0.64412 * t) ^ 2 := by positivity
  have p3 : 0 < 1 + 1.01883 * t * (0.64412 * t) := by nlinarith [sq_nonneg t]
  refine ⟨by rw [h1]; positivity, ?_⟩
  rw [h1, div_pow, mul_pow, sq_sqrt p1.le, sq_sqrt p2.le, le_div_iff₀ (by positivity)]
  nlinarith [sq_nonneg (t ^ 2 - 1), sq_nonneg t, sq_nonneg (t ^ 2)]

theorem cos_two_nu (n : ℝ) : 0.88 ≤ cos (2 * nu n) ∧ cos (2 * nu n) ≤ 1 := by
  have := (cos_nu n).2
  have := cos_two_mul (nu n)
  exact ⟨by linarith, cos_le_one _⟩

theorem le_of_sq {a b : ℝ} (hb : 0 ≤ b) (h : a ^ 2 ≤ b ^ 2) : a ≤ b :=
  le_of_sq_le_sq h hb

/-- The smallest and largest factors of the FES branches. -/
def FesKind.range : FesKind → ℚ × ℚ
  | .mm => (0.87, 1.14)
  | .mf => (0.62, 1.46)
  | .msf => (1, 1)
  | .o1 => (0.80, 1.19)
  | .j1 => (0.82, 1.17)
  | .k1 => (0.86, 1.12)
  | .oo1 => (0.48, 1.79)
  | .m2 => (0.962, 1.038)
  | .l2 => (0.58, 1.35)
  | .k2 => (0.72, 1.32)
  | .eta2 => (0.62, 1.47)
  | .m3 => (0.944, 1.058)

theorem sqrt_range {y lo hi : ℝ} (h0 : 0 ≤ hi) (h1 : lo ^ 2 ≤ y) (h2 : y ≤ hi ^ 2) :
    lo ≤ sqrt y ∧ sqrt y ≤ hi :=
  ⟨le_sqrt_of_sq_le h1, (sqrt_le_left h0).2 h2⟩

theorem prod_range {y lo hi : ℝ} (hy : 0 ≤ y) (h0 : 0 ≤ hi) (h1 : lo ^ 2 ≤ y ^ 2)
    (h2 : y ^ 2 ≤ hi ^ 2) : lo ≤ y ∧ y ≤ hi :=
  ⟨le_of_sq hy h1, le_of_sq h0 h2⟩

theorem fes_mm (n p : ℝ) : 0.87 ≤ (FesKind.mm.eval n p).2 ∧ (FesKind.mm.eval n p).2 ≤ 1.14 := by
  obtain ⟨l, u⟩ := cos_II_bounds n
  simp only [FesKind.eval]
  refine sqrt_range (by norm_num) ?_ ?_ <;> rw [sin_II_sq] <;>
    generalize cos (II n) = x at l u ⊢ <;> rw [zero_pow two_ne_zero, zero_add] <;>
    refine pow_le_pow_left₀ ?_ ?_ 2
  · norm_num
  · rw [le_div_iff₀ (by norm_num)]; nlinarith
  · refine div_nonneg ?_ (by norm_num); nlinarith
  · rw [div_le_iff₀ (by norm_num)]; nlinarith

theorem fes_mf (n p : ℝ) : 0.62 ≤ (FesKind.mf.eval n p).2 ∧ (FesKind.mf.eval n p).2 ≤ 1.46 := by
  obtain ⟨l, u⟩ := cos_II_bounds n
  simp only [FesKind.eval]
  rw [sin_II_sq]
  generalize cos (II n) = x at l u ⊢
  constructor
  · rw [le_div_iff₀ (by norm_num)]; nlinarith
  · rw [div_le_iff₀ (by norm_num)]; nlinarith

theorem fes_eta2 (n p : ℝ) :
    0.62 ≤ (FesKind.eta2.eval n p).2 ∧ (FesKind.eta2.eval n p).2 ≤ 1.47 := by
  obtain ⟨l, u⟩ := cos_II_bounds n
  simp only [FesKind.eval]
  rw [sin_II_sq]
  generalize cos (II n) = x at l u ⊢
  constructor
  · rw [le_div_iff₀ (by norm_num)]; nlinarith
  · rw [div_le_iff₀ (by norm_num)]; nlinarith

theorem fes_o1 (n p : ℝ) : 0.80 ≤ (FesKind.o1.eval n p).2 ∧ (FesKind.o1.eval n p).2 ≤ 1.19 := by
  obtain ⟨l, u⟩ := cos_II_bounds n
  have hs := sin_II_nonneg n
  simp only [FesKind.eval]
  refine prod_range (by positivity) (by norm_num) ?_ ?_ <;>
    rw [div_pow, mul_pow, sin_II_sq, cos_half] <;>
    generalize cos (II n) = x at l u ⊢
  · rw [le_div_iff₀ (by norm_num)]
    nlinarith [mul_nonneg (sub_nonneg.2 l) (sub_nonneg.2 u), sq_nonneg (x ^ 2 - 0.8),
      mul_nonneg (mul_nonneg (sub_nonneg.2 l) (sub_nonneg.2 u)) (sq_nonneg x)]
  · rw [div_le_iff₀ (by norm_num)]
    nlinarith [mul_nonneg (sub_nonneg.2 l) (sub_nonneg.2 u), sq_nonneg (x ^ 2 - 0.8),
      mul_nonneg (mul_nonneg (sub_nonneg.2 l) (sub_nonneg.2 u)) (sq_nonneg x)]

theorem fes_oo1 (n p : ℝ) : 0.48 ≤ (FesKind.oo1.eval n p).2 ∧ (FesKind.oo1.eval n p).2 ≤ 1.79 := by
  obtain ⟨l, u⟩ := cos_II_bounds n
  have hs := sin_II_nonneg n
  simp only [FesKind.eval]
  refine prod_range (by positivity) (by norm_num) ?_ ?_ <;>
    rw [div_pow, mul_pow, sin_II_sq, sin_half] <;>
    generalize cos (II n) = x at l u ⊢
  · rw [le_div_iff₀ (by norm_num)]
    have h1 : (0.0506 : ℝ) ≤ 1 - x := by linarith
    have h2 : (0.0506 : ℝ) ^ 3 ≤ (1 - x) ^ 3 := pow_le_pow_left₀ (by norm_num) h1 3
    nlinarith
  · rw [div_le_iff₀ (by norm_num)]
    have h1 : 1 - x ≤ (0.122 : ℝ) := by linarith
    have h2 : (1 - x) ^ 3 ≤ (0.122 : ℝ) ^ 3 := pow_le_pow_left₀ (by linarith) h1 3
    nlinarith

theorem fes_j1 (n p : ℝ) : 0.82 ≤ (FesKind.j1.eval n p).2 ∧ (FesKind.j1.eval n p).2 ≤ 1.17 := by
  obtain ⟨l, u⟩ := cos_II_bounds n
  have hs := sin_II_nonneg n
  have hc : 0 ≤ cos (II n) := by linarith
  simp only [FesKind.eval]
  rw [sin_two_mul]
  refine prod_range (by positivity) (by norm_num) ?_ ?_ <;>
    rw [div_pow, mul_pow, mul_pow, sin_II_sq] <;>
    generalize cos (II n) = x at l u hc ⊢
  · rw [le_div_iff₀ (by norm_num)]
    nlinarith [mul_nonneg (sub_nonneg.2 l) (sub_nonneg.2 u),
      mul_nonneg (mul_nonneg (sub_nonneg.2 l) (sub_nonneg.2 u)) (sq_nonneg x)]
  · rw [div_le_iff₀ (by norm_num)]
    nlinarith [mul_nonneg (sub_nonneg.2 l) (sub_nonneg.2 u),
      mul_nonneg (mul_nonneg (sub_nonneg.2 l) (sub_nonneg.2 u)) (sq_nonneg x)]

theorem fes_m2 (n p : ℝ) : 0.962 ≤ (FesKind.m2.eval n p).2 ∧ (FesKind.m2.eval n p).2 ≤ 1.038 := by
  obtain ⟨l, u⟩ := cos_II_bounds n
  simp only [FesKind.eval]
  rw [show cos (II n / 2) ^ 4 = (cos (II n / 2) ^ 2) ^ 2 by ring, cos_half]
  generalize cos (II n) = x at l u ⊢
  constructor
  · rw [le_div_iff₀ (by norm_num)]; nlinarith
  · rw [div_le_iff₀ (by norm_num)]; nlinarith

theorem fes_m3 (n p : ℝ) : 0.944 ≤ (FesKind.m3.eval n p).2 ∧ (FesKind.m3.eval n p).2 ≤ 1.058 := by
  obtain ⟨l, u⟩ := cos_II_bounds n
  simp only [FesKind.eval]
  rw [show cos (II n / 2) ^ 6 = (cos (II n / 2) ^ 2) ^ 3 by ring, cos_half]
  generalize cos (II n) = x at l u ⊢
  constructor
  · rw [le_div_iff₀ (by norm_num)]
    have := pow_le_pow_left₀ (by norm_num) (show (0.939 : ℝ) ≤ (1 + x) / 2 by linarith) 3
    linarith
  · rw [div_le_iff₀ (by norm_num)]
    have := pow_le_pow_left₀ (by linarith) (show (1 + x) / 2 ≤ (0.974695 : ℝ) by linarith) 3
    linarith

theorem fes_k1 (n p : ℝ) : 0.86 ≤ (FesKind.k1.eval n p).2 ∧ (FesKind.k1.eval n p).2 ≤ 1.12 := by
  obtain ⟨l, u⟩ := fes_j1 n p
  obtain ⟨hc, hc2⟩ := cos_nu n
  have h3 : 0.96 ≤ cos (nu n) := le_of_sq hc.le (by nlinarith)
  have h4 := cos_le_one (nu n)
  simp only [FesKind.eval] at l u ⊢
  rw [le_div_iff₀ (by norm_num)] at l
  rw [div_le_iff₀ (by norm_num)] at u
  generalize sin (2 * II n) = s at l u ⊢
  generalize cos (nu n) = c at h3 h4 ⊢
  have a1 : 0.82 * 0.7214 * 0.96 ≤ s * c := mul_le_mul l h3 (by norm_num) (by linarith)
  have a2 : s * c ≤ 1.17 * 0.7214 * 1 := mul_le_mul u h4 (by linarith) (by norm_num)
  refine sqrt_range (by norm_num) ?_ ?_
  · nlinarith
  · nlinarith

theorem fes_k2 (n p : ℝ) : 0.72 ≤ (FesKind.k2.eval n p).2 ∧ (FesKind.k2.eval n p).2 ≤ 1.32 := by
  obtain ⟨l, u⟩ := fes_mf n p
  obtain ⟨h3, h4⟩ := cos_two_nu n
  have l2 : 0.0986 ≤ sin (II n) ^ 2 := by
    rw [sin_II_sq]; nlinarith [(cos_II_bounds n).1, (cos_II_bounds n).2]
  have u2 : sin (II n) ^ 2 ≤ 0.22912 := by
    rw [sin_II_sq]; nlinarith [(cos_II_bounds n).1, (cos_II_bounds n).2]
  simp only [FesKind.eval]
  rw [show sin (II n) ^ 4 = (sin (II n) ^ 2) ^ 2 by ring]
  generalize sin (II n) ^ 2 = s at l2 u2 ⊢
  generalize cos (2 * nu n) = c at h3 h4 ⊢
  have a1 : 0.0986 * 0.88 ≤ s * c := mul_le_mul l2 h3 (by norm_num) (by linarith)
  have a2 : s * c ≤ 0.22912 * 1 := mul_le_mul u2 h4 (by linarith) (by norm_num)
  refine sqrt_range (by norm_num) ?_ ?_
  · nlinarith
  · nlinarith

theorem fes_l2 (n p : ℝ) : 0.58 ≤ (FesKind.l2.eval n p).2 ∧ (FesKind.l2.eval n p).2 ≤ 1.35 := by
  obtain ⟨l, u⟩ := cos_II_bounds n
  have ht : I2 n ^ 2 = (1 - cos (II n)) / (1 + cos (II n)) := by
    unfold I2
    rw [tan_eq_sin_div_cos, div_pow, sin_half, cos_half]
    field_simp
  have hc1 := neg_one_le_cos (2 * (p - xi n))
  have hc2 := cos_le_one (2 * (p - xi n))
  have hR : Ra1 n p = sqrt (1 - 12 * I2 n ^ 2 * cos (2 * (p - xi n)) + 36 * (I2 n ^ 2) ^ 2) := by
    unfold Ra1; congr 2; ring
  simp only [FesKind.eval]
  rw [show cos (II n / 2) ^ 4 = (cos (II n / 2) ^ 2) ^ 2 by ring, cos_half, hR, ht]
  generalize cos (2 * (p - xi n)) = c at hc1 hc2 ⊢
  generalize cos (II n) = x at l u ⊢
  obtain ⟨t, e⟩ : ∃ t, t = (1 - x) / (1 + x) := ⟨_, rfl⟩
  have hx : 0 < 1 + x := by linarith
  have t0 : 0 ≤ t := by rw [e]; exact div_nonneg (by linarith) hx.le
  have et : t * (1 + x) = 1 - x := by rw [e]; field_simp
  rw [← e]
  have t1 : t ≤ 0.06497 := by rw [e, div_le_iff₀ hx]; linarith
  have h6 : 0 ≤ 1 - 6 * t := by linarith
  obtain ⟨s1, s2⟩ := sqrt_range (y := 1 - 12 * t * c + 36 * t ^ 2) (lo := 1 - 6 * t)
    (hi := 1 + 6 * t) (by linarith) (by nlinarith) (by nlinarith)
  generalize sqrt (1 - 12 * t * c + 36 * t ^ 2) = r at s1 s2 ⊢
  constructor
  · rw [le_div_iff₀ (by norm_num)]
    have : (1 - 6 * t) * ((1 + x) / 2) ^ 2 ≤ r * ((1 + x) / 2) ^ 2 :=
      mul_le_mul_of_nonneg_right s1 (by positivity)
    have e2 : (1 - 6 * t) * ((1 + x) / 2) ^ 2 = ((1 + x) ^ 2 - 6 * (1 - x) * (1 + x)) / 4 := by
      rw [← et]; ring
    nlinarith
  · rw [div_le_iff₀ (by norm_num)]
    have : r * ((1 + x) / 2) ^ 2 ≤ (1 + 6 * t) * ((1 + x) / 2) ^ 2 :=
      mul_le_mul_of_nonneg_right s2 (by positivity)
    have e2 : (1 + 6 * t) * ((1 + x) / 2) ^ 2 = ((1 + x) ^ 2 + 6 * (1 - x) * (1 + x)) / 4 := by
      rw [← et]; ring
    nlinarith

theorem fes_range (k : FesKind) (n p : ℝ) :
    (k.range.1 : ℝ) ≤ (k.eval n p).2 ∧ (k.eval n p).2 ≤ k.range.2 := by
  have cast : ∀ {a b : ℚ} {y lo hi : ℝ}, (a : ℝ) = lo → (b : ℝ) = hi → lo ≤ y ∧ y ≤ hi →
      (a : ℝ) ≤ y ∧ y ≤ b := by rintro a b y _ _ rfl rfl h; exact h
  cases k
  case mm => exact cast (by norm_num [FesKind.range]) (by norm_num [FesKind.range]) (fes_mm n p)
  case mf => exact cast (by norm_num [FesKind.range]) (by norm_num [FesKind.range]) (fes_mf n p)
  case msf => simp [FesKind.range, FesKind.eval]
  case o1 => exact cast (by norm_num [FesKind.range]) (by norm_num [FesKind.range]) (fes_o1 n p)
  case j1 => exact cast (by norm_num [FesKind.range]) (by norm_num [FesKind.range]) (fes_j1 n p)
  case k1 => exact cast (by norm_num [FesKind.range]) (by norm_num [FesKind.range]) (fes_k1 n p)
  case oo1 => exact cast (by norm_num [FesKind.range]) (by norm_num [FesKind.range]) (fes_oo1 n p)
  case m2 => exact cast (by norm_num [FesKind.range]) (by norm_num [FesKind.range]) (fes_m2 n p)
  case l2 => exact cast (by norm_num [FesKind.range]) (by norm_num [FesKind.range]) (fes_l2 n p)
  case k2 => exact cast (by norm_num [FesKind.range]) (by norm_num [FesKind.range]) (fes_k2 n p)
  case eta2 => exact cast (by norm_num [FesKind.range]) (by norm_num [FesKind.range]) (fes_eta2 n p)
  case m3 => exact cast (by norm_num [FesKind.range]) (by norm_num [FesKind.range]) (fes_m3 n p)

end Verif.Nodal
