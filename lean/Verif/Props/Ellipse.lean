import Verif.Model.Math
import Verif.Lemmas.Num
import Mathlib.Tactic.Linarith
import Mathlib.Tactic.FieldSimp
/-!
Property C05: tidal ellipse parameters and complex currents are inverse to each other.
-/
namespace Verif.Math
open Verif Real
open Complex (I)

/-- `A * exp(i (x + n π)) ...`: the exponential does not see whole turns. -/
theorem exp_turn (x : ℝ) (n : ℤ) :
    Complex.exp (I * ((x + n * (2 * π) : ℝ) : ℂ)) = Complex.exp (I * x) := by
  have : I * ((x + n * (2 * π) : ℝ) : ℂ) = I * x + n * (2 * π * I) := by push_cast; ring
  rw [this, Complex.exp_add, Complex.exp_int_mul_two_pi_mul_I, mul_one]

theorem norm_exp_arg (w : ℂ) : (‖w‖ : ℂ) * Complex.exp (I * Complex.arg w) = w := by
  rw [mul_comm I]; exact Complex.norm_mul_exp_arg_mul_I w

/-- C05: converting the ellipse parameters of `(u, v)` back gives `(u, v)`. -/
theorem C05_inverse_of_ellipse (u v : ℂ) :
    let e := ellipse u v
    ellipseInverse e.1 e.2.1 e.2.2.1 e.2.2.2 = (u, v) := by
  have hpi : π ≠ 0 := pi_ne_zero
  simp only [ellipse, ellipseInverse, Num.floorDiv, Num.fmod]
  set wp := (u + I * v) / 2 with hwp
  set wm := (starRingEnd ℂ) (u - I * v) / 2 with hwm
  set k : ℤ := ⌊(Complex.arg wm * 180 / π + Complex.arg wp * 180 / π) / 2 / 180⌋ with hk
  set j : ℤ := ⌊((Complex.arg wm * 180 / π - Complex.arg wp * 180 / π) / 2 + 180 * (k : ℝ)) / 360⌋
    with hj
  have e1 : ((Complex.arg wm * 180 / π + Complex.arg wp * 180 / π) / 2 - 180 * (k : ℝ)) * π / 180 -
      ((Complex.arg wm * 180 / π - Complex.arg wp * 180 / π) / 2 + 180 * (k : ℝ)
        - 360 * (j : ℝ)) * π / 180 =
      Complex.arg wp + ((j - k : ℤ) : ℝ) * (2 * π) := by
    push_cast; field_simp; ring
  have e2 : ((Complex.arg wm * 180 / π + Complex.arg wp * 180 / π) / 2 - 180 * (k : ℝ)) * π / 180 +
      ((Complex.arg wm * 180 / π - Complex.arg wp * 180 / π) / 2 + 180 * (k : ℝ)
        - 360 * (j : ℝ)) * π / 180 =
      Complex.arg wm + ((-j : ℤ) : ℝ) * (2 * π) := by
    push_cast; field_simp; ring
  have e3 : (‖wp‖ + ‖wm‖ + (‖wp‖ - ‖wm‖)) / 2 = ‖wp‖ := by ring
  have e4 : (‖wp‖ + ‖wm‖ - (‖wp‖ - ‖wm‖)) / 2 = ‖wm‖ := by ring
  rw [e1, e2, e3, e4, exp_turn, exp_turn, norm_exp_arg, norm_exp_arg]
  have hc : (starRingEnd ℂ) wm = (u - I * v) / 2 := by
    rw [hwm, map_div₀, Complex.conj_conj, map_ofNat]
  rw [hc, hwp]
  refine Prod.ext ?_ ?_
  · simp only; ring
  · simp only
    calc -I * ((u + I * v) / 2 - (u - I * v) / 2) = -(I * I) * v := by ring
      _ = v := by rw [Complex.I_mul_I]; ring

/-- C05: the major axis is at least the absolute value of the minor axis, the inclination is in
`[0, 180)` and the phase in `[0, 360)`. -/
theorem C05_ellipse_ranges (u v : ℂ) :
    |(ellipse u v).2.1| ≤ (ellipse u v).1 ∧
    0 ≤ (ellipse u v).2.2.1 ∧ (ellipse u v).2.2.1 < 180 ∧
    0 ≤ (ellipse u v).2.2.2 ∧ (ellipse u v).2.2.2 < 360 := by
  refine ⟨?_, ?_, ?_, Num.fmod_nonneg (by norm_num), Num.fmod_lt (by norm_num)⟩
  · simp only [ellipse]
    rw [abs_le]
    constructor <;> linarith [norm_nonneg ((u + I * v) / 2),
      norm_nonneg ((starRingEnd ℂ) (u - I * v) / 2)]
  · exact Num.fmod_nonneg (x := (Complex.arg ((starRingEnd ℂ) (u - I * v) / 2) * 180 / π
      + Complex.arg ((u + I * v) / 2) * 180 / π) / 2) (by norm_num : (0 : ℝ) < 180)
  · exact Num.fmod_lt (x := (Complex.arg ((starRingEnd ℂ) (u - I * v) / 2) * 180 / π
      + Complex.arg ((u + I * v) / 2) * 180 / π) / 2) (by norm_num : (0 : ℝ) < 180)

/-- The argument of `a e^{ix}` in degrees is `x` in degrees up to whole turns. -/
theorem arg_exp_turn (a x : ℝ) (ha : 0 < a) :
    ∃ n : ℤ, Complex.arg ((a : ℂ) * Complex.exp (I * x)) * 180 / π = x * 180 / π + 360 * n := by
  refine ⟨-⌈(x - π) / (2 * π)⌉, ?_⟩
  have hpi : π ≠ 0 := pi_ne_zero
  rw [Complex.arg_real_mul _ ha, mul_comm I, Complex.arg_exp_mul_I]
  unfold toIocMod
  have h : toIocDiv two_pi_pos (-π) x = ⌈(x - π) / (2 * π)⌉ := by
    apply toIocDiv_eq_of_sub_zsmul_mem_Ioc
    have h1 := Int.le_ceil ((x - π) / (2 * π))
    have h2 := Int.ceil_lt_add_one ((x - π) / (2 * π))
    have hp : 0 < 2 * π := two_pi_pos
    rw [div_le_iff₀ hp] at h1
    have h3 : (⌈(x - π) / (2 * π)⌉ : ℝ) * (2 * π) < x - π + 2 * π := by
      have := mul_lt_mul_of_pos_right h2 hp
      rw [add_mul, div_mul_cancel₀ _ hp.ne', one_mul] at this
      exact this
    simp only [zsmul_eq_mul, Set.mem_Ioc]
    constructor <;> linarith
  rw [h]
  simp only [zsmul_eq_mul]
  push_cast
  field_simp
  ring

/-- C05: computing the ellipse of the currents given by canonical ellipse parameters returns
these parameters. -/
theorem C05_ellipse_of_inverse (umajor uminor uincl uphase : ℝ)
    (hm : |uminor| < umajor) (hi0 : 0 ≤ uincl) (hi1 : uincl < 180)
    (hp0 : 0 ≤ uphase) (hp1 : uphase < 360) :
    let c := ellipseInverse umajor uminor uincl uphase
    ellipse c.1 c.2 = (umajor, uminor, uincl, uphase) := by
  have hpi : π ≠ 0 := pi_ne_zero
  obtain ⟨hm1, hm2⟩ := abs_lt.mp hm
  have hap : 0 < (umajor + uminor) / 2 := by linarith
  have ham : 0 < (umajor - uminor) / 2 := by linarith
  simp only [ellipseInverse]
  set x := uincl * π / 180 - uphase * π / 180 with hx
  set y := uincl * π / 180 + uphase * π / 180 with hy
  set wp : ℂ := (((umajor + uminor) / 2 : ℝ) : ℂ) * Complex.exp (I * x) with hwp
  set wm : ℂ := (((umajor - uminor) / 2 : ℝ) : ℂ) * Complex.exp (I * y) with hwm
  have hII : I * (-I * (wp - (starRingEnd ℂ) wm)) = wp - (starRingEnd ℂ) wm := by
    rw [← mul_assoc, mul_neg, Complex.I_mul_I]; ring
  have h1 : (wp + (starRingEnd ℂ) wm + I * (-I * (wp - (starRingEnd ℂ) wm))) / 2 = wp := by
    rw [hII]; ring
  have h2 : (starRingEnd ℂ) (wp + (starRingEnd ℂ) wm - I * (-I * (wp - (starRingEnd ℂ) wm))) / 2
      = wm := by
    rw [hII]
    have : wp + (starRingEnd ℂ) wm - (wp - (starRingEnd ℂ) wm) = 2 * (starRingEnd ℂ) wm := by ring
    rw [this, map_mul, Complex.conj_conj, map_ofNat]
    ring
  have nexp : ∀ t : ℝ, ‖Complex.exp (I * t)‖ = 1 := fun t => by
    rw [mul_comm]; exact Complex.norm_exp_ofReal_mul_I t
  have n1 : ‖wp‖ = (umajor + uminor) / 2 := by
    rw [hwp, norm_mul, nexp, mul_one, Complex.norm_real, Real.norm_eq_abs, abs_of_pos hap]
  have n2 : ‖wm‖ = (umajor - uminor) / 2 := by
    rw [hwm, norm_mul, nexp, mul_one, Complex.norm_real, Real.norm_eq_abs, abs_of_pos ham]
  obtain ⟨a, ha⟩ := arg_exp_turn _ x hap
  obtain ⟨b, hb⟩ := arg_exp_turn _ y ham
  rw [← hwp] at ha
  rw [← hwm] at hb
  have hx' : x * 180 / π = uincl - uphase := by rw [hx]; field_simp
  have hy' : y * 180 / π = uincl + uphase := by rw [hy]; field_simp
  rw [hx'] at ha
  rw [hy'] at hb
  simp only [ellipse, h1, h2, n1, n2, ha, hb]
  have hk : Num.floorDiv ((uincl + uphase + 360 * (b : ℝ) + (uincl - uphase + 360 * (a : ℝ))) / 2)
      180 = (a : ℝ) + b := by
    unfold Num.floorDiv
    have : ⌊(uincl + uphase + 360 * (b : ℝ) + (uincl - uphase + 360 * (a : ℝ))) / 2 / 180⌋ = a + b := by
      rw [Int.floor_eq_iff]
      push_cast
      constructor
      · rw [le_div_iff₀ (by norm_num)]; linarith
      · rw [div_lt_iff₀ (by norm_num)]; linarith
    rw [this]; push_cast; rfl
  rw [hk]
  refine Prod.ext ?_ (Prod.ext ?_ (Prod.ext ?_ ?_))
  · simp only; ring
  · simp only; ring
  · simp only; ring
  · simp only
    exact Num.fmod_unique (by norm_num) hp0 hp1 b (by ring)

/-- The hypotheses of the second direction are met by an ordinary clockwise ellipse. -/
example : |(-0.2 : ℝ)| < 1.5 ∧ (0 : ℝ) ≤ 35 ∧ (35 : ℝ) < 180 ∧ (0 : ℝ) ≤ 270 ∧ (270 : ℝ) < 360 := by
  norm_num [abs_lt]

end Verif.Math
