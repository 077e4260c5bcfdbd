import Verif.Props.NodalRange
import Verif.Props.Nodal
import Mathlib.Analysis.SpecialFunctions.Trigonometric.ArctanDeriv

/-!
# Continuity of nodal corrections
-/

namespace Verif.Nodal

open Real

/-- The factor and the unit number with the angle are continuous at a time. -/
structure SteadyAt (F : ℝ → ℝ × ℝ) (t : ℝ) : Prop where
  factor : ContinuousAt (fun s => (F s).2) t
  angle : ContinuousAt (fun s => Complex.exp ((F s).1 * Complex.I)) t

theorem SteadyAt.of_angle {F : ℝ → ℝ × ℝ} {t : ℝ} (hf : ContinuousAt (fun s => (F s).2) t)
    (hu : ContinuousAt (fun s => (F s).1) t) : SteadyAt F t :=
  ⟨hf, Complex.continuous_exp.continuousAt.comp
    ((Complex.continuous_ofReal.continuousAt.comp hu).mul continuousAt_const)⟩

theorem steady_arg {F : ℝ → ℝ × ℝ} {t : ℝ} {v : ℝ → ℂ} (hv : ContinuousAt v t) (h0 : ∀ s, v s ≠ 0)
    (hf : ContinuousAt (fun s => (F s).2) t) (hu : ∀ s, (F s).1 = Complex.arg (v s)) : SteadyAt F t := by
  refine ⟨hf, ?_⟩
  have e : (fun s => Complex.exp ((F s).1 * Complex.I)) = fun s => v s / (‖v s‖ : ℂ) := by
    funext s
    rw [hu, eq_div_iff (by simpa using h0 s), mul_comm]
    exact Complex.norm_mul_exp_arg_mul_I (v s)
  rw [e]
  exact hv.div (Complex.continuous_ofReal.continuousAt.comp hv.norm) (by simpa using h0 t)

theorem sinSum_at (l : List Term) {n p : ℝ → ℝ} {t : ℝ} (hn : ContinuousAt n t) (hp : ContinuousAt p t) :
    ContinuousAt (fun s => sinSum l (n s) (p s)) t := by
  induction l with
  | nil => exact continuousAt_const
  | cons a l ih =>
    have e : (fun s => sinSum (a :: l) (n s) (p s)) = fun s =>
        a.a * sin ((a.i * n s + a.j * p s) * dtr) + sinSum l (n s) (p s) := rfl
    rw [e]
    refine ContinuousAt.add (continuousAt_const.mul ?_) ih
    exact continuous_sin.continuousAt.comp
      (((continuousAt_const.mul hn).add (continuousAt_const.mul hp)).mul continuousAt_const)

theorem cosSum_at (l : List Term) {n p : ℝ → ℝ} {t : ℝ} (hn : ContinuousAt n t) (hp : ContinuousAt p t) :
    ContinuousAt (fun s => cosSum l (n s) (p s)) t := by
  induction l with
  | nil => exact continuousAt_const
  | cons a l ih =>
    have e : (fun s => cosSum (a :: l) (n s) (p s)) = fun s =>
        a.a * cos ((a.i * n s + a.j * p s) * dtr) + cosSum l (n s) (p s) := rfl
    rw [e]
    refine ContinuousAt.add (continuousAt_const.mul ?_) ih
    exact continuous_cos.continuousAt.comp
      (((continuousAt_const.mul hn).add (continuousAt_const.mul hp)).mul continuousAt_const)

theorem complex_at {x y : ℝ → ℝ} {t : ℝ} (hx : ContinuousAt x t) (hy : ContinuousAt y t) :
    ContinuousAt (fun s => (⟨x s, y s⟩ : ℂ)) t := by
  have e : (fun s => (⟨x s, y s⟩ : ℂ)) = fun s => (x s : ℂ) + (y s : ℂ) * Complex.I := by
    funext s; exact Complex.mk_eq_add_mul_I _ _
  rw [e]
  exact (Complex.continuous_ofReal.continuousAt.comp hx).add
    ((Complex.continuous_ofReal.continuousAt.comp hy).mul continuousAt_const)

theorem vec_at (s c : List Term) (c0 : ℚ) {n p : ℝ → ℝ} {t : ℝ} (hn : ContinuousAt n t)
    (hp : ContinuousAt p t) : ContinuousAt (fun x => vec s c0 c (n x) (p x)) t :=
  complex_at (continuousAt_const.add (cosSum_at c hn hp)) (sinSum_at s hn hp)

/-! ## The terms of FES -/

theorem II_at {n : ℝ → ℝ} {t : ℝ} (hn : ContinuousAt n t) : ContinuousAt (fun s => II (n s)) t :=
  continuous_arccos.continuousAt.comp (continuousAt_const.sub (continuousAt_const.mul
    (continuous_cos.continuousAt.comp (hn.mul continuousAt_const))))

/-- The difference of the two inverse tangents has no jumps. -/
theorem nu_eq (n : ℝ) : nu n = arctan ((1.01883 - 0.64412) * (sin (n * dtr / 2) * cos (n * dtr / 2)) /
    (cos (n * dtr / 2) ^ 2 + 1.01883 * 0.64412 * sin (n * dtr / 2) ^ 2)) := by
  unfold nu at1 at2
  rw [sub_eq_add_neg, ← arctan_neg, arctan_add (by
    nlinarith [sq_nonneg (tan (n * dtr / 2))]), tan_eq_sin_div_cos]
  congr 1
  by_cases h : cos (n * dtr / 2) = 0
  · rw [h]; simp
  · have h1 : 0 < cos (n * dtr / 2) ^ 2 + 1.01883 * 0.64412 * sin (n * dtr / 2) ^ 2 := by positivity
    have h2 : 1 - 1.01883 * (sin (n * dtr / 2) / cos (n * dtr / 2)) *
        -(0.64412 * (sin (n * dtr / 2) / cos (n * dtr / 2))) =
        (cos (n * dtr / 2) ^ 2 + 1.01883 * 0.64412 * sin (n * dtr / 2) ^ 2) / cos (n * dtr / 2) ^ 2 := by
      field_simp
      ring
    rw [h2]
    field_simp
    ring

theorem half_at {n : ℝ → ℝ} {t : ℝ} (hn : ContinuousAt n t) :
    ContinuousAt (fun s => sin (n s * dtr / 2)) t ∧ ContinuousAt (fun s => cos (n s * dtr / 2)) t :=
  ⟨continuous_sin.continuousAt.comp ((hn.mul continuousAt_const).div_const 2),
    continuous_cos.continuousAt.comp ((hn.mul continuousAt_const).div_const 2)⟩

theorem half_pos (b x : ℝ) (hb : 0 < b) : 0 < cos x ^ 2 + b * sin x ^ 2 := by
  by_cases h : cos x = 0
  · have := sin_sq_add_cos_sq x
    have h1 : sin x ^ 2 = 1 := by rw [h] at this; linarith
    rw [h, h1]; linarith
  · positivity

theorem nu_at {n : ℝ → ℝ} {t : ℝ} (hn : ContinuousAt n t) : ContinuousAt (fun s => nu (n s)) t := by
  simp only [nu_eq]
  obtain ⟨h1, h2⟩ := half_at hn
  refine continuous_arctan.continuousAt.comp ((continuousAt_const.mul (h1.mul h2)).div
    ((h2.pow 2).add (continuousAt_const.mul (h1.pow 2))) ?_)
  exact (half_pos _ _ (by norm_num)).ne'

theorem exp_xi (n : ℝ) : Complex.exp (xi n * Complex.I) =
    Complex.exp ((-at1 n - at2 n + n * dtr : ℝ) * Complex.I) := by
  have h := Complex.norm_mul_exp_arg_mul_I (⟨cos (-at1 n - at2 n + n * dtr),
    sin (-at1 n - at2 n + n * dtr)⟩ : ℂ)
  have e : (⟨cos (-at1 n - at2 n + n * dtr), sin (-at1 n - at2 n + n * dtr)⟩ : ℂ) =
      Complex.exp ((-at1 n - at2 n + n * dtr : ℝ) * Complex.I) := by
    apply Complex.ext
    · exact (Complex.exp_ofReal_mul_I_re _).symm
    · exact (Complex.exp_ofReal_mul_I_im _).symm
  have e1 : ‖(⟨cos (-at1 n - at2 n + n * dtr), sin (-at1 n - at2 n + n * dtr)⟩ : ℂ)‖ = 1 := by
    rw [e]; exact Complex.norm_exp_ofReal_mul_I _
  rw [e1, Complex.ofReal_one, one_mul] at h
  rw [← e]
  exact h

/-- A number with the angle of an inverse tangent. -/
noncomputable def half (a x : ℝ) : ℂ := ⟨cos x, -(a * sin x)⟩

theorem half_ne (a x : ℝ) (ha : 0 < a) : half a x ≠ 0 := by
  intro h
  have h1 := congrArg Complex.re h
  have h2 := congrArg Complex.im h
  simp only [half, Complex.zero_re, Complex.zero_im, neg_eq_zero, mul_eq_zero, ha.ne', false_or] at h1 h2
  have := sin_sq_add_cos_sq x
  rw [h1, h2] at this
  norm_num at this

theorem exp_arctan (y : ℝ) : Complex.exp (-(arctan y : ℂ) * Complex.I) =
    (⟨1, -y⟩ : ℂ) / (‖(⟨1, -y⟩ : ℂ)‖ : ℂ) := by
  have h0 : (⟨1, -y⟩ : ℂ) ≠ 0 := fun h => by simpa using congrArg Complex.re h
  have e : (-(arctan y : ℂ)) = ((Complex.arg ⟨1, -y⟩ : ℝ) : ℂ) := by
    rw [Complex.arg_of_re_nonneg (by simp), ← Complex.ofReal_neg, ← arctan_neg, arctan_eq_arcsin,
      Complex.norm_def, Complex.normSq_mk]
    congr 3
    ring_nf
  rw [e, eq_div_iff (by simpa using h0), mul_comm]
  exact Complex.norm_mul_exp_arg_mul_I _

theorem exp_half (a x : ℝ) (h : cos x ≠ 0) : Complex.exp (-(arctan (a * tan x) : ℂ) * Complex.I) =
    half a x / (‖half a x‖ : ℂ) * ((|cos x| / cos x : ℝ) : ℂ) := by
  have e : half a x = (cos x : ℂ) * ⟨1, -(a * tan x)⟩ := by
    apply Complex.ext
    · simp only [half, Complex.re_ofReal_mul, mul_one]
    · simp only [half, Complex.im_ofReal_mul, tan_eq_sin_div_cos]
      field_simp
  have h0 : (⟨1, -(a * tan x)⟩ : ℂ) ≠ 0 := fun h => by simpa using congrArg Complex.re h
  rw [exp_arctan, e, norm_mul, Complex.norm_real, Real.norm_eq_abs]
  have h1 : ((|cos x| : ℝ) : ℂ) ≠ 0 := by simpa using h
  have h2 : ((cos x : ℝ) : ℂ) ≠ 0 := by exact_mod_cast h
  have h3 : ((‖(⟨1, -(a * tan x)⟩ : ℂ)‖ : ℝ) : ℂ) ≠ 0 := by simpa using h0
  rw [Complex.ofReal_mul, Complex.ofReal_div]
  field_simp

/-- The value of `xi` that leaves no jump where the tangent is not defined. -/
noncomputable def xiFull (n : ℝ) : ℝ := if cos (n * dtr / 2) = 0 then 0 else xi n

theorem exp_xiFull (n : ℝ) : Complex.exp (xiFull n * Complex.I) =
    half 1.01883 (n * dtr / 2) / (‖half 1.01883 (n * dtr / 2)‖ : ℂ) *
      (half 0.64412 (n * dtr / 2) / (‖half 0.64412 (n * dtr / 2)‖ : ℂ)) *
      Complex.exp ((n * dtr : ℝ) * Complex.I) := by
  unfold xiFull
  by_cases h : cos (n * dtr / 2) = 0
  · rw [if_pos h]
    have hs : sin (n * dtr / 2) ^ 2 = 1 := by
      have := sin_sq_add_cos_sq (n * dtr / 2)
      rw [h] at this; linarith
    have key : ∀ a : ℝ, 0 < a → half a (n * dtr / 2) / (‖half a (n * dtr / 2)‖ : ℂ) =
        ((-sin (n * dtr / 2) : ℝ) : ℂ) * Complex.I := by
      intro a ha
      have e : half a (n * dtr / 2) = (a : ℂ) * (((-sin (n * dtr / 2) : ℝ) : ℂ) * Complex.I) := by
        apply Complex.ext
        · simp only [half, h, Complex.re_ofReal_mul, Complex.I_re, mul_zero]
        · simp only [half, Complex.im_ofReal_mul, Complex.I_im]; ring
      have h1 : ‖(((-sin (n * dtr / 2) : ℝ) : ℂ) * Complex.I)‖ = 1 := by
        rw [norm_mul, Complex.norm_I, mul_one, Complex.norm_real, Real.norm_eq_abs]
        have : |sin (n * dtr / 2)| = 1 := by
          rw [← sq_eq_sq₀ (abs_nonneg _) zero_le_one, sq_abs, hs, one_pow]
        rw [abs_neg, this]
      rw [e, norm_mul, h1, Complex.norm_real, Real.norm_eq_abs, abs_of_pos ha, mul_one]
      have : (a : ℂ) ≠ 0 := by exact_mod_cast ha.ne'
      field_simp
    have hexp : Complex.exp ((n * dtr : ℝ) * Complex.I) = -1 := by
      rw [Complex.exp_mul_I, ← Complex.ofReal_cos, ← Complex.ofReal_sin]
      have e : n * dtr = 2 * (n * dtr / 2) := by ring
      rw [e, cos_two_mul, sin_two_mul, h]
      simp
    rw [key _ (by norm_num), key _ (by norm_num), hexp]
    have : (((-sin (n * dtr / 2) : ℝ) : ℂ) * Complex.I) * (((-sin (n * dtr / 2) : ℝ) : ℂ) * Complex.I) = -1 := by
      have h2 : (((-sin (n * dtr / 2) : ℝ) : ℂ)) ^ 2 = 1 := by
        rw [← Complex.ofReal_pow, neg_sq, hs, Complex.ofReal_one]
      calc _ = (((-sin (n * dtr / 2) : ℝ) : ℂ)) ^ 2 * Complex.I ^ 2 := by ring
        _ = -1 := by rw [h2, Complex.I_sq, one_mul]
    rw [this]
    simp
  · rw [if_neg h, exp_xi]
    have e : ((-at1 n - at2 n + n * dtr : ℝ) : ℂ) * Complex.I =
        -(arctan (1.01883 * tan (n * dtr / 2)) : ℂ) * Complex.I +
        -(arctan (0.64412 * tan (n * dtr / 2)) : ℂ) * Complex.I + (n * dtr : ℝ) * Complex.I := by
      unfold at1 at2
      push_cast
      ring
    rw [e, Complex.exp_add, Complex.exp_add, exp_half _ _ h, exp_half _ _ h]
    have hc : ((|cos (n * dtr / 2)| / cos (n * dtr / 2) : ℝ) : ℂ) *
        ((|cos (n * dtr / 2)| / cos (n * dtr / 2) : ℝ) : ℂ) = 1 := by
      rw [← Complex.ofReal_mul, div_mul_div_comm, abs_mul_abs_self, div_self (mul_ne_zero h h),
        Complex.ofReal_one]
    refine congrArg (· * _) ?_
    rw [mul_mul_mul_comm, hc, mul_one]

theorem half_continuous (a : ℝ) {n : ℝ → ℝ} {t : ℝ} (hn : ContinuousAt n t) (ha : 0 < a) :
    ContinuousAt (fun s => half a (n s * dtr / 2) / (‖half a (n s * dtr / 2)‖ : ℂ)) t := by
  obtain ⟨h1, h2⟩ := half_at hn
  have h := complex_at h2 (continuousAt_const.mul h1 (f := fun _ => a)).neg
  exact h.div (Complex.continuous_ofReal.continuousAt.comp h.norm) (by simpa using half_ne a _ ha)

theorem xi_at {n : ℝ → ℝ} {t : ℝ} (hn : ContinuousAt n t) :
    ContinuousAt (fun s => Complex.exp (xiFull (n s) * Complex.I)) t := by
  simp only [exp_xiFull]
  refine ((half_continuous _ hn (by norm_num)).mul (half_continuous _ hn (by norm_num))).mul ?_
  exact Complex.continuous_exp.continuousAt.comp ((Complex.continuous_ofReal.continuousAt.comp
    (hn.mul continuousAt_const)).mul continuousAt_const)

/-- Corrections that agree with continuous ones wherever the tangents of FES are defined. -/
def Smooth (fes : Bool) (n : ℝ → ℝ) (F : ℝ → ℝ × ℝ) : Prop :=
  ∃ F' : ℝ → ℝ × ℝ, (∀ t, SteadyAt F' t) ∧
    ∀ s, (fes = true → cos (n s * dtr / 2) ≠ 0) → F s = F' s

theorem smooth_of {fes : Bool} {n : ℝ → ℝ} {F : ℝ → ℝ × ℝ} (h : ∀ t, SteadyAt F t) : Smooth fes n F :=
  ⟨F, h, fun _ _ => rfl⟩

/-- An angle `a xi + g`. -/
theorem smooth_xi {n g f : ℝ → ℝ} {F : ℝ → ℝ × ℝ} (a : ℤ) (hn : Continuous n)
    (hg : ∀ t, ContinuousAt g t) (hf : ∀ t, ContinuousAt f t)
    (hu : ∀ s, F s = (a * xi (n s) + g s, f s)) : Smooth true n F := by
  refine ⟨fun s => (a * xiFull (n s) + g s, f s), fun t => ⟨hf t, ?_⟩, ?_⟩
  · have e : (fun s => Complex.exp (((a * xiFull (n s) + g s : ℝ) : ℂ) * Complex.I)) = fun s =>
        Complex.exp (xiFull (n s) * Complex.I) ^ a * Complex.exp (g s * Complex.I) := by
      funext s
      rw [← Complex.exp_int_mul, ← Complex.exp_add]
      congr 1
      push_cast; ring
    rw [e]
    refine ContinuousAt.mul ((xi_at hn.continuousAt).zpow₀ a (Or.inl (Complex.exp_ne_zero _))) ?_
    exact Complex.continuous_exp.continuousAt.comp
      ((Complex.continuous_ofReal.continuousAt.comp (hg t)).mul continuousAt_const)
  · intro s hs
    rw [hu]
    simp only [xiFull, if_neg (hs rfl)]

theorem sin_two_II_nonneg (n : ℝ) : 0 ≤ sin (2 * II n) := by
  rw [sin_two_mul]
  have h1 := sin_II_nonneg n
  have h2 := (cos_II_bounds n).1
  have h3 : 0 ≤ cos (II n) := by linarith
  positivity

theorem fes_at (k : FesKind) (hk : k ≠ .l2) {n p : ℝ → ℝ} (hn : Continuous n) :
    Smooth true n (fun s => k.eval (n s) (p s)) := by
  have hI := fun t => II_at (hn.continuousAt (x := t))
  have hnu := fun t => nu_at (hn.continuousAt (x := t))
  have hsin : ∀ t, ContinuousAt (fun s => sin (II (n s))) t := fun t =>
    continuous_sin.continuousAt.comp (hI t)
  have hcos : ∀ t, ContinuousAt (fun s => cos (II (n s) / 2)) t := fun t =>
    continuous_cos.continuousAt.comp ((hI t).div_const 2)
  have hsinh : ∀ t, ContinuousAt (fun s => sin (II (n s) / 2)) t := fun t =>
    continuous_sin.continuousAt.comp ((hI t).div_const 2)
  have hsin2 : ∀ t, ContinuousAt (fun s => sin (2 * II (n s))) t := fun t =>
    continuous_sin.continuousAt.comp (continuousAt_const.mul (hI t))
  have hsn : ∀ t, ContinuousAt (fun s => sin (nu (n s))) t := fun t =>
    continuous_sin.continuousAt.comp (hnu t)
  have hcn : ∀ t, ContinuousAt (fun s => cos (nu (n s))) t := fun t =>
    continuous_cos.continuousAt.comp (hnu t)
  have hs2n : ∀ t, ContinuousAt (fun s => sin (2 * nu (n s))) t := fun t =>
    continuous_sin.continuousAt.comp (continuousAt_const.mul (hnu t))
  have hc2n : ∀ t, ContinuousAt (fun s => cos (2 * nu (n s))) t := fun t =>
    continuous_cos.continuousAt.comp (continuousAt_const.mul (hnu t))
  cases k with
  | mm =>
    have hx : ∀ t, ContinuousAt (fun s => (2 / 3 - sin (II (n s)) ^ 2) / 0.5021) t := fun t =>
      (continuousAt_const.sub ((hsin t).pow 2)).div_const _
    refine smooth_of fun t => steady_arg
      (v := fun s => (⟨(2 / 3 - sin (II (n s)) ^ 2) / 0.5021, 0⟩ : ℂ))
      (complex_at (hx t) continuousAt_const) ?_ ?_ (fun s => rfl)
    · intro s h0
      have h1 := congrArg Complex.re h0
      simp only [Complex.zero_re] at h1
      have h2 := (fes_mm (n s) (p s)).1
      simp only [FesKind.eval] at h2
      rw [h1] at h2
      norm_num at h2
    · exact continuous_sqrt.continuousAt.comp (continuousAt_const.add ((hx t).pow 2))
  | mf =>
    exact smooth_xi (g := fun _ => 0) (f := fun s => sin (II (n s)) ^ 2 / 0.1578) (-2) hn
      (fun t => continuousAt_const) (fun t => ((hsin t).pow 2).div_const _)
      (fun s => by simp only [FesKind.eval]; push_cast; rw [add_zero])
  | msf =>
    exact smooth_xi (g := fun s => -2 * nu (n s)) (f := fun _ => 1) 2 hn
      (fun t => continuousAt_const.mul (hnu t)) (fun t => continuousAt_const)
      (fun s => by simp only [FesKind.eval]; push_cast; refine Prod.ext ?_ rfl; ring)
  | o1 =>
    exact smooth_xi (g := fun s => -nu (n s)) 2 hn (fun t => (hnu t).neg)
      (fun t => ((hsin t).mul ((hcos t).pow 2)).div_const _)
      (fun s => by simp only [FesKind.eval]; push_cast; refine Prod.ext ?_ rfl; ring)
  | j1 => exact smooth_of fun t => SteadyAt.of_angle ((hsin2 t).div_const _) (hnu t).neg
  | k1 =>
    refine smooth_of fun t => SteadyAt.of_angle ?_ ?_
    · exact continuous_sqrt.continuousAt.comp
        (((continuousAt_const.mul ((hsin2 t).pow 2)).add
          ((continuousAt_const.mul (hsin2 t)).mul (hcn t))).add continuousAt_const)
    · refine (continuous_arctan.continuousAt.comp (((hsin2 t).mul (hsn t)).div
        (((hsin2 t).mul (hcn t)).add continuousAt_const) ?_)).neg
      have h1 := sin_two_II_nonneg (n t)
      have h2 := mul_nonneg h1 (cos_nu (n t)).1.le
      have h3 : 0 < sin (2 * II (n t)) * cos (nu (n t)) + 0.3347 := by linarith
      exact h3.ne'
  | oo1 =>
    exact smooth_xi (g := fun s => -nu (n s)) (-2) hn (fun t => (hnu t).neg)
      (fun t => ((hsin t).mul ((hsinh t).pow 2)).div_const _)
      (fun s => by simp only [FesKind.eval]; push_cast; refine Prod.ext ?_ rfl; ring)
  | m2 =>
    exact smooth_xi (g := fun s => -2 * nu (n s)) 2 hn (fun t => continuousAt_const.mul (hnu t))
      (fun t => ((hcos t).pow 4).div_const _)
      (fun s => by simp only [FesKind.eval]; push_cast; refine Prod.ext ?_ rfl; ring)
  | l2 => exact absurd rfl hk
  | k2 =>
    refine smooth_of fun t => SteadyAt.of_angle ?_ ?_
    · exact continuous_sqrt.continuousAt.comp
        (((continuousAt_const.mul ((hsin t).pow 4)).add
          ((continuousAt_const.mul ((hsin t).pow 2)).mul (hc2n t))).add continuousAt_const)
    · refine continuousAt_const.mul (continuousAt_const.mul
        (continuous_arctan.continuousAt.comp ((((hsin t).pow 2).mul (hs2n t)).div
          ((((hsin t).pow 2).mul (hc2n t)).add continuousAt_const) ?_)))
      have h1 := sq_nonneg (sin (II (n t)))
      have h2 : 0 < cos (2 * nu (n t)) := lt_of_lt_of_le (by norm_num) (cos_two_nu (n t)).1
      positivity
  | eta2 =>
    exact smooth_of fun t => SteadyAt.of_angle (((hsin t).pow 2).div_const _)
      (continuousAt_const.mul (hnu t))
  | m3 =>
    exact smooth_xi (g := fun s => -3 * nu (n s)) 3 hn (fun t => continuousAt_const.mul (hnu t))
      (fun t => ((hcos t).pow 6).div_const _)
      (fun s => by simp only [FesKind.eval]; push_cast; refine Prod.ext ?_ rfl; ring)

/-! ## Rules -/

/-- The branch uses the terms of FES. -/
def Rule.isFes : Rule → Bool
  | .fes _ => true
  | _ => false

/-- The tangents of the branch have a denominator. -/
def Rule.tame : Rule → Bool
  | .qOtis _ b => decide (|b| < 1)
  | _ => true

theorem rule_at (r : Rule) (fes : Bool) (ht : r.tame = true) (hp : ∀ n p, 0 < (r.eval n p).2)
    (hl : r.noL2 = true) {n p : ℝ → ℝ} (hn : Continuous n) (hcp : Continuous p)
    (h : r.isFes = true → fes = true) : Smooth fes n (fun s => r.eval (n s) (p s)) := by
  have cn := fun t => hn.continuousAt (x := t)
  have cp := fun t => hcp.continuousAt (x := t)
  cases r with
  | terms s c0 c =>
    refine smooth_of fun t => steady_arg (v := fun x => vec s c0 c (n x) (p x))
      (vec_at s c c0 (cn t) (cp t)) ?_ ?_ (fun x => rfl)
    · intro x h0
      have := hp (n x) (p x)
      simp only [Rule.eval, ← vec_norm, h0, norm_zero, lt_self_iff_false] at this
    · simp only [Rule.eval, ← vec_norm]
      exact (vec_at s c c0 (cn t) (cp t)).norm
  | direct c0 c s =>
    exact smooth_of fun t => SteadyAt.of_angle (continuousAt_const.add (cosSum_at c (cn t) (cp t)))
      (continuousAt_const.mul (sinSum_at s (cn t) (cp t)))
  | mixed s c0 c us =>
    refine smooth_of fun t => SteadyAt.of_angle ?_
      (continuousAt_const.mul (sinSum_at us (cn t) (cp t)))
    simp only [Rule.eval, ← vec_norm]
    exact (vec_at s c c0 (cn t) (cp t)).norm
  | qOtis a b =>
    have hs : ∀ t, ContinuousAt (fun x => sin (n x * dtr)) t := fun t =>
      continuous_sin.continuousAt.comp ((cn t).mul continuousAt_const)
    have hc : ∀ t, ContinuousAt (fun x => cos (n x * dtr)) t := fun t =>
      continuous_cos.continuousAt.comp ((cn t).mul continuousAt_const)
    refine smooth_of fun t => SteadyAt.of_angle ?_ ?_
    · exact continuous_sqrt.continuousAt.comp
        (((continuousAt_const.add (continuousAt_const.mul (hc t))).pow 2).add
          ((continuousAt_const.mul (hs t)).pow 2))
    · refine continuous_arctan.continuousAt.comp ((continuousAt_const.mul (hs t)).div
        (continuousAt_const.add (continuousAt_const.mul (hc t))) ?_)
      have hb : |(b : ℝ)| < 1 := by
        simp only [Rule.tame, decide_eq_true_eq] at ht
        exact_mod_cast ht
      have h1 : |(b : ℝ) * cos (n t * dtr)| < 1 := by
        rw [abs_mul]
        exact lt_of_le_of_lt (mul_le_of_le_one_right (abs_nonneg _) (abs_cos_le_one _)) hb
      have := (abs_lt.1 h1).1
      linarith
  | fes k =>
    rw [h rfl]
    refine fes_at k ?_ hn
    rintro rfl
    simp [Rule.noL2] at hl
  | compound ps =>
    exact smooth_of fun t => SteadyAt.of_angle continuousAt_const continuousAt_const

theorem chain_tame : ∀ b ∈ chain, b.rule.tame = true := by decide +kernel

theorem rule_tame (k : Cfg) (c : String) : (rule k c).tame = true := by
  rcases rule_cases k c with h | ⟨b, hb, _, h⟩
  · rw [h]; rfl
  · rw [h]; exact chain_tame b hb

theorem rule_isFes (k : Cfg) (hk : k.fes = false) (c : String) : (rule k c).isFes = false := by
  have hc : ∀ b ∈ chain, b.rule.isFes = false ∨ b.cond = .fes := by decide +kernel
  unfold rule
  cases h : chain.find? (fun b => b.names.mem c && b.cond.holds k) with
  | none => rfl
  | some b =>
    rcases hc b (List.mem_of_find?_eq_some h) with h' | h'
    · exact h'
    · have := List.find?_some h
      simp [h', Cond.holds, hk] at this

/-- Compound tides. -/
theorem compose_at {t : ℝ} : ∀ (ps : List Parent) (F : List (ℝ → ℝ × ℝ)),
    (∀ f ∈ F, SteadyAt f t) → SteadyAt (fun s => compose ps (F.map fun f => f s)) t
  | [], _, _ => by
    simp only [compose, List.zip_nil_left, List.map_nil, List.sum_nil, List.prod_nil]
    exact SteadyAt.of_angle continuousAt_const continuousAt_const
  | _ :: _, [], _ => by
    simp only [compose, List.map_nil, List.zip_nil_right, List.sum_nil, List.prod_nil]
    exact SteadyAt.of_angle continuousAt_const continuousAt_const
  | q :: ps, f :: F, h => by
    have ih := compose_at ps F fun g hg => h g (by simp [hg])
    have hf := h f (by simp)
    simp only [compose] at ih
    simp only [compose, List.map_cons, List.zip_cons_cons, List.sum_cons, List.prod_cons]
    refine ⟨(hf.factor.pow q.pow).mul ih.factor, ?_⟩
    have e : (fun s => Complex.exp ((((q.mul : ℝ) * (f s).1 +
        ((ps.zip (F.map fun f => f s)).map fun q => (q.1.mul : ℝ) * q.2.1).sum : ℝ) : ℂ) * Complex.I)) =
        fun s => Complex.exp ((f s).1 * Complex.I) ^ q.mul *
          Complex.exp (((((ps.zip (F.map fun f => f s)).map fun q => (q.1.mul : ℝ) * q.2.1).sum : ℝ) : ℂ) *
            Complex.I) := by
      funext s
      rw [← Complex.exp_int_mul, ← Complex.exp_add]
      congr 1
      push_cast; ring
    rw [e]
    exact (hf.angle.zpow₀ q.mul (Or.inl (Complex.exp_ne_zero _))).mul ih.angle

theorem smooth_list {fes : Bool} {n : ℝ → ℝ} {F : List (ℝ → ℝ × ℝ)} (h : ∀ f ∈ F, Smooth fes n f) :
    ∃ F' : List (ℝ → ℝ × ℝ), (∀ f ∈ F', ∀ t, SteadyAt f t) ∧
      ∀ s, (fes = true → cos (n s * dtr / 2) ≠ 0) → F.map (fun f => f s) = F'.map fun f => f s := by
  induction F with
  | nil => exact ⟨[], by simp, fun _ _ => rfl⟩
  | cons f F ih =>
    obtain ⟨f', h1, h2⟩ := h f (by simp)
    obtain ⟨F', h3, h4⟩ := ih fun g hg => h g (by simp [hg])
    refine ⟨f' :: F', ?_, fun s hs => ?_⟩
    · intro g hg
      rcases List.mem_cons.1 hg with rfl | hg
      · exact h1
      · exact h3 g hg
    · rw [List.map_cons, List.map_cons, h2 s hs, h4 s hs]

/-- The corrections of a constituent have no jumps; those of FES if they do not involve L2. -/
theorem one_at (k : Cfg) (c : String) {n p : ℝ → ℝ} (cn : Continuous n) (cp : Continuous p)
    (h : k.fes = false ∨ c ∉ usesL2) : Smooth k.fes n (fun s => one k (n s) (p s) c) := by
  have hfes : ∀ c, (rule k c).isFes = true → k.fes = true := by
    intro c hc
    cases hk : k.fes with
    | true => rfl
    | false => rw [rule_isFes k hk c] at hc; exact absurd hc (by simp)
  have hl : (rule k c).noL2 = true ∧ ∀ q ∈ (rule k c).parents, (rule k q.name).noL2 = true := by
    rcases h with h | h
    · exact ⟨rule_notFes k h c, fun q _ => rule_notFes k h q.name⟩
    · have h1 := rule_noL2 k c h
      refine ⟨h1.1, fun q hq => (rule_noL2 k q.name ?_).1⟩
      have hb := rule_parents k c q hq
      have hn := h1.2 q hq
      have : ∀ b ∈ bases, b ≠ "l2" → b ∉ usesL2 := by decide +kernel
      exact this _ hb hn
  cases hr : rule k c with
  | compound ps =>
    have e : (fun s => one k (n s) (p s) c) = fun s =>
        compose ps ((ps.map fun q => fun s => (rule k q.name).eval (n s) (p s)).map fun f => f s) := by
      funext s
      unfold one
      rw [hr, List.map_map]
      rfl
    rw [e]
    obtain ⟨F', h1, h2⟩ := smooth_list (fes := k.fes) (n := n)
      (F := ps.map fun q => fun s => (rule k q.name).eval (n s) (p s)) (by
        intro f hf
        obtain ⟨q, hq, rfl⟩ := List.mem_map.1 hf
        exact rule_at _ _ (rule_tame k _) (rule_positive k _) (hl.2 q (by rw [hr]; exact hq)) cn cp
          (hfes _))
    exact ⟨_, fun t => compose_at ps F' fun f hf => h1 f hf t, fun s hs => congrArg (compose ps) (h2 s hs)⟩
  | _ =>
    have e : (fun s => one k (n s) (p s) c) = fun s => (rule k c).eval (n s) (p s) := by
      funext s
      exact one_plain k _ _ (by rw [hr]; rfl)
    rw [e]
    exact rule_at _ _ (rule_tame k _) (rule_positive k _) hl.1 cn cp (hfes _)

/-! ## Whole turns -/

theorem one_node (k : Cfg) (c : String) (n p : ℝ) : one k (n + 360) p c = one k n p c := by
  have h := C30_node k n p 2 [c]
  rw [nodal_eq, nodal_eq] at h
  simpa using h

theorem one_perigee (k : Cfg) (c : String) (h : k.fes = false ∨ c ∉ usesL2) (n p : ℝ) :
    one k n (p + 360) c = one k n p c := by
  have h := C30_perigee_partial k n p 2 [c] (by simpa using h)
  rw [nodal_eq, nodal_eq] at h
  simpa using h

theorem one_turns (k : Cfg) (c : String) (h : k.fes = false ∨ c ∉ usesL2) (n p : ℝ) (i j : ℤ) :
    one k (n + 360 * i) (p + 360 * j) c = one k n p c := by
  have h1 : Function.Periodic (fun n => one k n (p + 360 * j) c) 360 := fun n => one_node k c n _
  have h2 : Function.Periodic (fun p => one k n p c) 360 := fun p => one_perigee k c h n p
  have e1 := h1.int_mul i n
  have e2 := h2.int_mul j p
  simp only [mul_comm (360 : ℝ)] at e1 e2 ⊢
  rw [e1, e2]

end Verif.Nodal
