import Verif.Props.MinorArguments
import Mathlib.Analysis.Real.Pi.Bounds
/-!
# Sums of unit numbers with rational coefficients
-/
namespace Verif.Nodal
open Real Spec.Minor

/-- A sum of `a * exp (i (j n + k p))`. -/
abbrev Poly := List (ℤ × ℤ × ℚ)

/-- One unit number. -/
noncomputable def unit (j k : ℤ) (n p : ℝ) : ℂ := Complex.exp (((j * n + k * p) * dtr : ℝ) * Complex.I)

/-- Its value. -/
noncomputable def Poly.val (l : Poly) (n p : ℝ) : ℂ :=
  (l.map fun t => (t.2.2 : ℂ) * unit t.1 t.2.1 n p).sum

theorem unit_norm (j k : ℤ) (n p : ℝ) : ‖unit j k n p‖ = 1 := Complex.norm_exp_ofReal_mul_I _

theorem unit_mul (j k j' k' : ℤ) (n p : ℝ) :
    unit j k n p * unit j' k' n p = unit (j + j') (k + k') n p := by
  unfold unit
  rw [← Complex.exp_add]
  congr 1
  push_cast
  ring

theorem unit_zero (n p : ℝ) : unit 0 0 n p = 1 := by simp [unit]

theorem val_nil (n p : ℝ) : Poly.val [] n p = 0 := rfl

theorem val_cons (t : ℤ × ℤ × ℚ) (l : Poly) (n p : ℝ) :
    Poly.val (t :: l) n p = (t.2.2 : ℂ) * unit t.1 t.2.1 n p + Poly.val l n p := rfl

theorem val_append (a b : Poly) (n p : ℝ) :
    Poly.val (a ++ b) n p = Poly.val a n p + Poly.val b n p := by
  simp [Poly.val]

/-- A multiple. -/
def Poly.scale (q : ℚ) (l : Poly) : Poly := l.map fun t => (t.1, t.2.1, q * t.2.2)

theorem val_scale (q : ℚ) (l : Poly) (n p : ℝ) : (l.scale q).val n p = q * l.val n p := by
  induction l with
  | nil => simp [Poly.scale, Poly.val]
  | cons t l ih =>
    have e : Poly.scale q (t :: l) = (t.1, t.2.1, q * t.2.2) :: Poly.scale q l := rfl
    rw [e, val_cons, ih, val_cons]
    push_cast
    ring

/-- Adds a term to the one with the same key. -/
def Poly.add1 (t : ℤ × ℤ × ℚ) : Poly → Poly
  | [] => [t]
  | u :: l => if u.1 = t.1 ∧ u.2.1 = t.2.1 then (u.1, u.2.1, u.2.2 + t.2.2) :: l else u :: Poly.add1 t l

theorem val_add1 (t : ℤ × ℤ × ℚ) (n p : ℝ) :
    ∀ l : Poly, (Poly.add1 t l).val n p = (t.2.2 : ℂ) * unit t.1 t.2.1 n p + l.val n p
  | [] => rfl
  | u :: l => by
    rw [Poly.add1]
    split
    · next h =>
      rw [val_cons, val_cons, ← h.1, ← h.2]
      push_cast
      ring
    · rw [val_cons, val_cons, val_add1 t n p l]
      ring

/-- Each key once. -/
def Poly.collect (l : Poly) : Poly := l.foldr Poly.add1 []

theorem val_collect (l : Poly) (n p : ℝ) : l.collect.val n p = l.val n p := by
  induction l with
  | nil => rfl
  | cons t l ih =>
    have e : Poly.collect (t :: l) = Poly.add1 t (Poly.collect l) := rfl
    rw [e, val_add1, ih, val_cons]

/-- The sum of the absolute values of the coefficients. -/
def Poly.size (l : Poly) : ℚ := (l.collect.map fun t => |t.2.2|).sum

theorem norm_val (l : Poly) (n p : ℝ) : ‖l.val n p‖ ≤ ((l.map fun t => |t.2.2|).sum : ℚ) := by
  induction l with
  | nil => simp [Poly.val]
  | cons t l ih =>
    rw [val_cons, List.map_cons, List.sum_cons]
    refine (norm_add_le _ _).trans ?_
    rw [norm_mul, unit_norm, mul_one]
    push_cast at ih ⊢
    refine add_le_add ?_ ih
    rw [show ((t.2.2 : ℚ) : ℂ) = ((t.2.2 : ℝ) : ℂ) by push_cast; rfl, Complex.norm_real, Real.norm_eq_abs]

theorem norm_le_size (l : Poly) (n p : ℝ) : ‖l.val n p‖ ≤ (l.size : ℝ) := by
  rw [← val_collect]
  exact norm_val _ n p

/-- Products. -/
def Poly.mul (a b : Poly) : Poly :=
  Poly.collect (a.flatMap fun t => b.map fun u => (t.1 + u.1, t.2.1 + u.2.1, t.2.2 * u.2.2))

theorem val_times (t : ℤ × ℤ × ℚ) (b : Poly) (n p : ℝ) :
    Poly.val (b.map fun u => (t.1 + u.1, t.2.1 + u.2.1, t.2.2 * u.2.2)) n p =
      (t.2.2 : ℂ) * unit t.1 t.2.1 n p * b.val n p := by
  induction b with
  | nil => simp [Poly.val]
  | cons u b ih =>
    rw [List.map_cons, val_cons, val_cons, ih]
    dsimp only
    rw [← unit_mul]
    push_cast
    ring

theorem val_mul (a b : Poly) (n p : ℝ) : (a.mul b).val n p = a.val n p * b.val n p := by
  rw [Poly.mul, val_collect]
  induction a with
  | nil => simp [Poly.val]
  | cons t a ih => rw [List.flatMap_cons, val_append, ih, val_cons, add_mul, val_times]

/-! ### Series -/

/-- A cosine series. -/
def Poly.cosines (l : List Term) : Poly := l.flatMap fun t => [(t.i, t.j, t.a / 2), (-t.i, -t.j, t.a / 2)]

/-- The imaginary unit times a sine series. -/
def Poly.sines (l : List Term) : Poly := l.flatMap fun t => [(t.i, t.j, t.a / 2), (-t.i, -t.j, -(t.a / 2))]

theorem unit_eq (j k : ℤ) (n p : ℝ) : unit j k n p =
    (cos ((j * n + k * p) * dtr) : ℂ) + (sin ((j * n + k * p) * dtr) : ℂ) * Complex.I := by
  unfold unit
  rw [Complex.exp_mul_I]
  push_cast
  rfl

theorem unit_neg (j k : ℤ) (n p : ℝ) : unit (-j) (-k) n p =
    (cos ((j * n + k * p) * dtr) : ℂ) - (sin ((j * n + k * p) * dtr) : ℂ) * Complex.I := by
  rw [unit_eq, show (((-j : ℤ) : ℝ) * n + ((-k : ℤ) : ℝ) * p) * dtr = -((j * n + k * p) * dtr) by
    push_cast; ring]
  rw [cos_neg, sin_neg]
  push_cast
  ring

theorem val_cosines (l : List Term) (n p : ℝ) : (Poly.cosines l).val n p = (cosSum l n p : ℂ) := by
  induction l with
  | nil => simp [Poly.cosines, Poly.val, cosSum]
  | cons t l ih =>
    have e : Poly.cosines (t :: l) =
      (t.i, t.j, t.a / 2) :: (-t.i, -t.j, t.a / 2) :: Poly.cosines l := rfl
    have e2 : cosSum (t :: l) n p = t.a * cos ((t.i * n + t.j * p) * dtr) + cosSum l n p := rfl
    rw [e, val_cons, val_cons, ih, e2, unit_neg, unit_eq]
    push_cast
    ring

theorem val_sines (l : List Term) (n p : ℝ) :
    (Poly.sines l).val n p = (sinSum l n p : ℂ) * Complex.I := by
  induction l with
  | nil => simp [Poly.sines, Poly.val, sinSum]
  | cons t l ih =>
    have e : Poly.sines (t :: l) =
      (t.i, t.j, t.a / 2) :: (-t.i, -t.j, -(t.a / 2)) :: Poly.sines l := rfl
    have e2 : sinSum (t :: l) n p = t.a * sin ((t.i * n + t.j * p) * dtr) + sinSum l n p := rfl
    rw [e, val_cons, val_cons, ih, e2, unit_neg, unit_eq]
    push_cast
    ring

/-- The modulation of a rule with series. -/
def Poly.terms (s : List Term) (c0 : ℚ) (c : List Term) : Poly := (0, 0, c0) :: (Poly.cosines c ++ Poly.sines s)

theorem val_terms (s : List Term) (c0 : ℚ) (c : List Term) (n p : ℝ) :
    (Poly.terms s c0 c).val n p = vec s c0 c n p := by
  rw [Poly.terms, val_cons, val_append, val_cosines, val_sines, unit_zero, vec]
  apply Complex.ext
  · simp
  · simp

/-! ### Exponentials -/

/-- A rational number near a degree in radians. -/
def degree : ℚ := 0.0174532925199433

theorem dtr_near : |dtr - (degree : ℝ)| ≤ 1e-15 := by
  have h1 := pi_gt_d20
  have h2 := pi_lt_d20
  unfold dtr degree
  rw [Rat.cast_ofScientific, abs_le]
  constructor <;> linarith

/-- The beginning of the exponential series. -/
def Poly.exponential (x : Poly) : Poly :=
  let x2 := x.mul x
  let x3 := x2.mul x
  let x4 := x3.mul x
  Poly.collect ((0, 0, 1) :: (x ++ (x2.scale (1 / 2) ++ (x3.scale (1 / 6) ++ x4.scale (1 / 24)))))

theorem val_exponential (x : Poly) (n p : ℝ) : x.exponential.val n p =
    1 + x.val n p + x.val n p ^ 2 / 2 + x.val n p ^ 3 / 6 + x.val n p ^ 4 / 24 := by
  rw [Poly.exponential, val_collect, val_cons, val_append, val_append, val_append, val_scale, val_scale,
    val_scale]
  simp only [val_mul, unit_zero]
  push_cast
  ring

theorem exp_exponential (x : Poly) (n p : ℝ) (hs : x.size ≤ 1) :
    ‖Complex.exp (x.val n p) - x.exponential.val n p‖ ≤ ((x.size ^ 5 / 100 : ℚ) : ℝ) := by
  have h1 := norm_le_size x n p
  have hs' : (x.size : ℝ) ≤ 1 := by exact_mod_cast hs
  have h := Complex.exp_bound (h1.trans hs') (n := 5) (by norm_num)
  have e : ∑ m ∈ Finset.range 5, x.val n p ^ m / (m.factorial : ℂ) = x.exponential.val n p := by
    rw [val_exponential]
    simp only [Finset.sum_range_succ, Finset.sum_range_zero, Nat.factorial]
    push_cast
    ring
  rw [e] at h
  refine h.trans ?_
  have h2 : ‖x.val n p‖ ^ 5 ≤ (x.size : ℝ) ^ 5 := pow_le_pow_left₀ (norm_nonneg _) h1 5
  push_cast
  norm_num [Nat.factorial]
  linarith

/-- The unit number with the angle of a sine series in degrees, and how far it is off. -/
def Poly.turn (us : List Term) : Poly := ((Poly.sines us).scale degree).exponential

def turnError (us : List Term) : ℚ :=
  ((Poly.sines us).scale degree).size ^ 5 / 100 + (Poly.sines us).size / 10 ^ 15

theorem turn_near (us : List Term) (n p : ℝ) (hs : ((Poly.sines us).scale degree).size ≤ 1) :
    ‖Complex.exp (((dtr * sinSum us n p : ℝ) : ℂ) * Complex.I) - (Poly.turn us).val n p‖ ≤
      (turnError us : ℝ) := by
  have h1 := exp_exponential _ n p hs
  rw [val_scale, val_sines] at h1
  have e : ((degree : ℚ) : ℂ) * ((sinSum us n p : ℂ) * Complex.I) =
      ((degree * sinSum us n p : ℝ) : ℂ) * Complex.I := by
    push_cast
    ring
  rw [e] at h1
  have h2 : ‖Complex.exp (((dtr * sinSum us n p : ℝ) : ℂ) * Complex.I) -
      Complex.exp (((degree * sinSum us n p : ℝ) : ℂ) * Complex.I)‖ ≤
      |dtr * sinSum us n p - degree * sinSum us n p| := by
    rw [← Real.norm_eq_abs]
    have := Real.norm_exp_I_mul_ofReal_sub_one_le (x := dtr * sinSum us n p - degree * sinSum us n p)
    refine le_trans (le_of_eq ?_) this
    rw [show (((dtr * sinSum us n p : ℝ) : ℂ) * Complex.I) =
      ((degree * sinSum us n p : ℝ) : ℂ) * Complex.I +
        Complex.I * ((dtr * sinSum us n p - degree * sinSum us n p : ℝ) : ℂ) by push_cast; ring,
      Complex.exp_add, ← mul_sub_one, norm_mul, Complex.norm_exp_ofReal_mul_I, one_mul]
  have h3 : |sinSum us n p| ≤ ((Poly.sines us).size : ℝ) := by
    have := norm_le_size (Poly.sines us) n p
    rw [val_sines, norm_mul, Complex.norm_I, mul_one, Complex.norm_real, Real.norm_eq_abs] at this
    exact this
  have h4 : |dtr * sinSum us n p - degree * sinSum us n p| ≤ (((Poly.sines us).size / 10 ^ 15 : ℚ) : ℝ) := by
    rw [← sub_mul, abs_mul]
    refine (mul_le_mul dtr_near h3 (abs_nonneg _) (by norm_num)).trans (le_of_eq ?_)
    push_cast
    norm_num
    ring
  rw [← sub_add_sub_cancel _ (Complex.exp (((degree * sinSum us n p : ℝ) : ℂ) * Complex.I)) _]
  refine (norm_add_le _ _).trans ?_
  rw [turnError, Poly.turn]
  push_cast at h1 h2 h4 ⊢
  linarith

/-! ### Numbers near the positive axis -/

/-- The conjugate. -/
def Poly.conj (l : Poly) : Poly := l.map fun t => (-t.1, -t.2.1, t.2.2)

theorem val_conj (l : Poly) (n p : ℝ) : l.conj.val n p = (starRingEnd ℂ) (l.val n p) := by
  induction l with
  | nil => simp [Poly.conj, Poly.val]
  | cons t l ih =>
    have e : Poly.conj (t :: l) = (-t.1, -t.2.1, t.2.2) :: Poly.conj l := rfl
    rw [e, val_cons, val_cons, ih, map_add, map_mul]
    congr 2
    · simp
    · rw [unit_neg, unit_eq]
      simp only [map_add, map_mul, Complex.conj_ofReal, Complex.conj_I]
      ring

theorem im_le (l : Poly) (n p : ℝ) : |(l.val n p).im| ≤ (((Poly.collect (l ++ l.conj.scale (-1))).size / 2 : ℚ) : ℝ) := by
  have h := norm_le_size (Poly.collect (l ++ l.conj.scale (-1))) n p
  rw [val_collect, val_append, val_scale, val_conj] at h
  have e : l.val n p + ((-1 : ℚ) : ℂ) * (starRingEnd ℂ) (l.val n p) =
      ((2 * (l.val n p).im : ℝ) : ℂ) * Complex.I := by
    apply Complex.ext
    · simp
    · simp; ring
  rw [e, norm_mul, Complex.norm_I, mul_one, Complex.norm_real, Real.norm_eq_abs, abs_mul,
    abs_of_pos (by norm_num : (0 : ℝ) < 2)] at h
  push_cast
  linarith

theorem near_axis (w : ℂ) (h : 0 ≤ w.re) : ‖(‖w‖ : ℂ) - w‖ ≤ 3 / 2 * |w.im| := by
  have h1 : ‖w‖ ^ 2 = w.re ^ 2 + w.im ^ 2 := by
    rw [Complex.sq_norm, Complex.normSq_apply]
    ring
  have h2 : w.re ≤ ‖w‖ := Complex.re_le_norm w
  have h0 := norm_nonneg w
  refine abs_le_of_sq_le_sq' ?_ (by positivity) |>.2
  have e : ‖(‖w‖ : ℂ) - w‖ ^ 2 = (‖w‖ - w.re) ^ 2 + w.im ^ 2 := by
    rw [Complex.sq_norm, Complex.normSq_apply]
    simp
    ring
  rw [e, mul_pow, sq_abs]
  nlinarith [mul_nonneg (sub_nonneg.2 h2) h]

end Verif.Nodal
