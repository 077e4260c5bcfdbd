import Verif.Props.NodalRange
import Mathlib.Analysis.SpecialFunctions.Trigonometric.Bounds
import Mathlib.Analysis.Real.Pi.Bounds
/-!
How fast nodal corrections vary when the node and the perigee move at their rates.
-/
namespace Verif.Nodal

open Real

/-- The nodal correction as one complex factor. -/
noncomputable def factorOf (x : ℝ × ℝ) : ℂ := (x.2 : ℂ) * Complex.exp (x.1 * Complex.I)

/-- Degrees that an argument moves in a day, times its coefficient. -/
def Term.rate (t : Term) : ℚ := |t.a| * (|(t.i : ℚ)| * (5295377 / 100000000) + |(t.j : ℚ)| * (11140353 / 100000000))

def seriesRate (l : List Term) : ℚ := (l.map Term.rate).sum

def sizeOf (l : List Term) : ℚ := (l.map fun t => |t.a|).sum

/-- Bound of the change of the correction of a branch in a day, in degrees. -/
def Rule.rate : Rule → ℚ
  | .terms s _ c => seriesRate s + seriesRate c
  | .direct c0 c s => seriesRate c + (|c0| + sizeOf c) * ((17454 / 1000000) * seriesRate s)
  | .mixed s c0 c us => seriesRate s + seriesRate c
      + (Rule.mixed s c0 c us).range.2 * ((17454 / 1000000) * seriesRate us)
  | .qOtis a b => (|a| + (1 + |a|) * (2 * |b| / (1 - |b|))) * (5295377 / 100000000)
  | _ => 0

/-- The branches whose rate is given. -/
def Rule.slow : Rule → Bool
  | .terms _ _ _ | .direct _ _ _ | .mixed _ _ _ _ => true
  | .qOtis _ b => decide (|b| < 1)
  | _ => false

/-- The node and the perigee move by no more than in `τ` days. -/
structure Near (n p n' p' τ : ℝ) : Prop where
  node : |n' - n| ≤ 5295377 / 100000000 * τ
  perigee : |p' - p| ≤ 11140353 / 100000000 * τ

theorem dtr_pos : 0 < dtr := by unfold dtr; positivity

theorem dtr_le : dtr ≤ 17454 / 1000000 := by
  unfold dtr
  have := pi_lt_d6
  linarith

theorem Term.rate_nonneg (t : Term) : 0 ≤ t.rate := by unfold Term.rate; positivity

theorem seriesRate_nonneg : ∀ l : List Term, 0 ≤ seriesRate l
  | [] => by simp [seriesRate]
  | t :: l => by
    have := seriesRate_nonneg l
    have := t.rate_nonneg
    simp only [seriesRate, List.map_cons, List.sum_cons] at *
    linarith

theorem angle_near {n p n' p' τ : ℝ} (h : Near n p n' p' τ) (t : Term) :
    |(t.a : ℝ)| * |((t.i * n' + t.j * p') * dtr - (t.i * n + t.j * p) * dtr)| ≤ t.rate * (dtr * τ) := by
  have e : (t.i * n' + t.j * p') * dtr - (t.i * n + t.j * p) * dtr
      = (t.i * (n' - n) + t.j * (p' - p)) * dtr := by ring
  rw [e, abs_mul, abs_of_pos dtr_pos]
  have h1 : |(t.i : ℝ) * (n' - n) + t.j * (p' - p)| ≤
      (|(t.i : ℝ)| * (5295377 / 100000000) + |(t.j : ℝ)| * (11140353 / 100000000)) * τ := by
    refine (abs_add_le _ _).trans ?_
    rw [abs_mul, abs_mul]
    have a1 := mul_le_mul_of_nonneg_left h.node (abs_nonneg (t.i : ℝ))
    have a2 := mul_le_mul_of_nonneg_left h.perigee (abs_nonneg (t.j : ℝ))
    linarith
  have h2 := mul_le_mul_of_nonneg_left (mul_le_mul_of_nonneg_right h1 dtr_pos.le)
    (abs_nonneg (t.a : ℝ))
  refine h2.trans (le_of_eq ?_)
  unfold Term.rate
  push_cast
  ring

theorem sinSum_near {n p n' p' τ : ℝ} (h : Near n p n' p' τ) : ∀ l : List Term,
    |(sinSum l n' p' - sinSum l n p)| ≤ seriesRate l * (dtr * τ)
  | [] => by simp [sinSum, seriesRate]
  | t :: l => by
    have ih := sinSum_near h l
    have ht := angle_near h t
    simp only [sinSum, seriesRate, List.map_cons, List.sum_cons] at *
    have e : ∀ a b c d : ℝ, a + b - (c + d) = (a - c) + (b - d) := by intros; ring
    rw [e, ← mul_sub]
    refine (abs_add_le _ _).trans ?_
    rw [abs_mul]
    have := (mul_le_mul_of_nonneg_left (abs_sin_sub_sin_le ((t.i * n' + t.j * p') * dtr)
      ((t.i * n + t.j * p) * dtr)) (abs_nonneg (t.a : ℝ))).trans ht
    refine (add_le_add this ih).trans (le_of_eq ?_)
    rw [Rat.cast_add, add_mul]

theorem cosSum_near {n p n' p' τ : ℝ} (h : Near n p n' p' τ) : ∀ l : List Term,
    |(cosSum l n' p' - cosSum l n p)| ≤ seriesRate l * (dtr * τ)
  | [] => by simp [cosSum, seriesRate]
  | t :: l => by
    have ih := cosSum_near h l
    have ht := angle_near h t
    simp only [cosSum, seriesRate, List.map_cons, List.sum_cons] at *
    have e : ∀ a b c d : ℝ, a + b - (c + d) = (a - c) + (b - d) := by intros; ring
    rw [e, ← mul_sub]
    refine (abs_add_le _ _).trans ?_
    rw [abs_mul]
    have := (mul_le_mul_of_nonneg_left (abs_cos_sub_cos_le ((t.i * n' + t.j * p') * dtr)
      ((t.i * n + t.j * p) * dtr)) (abs_nonneg (t.a : ℝ))).trans ht
    refine (add_le_add this ih).trans (le_of_eq ?_)
    rw [Rat.cast_add, add_mul]

theorem vec_near {n p n' p' τ : ℝ} (h : Near n p n' p' τ) (s : List Term) (c0 : ℚ) (c : List Term) :
    ‖vec s c0 c n' p' - vec s c0 c n p‖ ≤ (seriesRate s + seriesRate c) * (dtr * τ) := by
  refine (Complex.norm_le_abs_re_add_abs_im _).trans ?_
  have h1 := sinSum_near h s
  have h2 := cosSum_near h c
  simp only [vec, Complex.sub_re, Complex.sub_im]
  have e : (c0 : ℝ) + cosSum c n' p' - (c0 + cosSum c n p) = cosSum c n' p' - cosSum c n p := by ring
  rw [e, add_mul]
  linarith

theorem factorOf_terms (s : List Term) (c0 : ℚ) (c : List Term) (n p : ℝ) :
    factorOf ((Rule.terms s c0 c).eval n p) = vec s c0 c n p := by
  simp only [factorOf, Rule.eval, ← vec_norm]
  exact Complex.norm_mul_exp_arg_mul_I (vec s c0 c n p)

theorem exp_near (a b : ℝ) : ‖Complex.exp (b * Complex.I) - Complex.exp (a * Complex.I)‖ ≤ |b - a| := by
  have e : Complex.exp (b * Complex.I) - Complex.exp (a * Complex.I)
      = Complex.exp (a * Complex.I) * (Complex.exp (Complex.I * (b - a : ℝ)) - 1) := by
    rw [mul_sub, ← Complex.exp_add, mul_one]
    congr 2
    push_cast; ring
  rw [e, norm_mul, Complex.norm_exp_ofReal_mul_I, one_mul]
  exact norm_exp_I_mul_ofReal_sub_one_le

/-- Factor and unit vector apart. -/
theorem factor_near {f f' F α β : ℝ} {v v' : ℂ} (hv : ‖v‖ ≤ 1) (hf : |f' - f| ≤ α) (hF : |f'| ≤ F)
    (hb : ‖v' - v‖ ≤ β) : ‖(f' : ℂ) * v' - (f : ℂ) * v‖ ≤ α + F * β := by
  have e : (f' : ℂ) * v' - (f : ℂ) * v = ((f' - f : ℝ) : ℂ) * v + (f' : ℂ) * (v' - v) := by
    push_cast; ring
  rw [e]
  refine (norm_add_le _ _).trans (add_le_add ?_ ?_)
  · rw [norm_mul, Complex.norm_real, Real.norm_eq_abs]
    calc |f' - f| * ‖v‖ ≤ α * 1 := mul_le_mul hf hv (norm_nonneg _) ((abs_nonneg _).trans hf)
      _ = α := mul_one α
  · rw [norm_mul, Complex.norm_real, Real.norm_eq_abs]
    exact mul_le_mul hF hb (norm_nonneg _) ((abs_nonneg _).trans hF)

theorem unit_near {v v' : ℂ} (hv : v ≠ 0) (hv' : v' ≠ 0) :
    ‖v' / (‖v'‖ : ℂ) - v / (‖v‖ : ℂ)‖ ≤ 2 * ‖v' - v‖ / ‖v‖ := by
  have h1 : 0 < ‖v‖ := norm_pos_iff.2 hv
  have h2 : 0 < ‖v'‖ := norm_pos_iff.2 hv'
  have c1 : ((‖v‖ : ℝ) : ℂ) ≠ 0 := by exact_mod_cast h1.ne'
  have c2 : ((‖v'‖ : ℝ) : ℂ) ≠ 0 := by exact_mod_cast h2.ne'
  have e : v' / (‖v'‖ : ℂ) - v / (‖v‖ : ℂ)
      = (v' - v) / (‖v‖ : ℂ) + v' / (‖v'‖ : ℂ) * (((‖v‖ - ‖v'‖) / ‖v‖ : ℝ) : ℂ) := by
    push_cast
    field_simp
    ring
  rw [e]
  refine (norm_add_le _ _).trans ?_
  rw [norm_div, norm_mul, norm_div, Complex.norm_real, Complex.norm_real, Complex.norm_real, norm_norm, norm_norm,
    div_self h2.ne', one_mul, Real.norm_eq_abs, abs_div, abs_of_pos h1]
  have h3 : |(‖v‖ - ‖v'‖)| ≤ ‖v' - v‖ := by
    rw [norm_sub_rev]; exact abs_norm_sub_norm_le v v'
  rw [← add_div]
  exact div_le_div_of_nonneg_right (by linarith) h1.le

theorem q_norm (a : ℚ) (n p : ℝ) : sqrt ((1 + a * cos (n * dtr)) ^ 2 + (a * sin (n * dtr)) ^ 2) =
    ‖vec [⟨a, 1, 0⟩] 1 [⟨a, 1, 0⟩] n p‖ := by
  rw [vec_norm]; congr 1; simp [sinSum, cosSum]; ring

theorem q_vec (a : ℚ) (n p : ℝ) : vec [⟨a, 1, 0⟩] 1 [⟨a, 1, 0⟩] n p
    = 1 + a * Complex.exp ((n * dtr : ℝ) * Complex.I) := by
  have e : Complex.exp ((n * dtr : ℝ) * Complex.I) = ⟨cos (n * dtr), sin (n * dtr)⟩ :=
    Complex.ext (Complex.exp_ofReal_mul_I_re _) (Complex.exp_ofReal_mul_I_im _)
  rw [e]
  apply Complex.ext <;> simp [vec, sinSum, cosSum]

theorem q_near {n p n' p' τ : ℝ} (h : Near n p n' p' τ) (a : ℚ) :
    ‖vec [⟨a, 1, 0⟩] 1 [⟨a, 1, 0⟩] n' p' - vec [⟨a, 1, 0⟩] 1 [⟨a, 1, 0⟩] n p‖
      ≤ |(a : ℝ)| * (5295377 / 100000000) * (dtr * τ) := by
  rw [q_vec, q_vec, add_sub_add_left_eq_sub, ← mul_sub, norm_mul]
  have h1 := exp_near (n * dtr) (n' * dtr)
  have h2 : |n' * dtr - n * dtr| ≤ 5295377 / 100000000 * (dtr * τ) := by
    rw [← sub_mul, abs_mul, abs_of_pos dtr_pos]
    have := mul_le_mul_of_nonneg_right h.node dtr_pos.le
    linarith
  have h3 : ‖(a : ℂ)‖ = |(a : ℝ)| := by
    rw [← Complex.ofReal_ratCast, Complex.norm_real, Real.norm_eq_abs]
  rw [h3, mul_assoc]
  exact mul_le_mul_of_nonneg_left (h1.trans h2) (abs_nonneg _)

theorem exp_arctan_pos (y x : ℝ) (h : 0 < x) : Complex.exp ((arctan (y / x) : ℝ) * Complex.I) =
    (⟨x, y⟩ : ℂ) / (‖(⟨x, y⟩ : ℂ)‖ : ℂ) := by
  have h0 : (⟨x, y⟩ : ℂ) ≠ 0 := fun h' => h.ne' (by simpa using congrArg Complex.re h')
  have e : arctan (y / x) = Complex.arg ⟨x, y⟩ := by
    have hc : (⟨x, y⟩ : ℂ) = (x : ℂ) * ⟨1, y / x⟩ := by
      apply Complex.ext
      · simp
      · simp; field_simp
    rw [hc, Complex.arg_real_mul _ h, Complex.arg_of_re_nonneg (by simp), arctan_eq_arcsin,
      Complex.norm_def, Complex.normSq_mk]
    congr 2
    ring_nf
  rw [e, eq_div_iff (by simpa using h0), mul_comm]
  exact Complex.norm_mul_exp_arg_mul_I _

/-- The correction of a branch changes slowly. -/
theorem Rule.eval_near (r : Rule) (hs : r.slow = true) (hok : r.ok = true) {n p n' p' τ : ℝ}
    (h : Near n p n' p' τ) :
    ‖factorOf (r.eval n' p') - factorOf (r.eval n p)‖ ≤ r.rate * (dtr * τ) := by
  have hd := dtr_le
  have hd0 := dtr_pos
  have hτ : 0 ≤ τ := by have := (abs_nonneg _).trans h.node; linarith
  have hdt : 0 ≤ dtr * τ := mul_nonneg hd0.le hτ
  have angle : ∀ us : List Term, |(dtr * sinSum us n' p' - dtr * sinSum us n p)| ≤
      (17454 / 1000000) * seriesRate us * (dtr * τ) := by
    intro us
    rw [← mul_sub, abs_mul, abs_of_pos hd0, mul_assoc]
    have h1 := sinSum_near h us
    have h2 : (0 : ℝ) ≤ seriesRate us := by exact_mod_cast seriesRate_nonneg us
    exact mul_le_mul hd h1 (abs_nonneg _) (by norm_num)
  cases r with
  | terms s c0 c =>
    rw [factorOf_terms, factorOf_terms]
    have := vec_near h s c0 c
    simp only [Rule.rate]
    push_cast
    exact this
  | direct c0 c us =>
    simp only [factorOf, Rule.eval, Rule.rate]
    have hf : |((c0 : ℝ) + cosSum c n' p' - (c0 + cosSum c n p))| ≤ seriesRate c * (dtr * τ) := by
      rw [add_sub_add_left_eq_sub]; exact cosSum_near h c
    have hF : |((c0 : ℝ) + cosSum c n' p')| ≤ |(c0 : ℝ)| + ((sizeOf c : ℚ) : ℝ) :=
      (abs_add_le _ _).trans (by have := cosSum_abs n' p' c; simp only [sizeOf]; linarith)
    have := factor_near (le_of_eq (Complex.norm_exp_ofReal_mul_I (dtr * sinSum us n p))) hf hF
      ((exp_near _ _).trans (angle us))
    refine this.trans (le_of_eq ?_)
    push_cast; ring
  | mixed s c0 c us =>
    simp only [factorOf, Rule.eval, ← vec_norm]
    have hf : |(‖vec s c0 c n' p'‖ - ‖vec s c0 c n p‖)| ≤ (seriesRate s + seriesRate c) * (dtr * τ) :=
      (abs_norm_sub_norm_le _ _).trans (vec_near h s c0 c)
    have hF : |‖vec s c0 c n' p'‖| ≤ ((Rule.mixed s c0 c us).range.2 : ℝ) := by
      rw [abs_norm]
      have := ((Rule.mixed s c0 c us).range_eval hok n' p').2
      simpa only [Rule.eval, ← vec_norm] using this
    have := factor_near (le_of_eq (Complex.norm_exp_ofReal_mul_I (dtr * sinSum us n p))) hf hF
      ((exp_near _ _).trans (angle us))
    refine this.trans (le_of_eq ?_)
    simp only [Rule.rate]
    push_cast; ring
  | qOtis a b =>
    have hb : |(b : ℝ)| < 1 := by
      simp only [Rule.slow, decide_eq_true_eq] at hs
      exact_mod_cast hs
    have hpos : ∀ n : ℝ, 0 < 1 + b * cos (n * dtr) := by
      intro n
      have h1 : |(b : ℝ) * cos (n * dtr)| < 1 := by
        rw [abs_mul]
        exact lt_of_le_of_lt (mul_le_of_le_one_right (abs_nonneg _) (abs_cos_le_one _)) hb
      have := (abs_lt.1 h1).1
      linarith
    set v := fun n : ℝ => vec [⟨b, 1, 0⟩] 1 [⟨b, 1, 0⟩] n p with hv
    have hve : ∀ n : ℝ, v n = ⟨1 + b * cos (n * dtr), b * sin (n * dtr)⟩ := by
      intro n; simp [hv, vec, sinSum, cosSum]
    have hv0 : ∀ n : ℝ, v n ≠ 0 := fun n h0 => by
      rw [hve] at h0
      exact (hpos n).ne' (by simpa using congrArg Complex.re h0)
    have hlow : 1 - |(b : ℝ)| ≤ ‖v n‖ := by
      rw [hv]
      simp only [q_vec]
      have := norm_sub_norm_le (1 : ℂ) (-((b : ℂ) * Complex.exp ((n * dtr : ℝ) * Complex.I)))
      rw [sub_neg_eq_add, norm_neg, norm_mul, Complex.norm_exp_ofReal_mul_I, mul_one, norm_one,
        ← Complex.ofReal_ratCast, Complex.norm_real, Real.norm_eq_abs] at this
      simpa using this
    have hexp : ∀ n : ℝ, Complex.exp ((arctan (b * sin (n * dtr) / (1 + b * cos (n * dtr))) : ℝ)
        * Complex.I) = v n / (‖v n‖ : ℂ) := by
      intro n
      rw [exp_arctan_pos _ _ (hpos n), hve]
    simp only [factorOf, Rule.eval, hexp, q_norm a _ p]
    have hvv : ‖v n' / (‖v n'‖ : ℂ) - v n / (‖v n‖ : ℂ)‖ ≤
        2 * |(b : ℝ)| / (1 - |(b : ℝ)|) * (5295377 / 100000000) * (dtr * τ) := by
      refine (unit_near (hv0 n) (hv0 n')).trans ?_
      have h1 : ‖v n' - v n‖ ≤ _ := q_near (p := p) (p' := p)
        ⟨h.node, by rw [sub_self, abs_zero]; linarith⟩ b
      have h2 : (0 : ℝ) < 1 - |(b : ℝ)| := by linarith
      calc 2 * ‖v n' - v n‖ / ‖v n‖
          ≤ 2 * (|(b : ℝ)| * (5295377 / 100000000) * (dtr * τ)) / (1 - |(b : ℝ)|) := by
            apply div_le_div₀ (by positivity) (by linarith) h2 hlow
        _ = _ := by ring
    have hf : |(‖vec [⟨a, 1, 0⟩] 1 [⟨a, 1, 0⟩] n' p‖ - ‖vec [⟨a, 1, 0⟩] 1 [⟨a, 1, 0⟩] n p‖)| ≤
        |(a : ℝ)| * (5295377 / 100000000) * (dtr * τ) :=
      (abs_norm_sub_norm_le _ _).trans (q_near (p := p) (p' := p)
        ⟨h.node, by rw [sub_self, abs_zero]; linarith⟩ a)
    have hF : |‖vec [⟨a, 1, 0⟩] 1 [⟨a, 1, 0⟩] n' p‖| ≤ 1 + |(a : ℝ)| := by
      rw [abs_norm, ← q_norm]
      have := ((Rule.qOtis a b).range_eval rfl n' p').2
      simp only [Rule.eval, Rule.range] at this
      push_cast at this
      exact this
    have hone : ‖v n / (‖v n‖ : ℂ)‖ ≤ 1 := by
      rw [norm_div, Complex.norm_real, norm_norm, div_self (norm_ne_zero_iff.2 (hv0 n))]
    refine (factor_near hone hf hF hvv).trans (le_of_eq ?_)
    simp only [Rule.rate]
    push_cast
    ring
  | fes k => simp [Rule.slow] at hs
  | compound ps => simp [Rule.slow] at hs

end Verif.Nodal
