import Verif.Model.Minor
import Verif.Spec.Modulation
import Verif.Props.Nodal
import Mathlib.Analysis.SpecialFunctions.Complex.Arctan

/-!
# C29, C30: nodal corrections of the minor constituents
-/

namespace Verif.Nodal

open Real

theorem cexp_node (k : ℤ) (N : ℝ) : Complex.exp (k * (N * Real.pi / 180) * Complex.I) =
    ⟨cos (k * (N * dtr)), sin (k * (N * dtr))⟩ := by
  have : ((k : ℂ) * (N * Real.pi / 180) * Complex.I) = ((k * (N * dtr) : ℝ) : ℂ) * Complex.I := by
    push_cast [dtr]; ring
  rw [this]
  apply Complex.ext
  · exact Complex.exp_ofReal_mul_I_re _
  · exact Complex.exp_ofReal_mul_I_im _

theorem modulation_eq (l : List (ℝ × ℤ)) (N : ℝ) : Spec.modulation l N =
    ⟨1 + (l.map fun q => q.1 * cos (q.2 * (N * dtr))).sum,
      (l.map fun q => q.1 * sin (q.2 * (N * dtr))).sum⟩ := by
  have : ∀ l : List (ℝ × ℤ),
      (l.map fun q => (q.1 : ℂ) * Complex.exp (q.2 * (N * Real.pi / 180) * Complex.I)).sum =
      ⟨(l.map fun q => q.1 * cos (q.2 * (N * dtr))).sum,
        (l.map fun q => q.1 * sin (q.2 * (N * dtr))).sum⟩ := by
    intro l
    induction l with
    | nil => rfl
    | cons a l ih =>
      rw [List.map_cons, List.sum_cons, ih, cexp_node]
      apply Complex.ext <;> simp
  unfold Spec.modulation
  rw [this]
  apply Complex.ext <;> simp

/-- `f` and `u` are the modulus and the argument of `z`. -/
def IsPolar (uf : ℝ × ℝ) (z : ℂ) : Prop := uf.2 = ‖z‖ ∧ uf.1 = Complex.arg z

theorem isPolar_mk {u f x y : ℝ} {z : ℂ} (h : z = ⟨x, y⟩) (hf : f = sqrt (x ^ 2 + y ^ 2))
    (hu : u = arctan2 y x) : IsPolar (u, f) z := by
  subst h
  refine ⟨?_, hu⟩
  simp only
  rw [hf, Complex.norm_def, Complex.normSq_mk]
  congr 1; ring

theorem polar_plus (a n : ℝ) : IsPolar (arctan2 (a * sin (n * dtr)) (1 + a * cos (n * dtr)),
    sqrt ((1 + a * cos (n * dtr)) ^ 2 + (a * sin (n * dtr)) ^ 2)) (Spec.modulation [(a, 1)] n) :=
  isPolar_mk (x := 1 + a * cos (n * dtr)) (y := a * sin (n * dtr))
    (by rw [modulation_eq]; simp) rfl rfl

theorem polar_minus (a n : ℝ) : IsPolar (arctan2 (-a * sin (n * dtr)) (1 + a * cos (n * dtr)),
    sqrt ((1 + a * cos (n * dtr)) ^ 2 + (a * sin (n * dtr)) ^ 2)) (Spec.modulation [(a, -1)] n) :=
  isPolar_mk (x := 1 + a * cos (n * dtr)) (y := -a * sin (n * dtr))
    (by rw [modulation_eq]; simp) (by congr 1; ring) rfl

theorem polar_one (n : ℝ) : IsPolar (0, 1) (Spec.modulation [] n) :=
  isPolar_mk (x := 1) (y := 0) (by rw [modulation_eq]; simp) (by simp) (by
    have : (⟨1, 0⟩ : ℂ) = 1 := rfl
    simp [arctan2, this])

theorem polar_2n2 (n : ℝ) : IsPolar (minorBase n 11) (Spec.modulation [(-0.0373, 1)] n) :=
  isPolar_mk (x := 1 - 0.0373 * cos (n * dtr)) (y := -0.0373 * sin (n * dtr))
    (by rw [modulation_eq]; simp; ring) (by congr 1; ring) rfl

theorem polar_oo1 (n : ℝ) :
    IsPolar (minorBase n 10) (Spec.modulation [(0.640, -1), (0.134, -2)] n) :=
  isPolar_mk (x := 1 + 0.640 * cos (n * dtr) + 0.134 * cos (2 * n * dtr))
    (y := -0.640 * sin (n * dtr) - 0.134 * sin (2 * n * dtr))
    (by
      rw [modulation_eq, show 2 * n * dtr = 2 * (n * dtr) by ring]
      apply Complex.ext <;> simp <;> ring) (by congr 1; ring) rfl

theorem polar_eta2 (n : ℝ) : IsPolar ((minorGot n 19).getD (0, 0))
    (Spec.modulation [(0.436, -1)] n) := by
  have h := polar_minus 0.436 n
  refine ⟨h.1, ?_⟩
  rw [← h.2]
  have hx : 0 < 1 + 0.436 * cos (n * dtr) := by
    have := neg_one_le_cos (n * dtr); linarith
  show arctan _ = Complex.arg _
  rw [Complex.arg_of_re_nonneg hx.le, arctan_eq_arcsin]
  congr 1
  show _ = (-0.436 * sin (n * dtr)) / ‖(⟨1 + 0.436 * cos (n * dtr), -0.436 * sin (n * dtr)⟩ : ℂ)‖
  rw [Complex.norm_def, Complex.normSq_mk]
  rw [show (1 + 0.436 * cos (n * dtr)) * (1 + 0.436 * cos (n * dtr)) +
      -0.436 * sin (n * dtr) * (-0.436 * sin (n * dtr)) =
      (1 + 0.436 * cos (n * dtr)) ^ 2 *
        (1 + (-0.436 * sin (n * dtr) / (1 + 0.436 * cos (n * dtr))) ^ 2) by
    field_simp, sqrt_mul (sq_nonneg _), sqrt_sq hx.le, div_div]

/-- C29 (partial): for the corrections other than FES and every minor constituent but the first
three, the factor and the angle are modulus and argument of the nodal modulation.  The first three
(2q1, sigma1, rho1) have a sine where a cosine should be (`C29_2q1_false`).  For FES the factor and
angle come from separate formulas (Schureman) and are not of this form. -/
theorem C29_polar_partial (corrections : String) (hc : corrections ≠ "FES") (n p : ℝ) (i : ℕ)
    (hi : 3 ≤ i) :
    IsPolar (minor corrections n p i)
      (Spec.modulation (Spec.sideLines (corrections == "GOT") i) n) := by
  unfold minor
  rw [if_neg hc]
  have hbase : i ≠ 18 → i ≠ 19 → ∀ g,
      IsPolar (minorBase n i) (Spec.modulation (Spec.sideLines g i) n) := by
    intro h18 h19 g
    by_cases hb : i < 20
    · interval_cases i
      · exact polar_plus _ n
      · exact polar_minus _ n
      · exact polar_minus _ n
      · exact polar_one n
      · exact polar_one n
      · exact polar_one n
      · exact polar_minus _ n
      · exact polar_oo1 n
      · exact polar_2n2 n
      · exact polar_2n2 n
      · exact polar_2n2 n
      · exact polar_one n
      · exact polar_2n2 n
      · exact polar_minus _ n
      · exact polar_one n
      · exact absurd rfl h18
      · exact absurd rfl h19
    · obtain ⟨j, rfl⟩ : ∃ j, i = j + 20 := ⟨i - 20, by omega⟩
      exact polar_one n
  by_cases hg : corrections = "GOT"
  · rw [if_pos hg, show (corrections == "GOT") = true by simp [hg]]
    by_cases h18 : i = 18
    · subst h18; exact polar_2n2 n
    by_cases h19 : i = 19
    · subst h19; exact polar_eta2 n
    have : minorGot n i = none := by unfold minorGot; split <;> simp_all
    rw [this]; exact hbase h18 h19 true
  · rw [if_neg hg, show (corrections == "GOT") = false by simp [hg]]
    by_cases h18 : i = 18
    · subst h18; exact polar_one n
    by_cases h19 : i = 19
    · subst h19; exact polar_one n
    exact hbase h18 h19 false

example : ("GOT" : String) ≠ "FES" ∧ 3 ≤ 19 := by decide

/-- C29 fails for 2q1: the factor is the modulus of the nodal modulation for all longitudes of
the node, the angle is not its argument. -/
theorem C29_2q1_false :
    (∀ n p, (minor "OTIS" n p 0).2 = ‖Spec.modulation (Spec.sideLines false 0) n‖) ∧
    ∃ n p, (minor "OTIS" n p 0).1 ≠ Complex.arg (Spec.modulation (Spec.sideLines false 0) n) := by
  have hm : ∀ n : ℝ, Spec.modulation (Spec.sideLines false 0) n =
      ⟨1 + 0.189 * cos (n * dtr) - 0.0058 * cos (2 * n * dtr),
        0.189 * sin (n * dtr) - 0.0058 * sin (2 * n * dtr)⟩ := by
    intro n
    show Spec.modulation [(0.189, 1), (-0.0058, 2)] n = _
    rw [modulation_eq, show 2 * n * dtr = 2 * (n * dtr) by ring]
    apply Complex.ext <;> simp <;> ring
  constructor
  · intro n p
    rw [hm, Complex.norm_def, Complex.normSq_mk]
    show sqrt _ = _
    congr 1; ring
  · refine ⟨45, 0, ?_⟩
    rw [hm]
    show Complex.arg _ ≠ _
    have e1 : sin (2 * 45 * dtr) = 1 := by
      rw [dtr, show (2 : ℝ) * 45 * (π / 180) = π / 2 by ring, sin_pi_div_two]
    have e2 : cos (2 * 45 * dtr) = 0 := by
      rw [dtr, show (2 : ℝ) * 45 * (π / 180) = π / 2 by ring, cos_pi_div_two]
    have e3 : sin (45 * dtr) = sqrt 2 / 2 := by
      rw [dtr, show (45 : ℝ) * (π / 180) = π / 4 by ring, sin_pi_div_four]
    have e4 : cos (45 * dtr) = sqrt 2 / 2 := by
      rw [dtr, show (45 : ℝ) * (π / 180) = π / 4 by ring, cos_pi_div_four]
    rw [e1, e2, e3, e4]
    have h2 : 1 < sqrt 2 := by rw [lt_sqrt] <;> norm_num
    intro h
    have ht := congrArg tan h
    rw [Complex.tan_arg, Complex.tan_arg] at ht
    simp only at ht
    have hy : 0 < 0.189 * (sqrt 2 / 2) - 0.0058 * 1 := by linarith
    rw [div_eq_div_iff (by linarith) (by linarith)] at ht
    have := mul_left_cancel₀ hy.ne' ht
    linarith

/-! ## C30 for the minor constituents -/

/-- C30: the corrections of the minor constituents do not change when the longitude of the node
grows by a turn. -/
theorem C30_minor_node (corrections : String) (n p : ℝ) (i : ℕ) :
    minor corrections (n + 360) p i = minor corrections n p i := by
  have e2 : 2 * (n + 360) * dtr = 2 * n * dtr + 2 * π + 2 * π := by unfold dtr; ring
  have hb : ∀ i, minorBase (n + 360) i = minorBase n i := by
    intro i
    unfold minorBase
    rw [node_dtr, e2]
    simp only [sin_add_two_pi, cos_add_two_pi]
  have hf : minorFes (n + 360) p i = minorFes n p i := by
    unfold minorFes
    simp only [II_node, xi_node, nu_node, R, Ra1, P2, Q2, I2]
  have hg : minorGot (n + 360) i = minorGot n i := by
    unfold minorGot
    simp only [hb, node_dtr, sin_add_two_pi, cos_add_two_pi]
  unfold minor
  rw [hb, hf, hg]

/-- C30 (partial): the corrections of the minor constituents do not change with the perigee by a
turn, except those of l2 for FES (which use the perigee in degrees, see `C30_minor_false`). -/
theorem C30_minor_perigee_partial (corrections : String) (n p : ℝ) (i : ℕ)
    (h : corrections ≠ "FES" ∨ i ≠ 15) :
    minor corrections n (p + 360) i = minor corrections n p i := by
  unfold minor
  by_cases hc : corrections = "FES"
  · have hi : i ≠ 15 := h.resolve_left (fun h => h hc)
    rw [if_pos hc, if_pos hc]
    have : minorFes n (p + 360) i = minorFes n p i := by
      unfold minorFes; split <;> simp_all
    rw [this]
  · rw [if_neg hc, if_neg hc]

example : ("FES" : String) ≠ "FES" ∨ 3 ≠ 15 := by decide

/-- C30 fails for l2 among the minor constituents of FES. -/
theorem C30_minor_false : ∃ n p, minor "FES" n (p + 360) 15 ≠ minor "FES" n p 15 := by
  refine ⟨0, 0, fun h => ?_⟩
  have h' : cos (II 0 / 2) ^ 4 / 0.9154 * Ra1 0 (0 + 360) = cos (II 0 / 2) ^ 4 / 0.9154 * Ra1 0 0 :=
    congrArg Prod.snd h
  refine Ra1_perigee (mul_left_cancel₀ ?_ h')
  have := cos_II_pos.1
  positivity

end Verif.Nodal
