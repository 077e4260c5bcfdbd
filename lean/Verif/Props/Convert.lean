import Verif.Props.Ellipsoid
import Verif.Lemmas.Newton
/-!
# C36: a converted point is the same point
-/
namespace Verif.Spatial
open Verif Real

/-- Ellipsoids and heights as they occur on the Earth: semi-major axes that differ by at most a
thousandth, flattenings of at most 1/250 and a height of at most a hundredth of the axis. -/
structure EarthLike (h1 a1 f1 a2 f2 : ℝ) : Prop where
  first : 0 < a1
  second : 0 < a2
  axes : |a1 - a2| ≤ a2 / 1000
  flat1 : 0 ≤ f1 ∧ f1 ≤ 1 / 250
  flat2 : 0 ≤ f2 ∧ f2 ≤ 1 / 250
  height : |h1| ≤ a2 / 100

theorem arctan_lipschitz {t : ℝ} (ht : 1 ≤ t) : arctan t ≤ π / 4 + (t - 1) := by
  have := (convex_Icc 1 t).norm_image_sub_le_of_norm_hasDerivWithin_le (f := arctan) (C := 1)
    (f' := fun x => 1 / (1 + x ^ 2)) (fun y _ => (hasDerivAt_arctan y).hasDerivWithinAt)
    (fun y _ => by
      rw [Real.norm_eq_abs, abs_of_pos (by positivity), div_le_one (by positivity)]
      nlinarith [sq_nonneg y])
    (Set.left_mem_Icc.2 ht) (Set.right_mem_Icc.2 ht)
  rw [Real.norm_eq_abs, Real.norm_eq_abs, arctan_one, abs_of_nonneg (a := t - 1) (by linarith)] at this
  have := le_abs_self (arctan t - π / 4)
  linarith

/-- Bounds shared by both cases. -/
theorem flat_bounds {r f1 f2 : ℝ} (r1 : |r - 1| ≤ 1 / 1000) (a1 : 0 ≤ f1) (a2 : f1 ≤ 1 / 250)
    (b1 : 0 ≤ f2) (b2 : f2 ≤ 1 / 250) :
    |(r - 1) * (f1 + f2 - f1 * f2) + (f1 - f2) * (1 - f2)| ≤ 0.00401 := by
  have g1 : |(r - 1) * (f1 + f2 - f1 * f2)| ≤ 0.000008 := by
    have h1 : f1 + f2 - f1 * f2 ≤ 1 / 125 := by nlinarith
    have h2 : 0 ≤ f1 + f2 - f1 * f2 := by nlinarith
    rw [abs_mul, abs_of_nonneg h2]
    nlinarith [abs_nonneg (r - 1)]
  have g2 : |(f1 - f2) * (1 - f2)| ≤ 0.004 := by
    rw [abs_mul, abs_of_nonneg (a := 1 - f2) (by linarith)]
    have : |f1 - f2| ≤ 1 / 250 := abs_le.2 ⟨by linarith, by linarith⟩
    nlinarith [abs_nonneg (f1 - f2)]
  exact (abs_add_le _ _).trans (by linarith)

/-- The equation at the start within 45 degrees, as algebra. -/
theorem core_low {r w U V x y f1 f2 : ℝ} (r1 : |r - 1| ≤ 1 / 1000) (w1 : |w| ≤ 1 / 100)
    (a1 : 0 ≤ f1) (a2 : f1 ≤ 1 / 250) (b1 : 0 ≤ f2) (b2 : f2 ≤ 1 / 250)
    (hU : 0.68 ≤ U) (hU1 : U ≤ 1) (hV : |V| ≤ 1) (hx : |x| ≤ 1) (hy : |y| ≤ 1)
    (rel : V * x = (1 - f1) * y * U) :
    0.66 ≤ r * U + w * x ∧ r * U + w * x ≤ 1.02 ∧
      |((1 - f2) * (1 - f2) - 1) * V + (r * U + w * x) * (V / U) -
        (1 - f2) * ((1 - f1) * r * V + w * y)| ≤ 0.65 * 0.0063 := by
  have wx : |w * x| ≤ 1 / 100 := by
    rw [abs_mul]; nlinarith [abs_nonneg w, abs_nonneg x]
  obtain ⟨wx1, wx2⟩ := abs_le.1 wx
  obtain ⟨r2, r3⟩ := abs_le.1 r1
  refine ⟨by nlinarith, by nlinarith, ?_⟩
  have fin : ((1 - f2) * (1 - f2) - 1) * V + (r * U + w * x) * (V / U) -
        (1 - f2) * ((1 - f1) * r * V + w * y) =
      V * ((r - 1) * (f1 + f2 - f1 * f2) + (f1 - f2) * (1 - f2)) + w * y * (f2 - f1) := by
    have hU0 : U ≠ 0 := by linarith
    field_simp
    linear_combination w * rel
  rw [fin]
  have g2 : |w * y * (f2 - f1)| ≤ 0.00005 := by
    have h1 : |f2 - f1| ≤ 1 / 250 := abs_le.2 ⟨by linarith, by linarith⟩
    have h2 : |w * y| ≤ 1 / 100 := by
      rw [abs_mul]; nlinarith [abs_nonneg w, abs_nonneg y]
    rw [abs_mul]
    nlinarith [abs_nonneg (f2 - f1), abs_nonneg (w * y)]
  have g3 := flat_bounds r1 a1 a2 b1 b2
  have g4 : |V * ((r - 1) * (f1 + f2 - f1 * f2) + (f1 - f2) * (1 - f2))| ≤ 0.00401 := by
    rw [abs_mul]
    nlinarith [abs_nonneg V, abs_nonneg ((r - 1) * (f1 + f2 - f1 * f2) + (f1 - f2) * (1 - f2))]
  exact (abs_add_le _ _).trans (by linarith)

/-- The equation at the start beyond 45 degrees, as algebra. -/
theorem core_high {r w U V x y f1 f2 : ℝ} (r1 : |r - 1| ≤ 1 / 1000) (w1 : |w| ≤ 1 / 100)
    (a1 : 0 ≤ f1) (a2 : f1 ≤ 1 / 250) (b1 : 0 ≤ f2) (b2 : f2 ≤ 1 / 250)
    (hV : 0.687 ≤ V) (hV1 : V ≤ 1) (hx : |x| ≤ 1) (hx0 : 0 < x) (hy : |y| ≤ 1)
    (hy0 : 0 < y) (rel : V * x = (1 - f1) * y * U) :
    0.66 ≤ (1 - f2) * ((1 - f1) * r * V + w * y) ∧ (1 - f2) * ((1 - f1) * r * V + w * y) ≤ 1.02 ∧
      0 < r * U + w * x := by
  have wy : |w * y| ≤ 1 / 100 := by
    rw [abs_mul]; nlinarith [abs_nonneg w, abs_nonneg y]
  obtain ⟨wy1, wy2⟩ := abs_le.1 wy
  obtain ⟨r2, r3⟩ := abs_le.1 r1
  obtain ⟨w2, w3⟩ := abs_le.1 w1
  have hx1 := (abs_le.1 hx).2
  have hy1 := (abs_le.1 hy).2
  have rV1 : 0.686 ≤ r * V := by nlinarith
  have rV2 : r * V ≤ 1.001 := by nlinarith
  have q1 : 0.683 ≤ (1 - f1) * r * V := by nlinarith
  have q2 : (1 - f1) * r * V ≤ 1.001 := by nlinarith
  have hUx : 0.687 * x ≤ U := by
    have : (1 - f1) * y ≤ 1 := by nlinarith
    have hU0 : 0 ≤ U := by
      by_contra hn
      have := mul_pos (mul_pos (by linarith : 0 < 1 - f1) hy0) (by linarith : 0 < -U)
      nlinarith [mul_pos (by linarith : 0 < V) hx0]
    nlinarith
  exact ⟨by nlinarith, by nlinarith, by nlinarith⟩

theorem core_high_start {r w U V x y f1 f2 : ℝ} (r1 : |r - 1| ≤ 1 / 1000) (w1 : |w| ≤ 1 / 100)
    (a1 : 0 ≤ f1) (a2 : f1 ≤ 1 / 250) (b1 : 0 ≤ f2) (b2 : f2 ≤ 1 / 250)
    (hV : 0.687 ≤ V) (hU : |U| ≤ 1) (hx : |x| ≤ 1) (rel : V * x = (1 - f1) * y * U) :
    |(1 - (1 - f2) * (1 - f2)) * U + (1 - f2) * ((1 - f1) * r * V + w * y) * (U / V) -
      (r * U + w * x)| ≤ 0.65 * 0.0063 := by
  have fin : (1 - (1 - f2) * (1 - f2)) * U + (1 - f2) * ((1 - f1) * r * V + w * y) * (U / V) -
        (r * U + w * x) =
      -(U * ((r - 1) * (f1 + f2 - f1 * f2) + (f1 - f2) * (1 - f2))) +
        w * x * ((f1 - f2) / (1 - f1)) := by
    have hV0 : V ≠ 0 := by linarith
    have hf : 1 - f1 ≠ 0 := by linarith
    field_simp
    linear_combination (-(1 - f2) * w) * rel
  rw [fin]
  have g2 : |w * x * ((f1 - f2) / (1 - f1))| ≤ 0.00005 := by
    have h1 : |(f1 - f2) / (1 - f1)| ≤ 1 / 200 := by
      rw [abs_div, abs_of_pos (a := 1 - f1) (by linarith), div_le_iff₀ (by linarith)]
      exact abs_le.2 ⟨by linarith, by linarith⟩
    have h2 : |w * x| ≤ 1 / 100 := by
      rw [abs_mul]; nlinarith [abs_nonneg w, abs_nonneg x]
    rw [abs_mul]
    nlinarith [abs_nonneg ((f1 - f2) / (1 - f1)), abs_nonneg (w * x)]
  have g3 := flat_bounds r1 a1 a2 b1 b2
  have g4 : |-(U * ((r - 1) * (f1 + f2 - f1 * f2) + (f1 - f2) * (1 - f2)))| ≤ 0.00401 := by
    rw [abs_neg, abs_mul]
    nlinarith [abs_nonneg U, abs_nonneg ((r - 1) * (f1 + f2 - f1 * f2) + (f1 - f2) * (1 - f2))]
  exact (abs_add_le _ _).trans (by linarith)

/-- Sine and cosine of the reduced latitude. -/
theorem reduced_rel {phi a f : ℝ} (ha : 0 < a) (hC : 0 < cos (phi * π / 180)) :
    sin (reduced phi a f) * cos (phi * π / 180) =
      (1 - f) * sin (phi * π / 180) * cos (reduced phi a f) := by
  have hU : 0 < cos (reduced phi a f) := cos_arctan_pos _
  have : tan (reduced phi a f) = (1 - f) * tan (phi * π / 180) := by
    unfold reduced; rw [tan_arctan]; field_simp
  rw [tan_eq_sin_div_cos, tan_eq_sin_div_cos] at this
  generalize sin (reduced phi a f) = p at *
  generalize cos (reduced phi a f) = q at *
  field_simp at this
  linarith

theorem tan_le_one {x : ℝ} (x0 : 0 ≤ x) (x1 : x ≤ 45) :
    tan (x * π / 180) ≤ 1 ∧ 0 ≤ tan (x * π / 180) := by
  have hpi := pi_pos
  constructor
  · rw [← tan_pi_div_four]
    rcases eq_or_lt_of_le (show x * π / 180 ≤ π / 4 by nlinarith) with h | h
    · rw [h]
    · exact (tan_lt_tan_of_lt_of_lt_pi_div_two (by
        have : 0 ≤ x * π / 180 := by positivity
        linarith) (by linarith) h).le
  · exact tan_nonneg_of_nonneg_of_le_pi_div_two (by positivity) (by nlinarith)

theorem abs_tan_le_one {phi : ℝ} (hp : |phi| ≤ 45) : |tan (phi * π / 180)| ≤ 1 := by
  obtain ⟨p1, p2⟩ := abs_le.1 hp
  rcases le_total 0 phi with h | h
  · obtain ⟨t1, t2⟩ := tan_le_one h p2
    rw [abs_of_nonneg t2]; exact t1
  · obtain ⟨t1, t2⟩ := tan_le_one (x := -phi) (by linarith) (by linarith)
    rw [show -phi * π / 180 = -(phi * π / 180) by ring, tan_neg] at t1 t2
    rw [abs_of_nonpos (by linarith)]; exact t1

/-- The start of the iteration within 45 degrees. -/
theorem reduced_low {phi a f : ℝ} (ha : 0 < a) (h0 : 0 ≤ f) (h1 : f < 1) (hp : |phi| ≤ 45) :
    |reduced phi a f| ≤ 0.79 := by
  have hpi := pi_lt_d4
  obtain ⟨t1, t2⟩ := abs_le.1 (abs_tan_le_one hp)
  have e : (1 - f) * a / a * tan (phi * π / 180) = (1 - f) * tan (phi * π / 180) := by field_simp
  unfold reduced
  rw [e]
  have b1 : arctan ((1 - f) * tan (phi * π / 180)) ≤ π / 4 := by
    rw [← arctan_one]; exact arctan_mono (by nlinarith)
  have b2 : -(π / 4) ≤ arctan ((1 - f) * tan (phi * π / 180)) := by
    rw [← arctan_one, ← arctan_neg]; exact arctan_mono (by nlinarith)
  exact abs_le.2 ⟨by linarith, by linarith⟩

/-- The start of the iteration beyond 45 degrees, as an angle from the pole. -/
theorem reduced_high {phi a f : ℝ} (ha : 0 < a) (h0 : 0 ≤ f) (h1 : f ≤ 1 / 250) (hp : 45 < phi)
    (hp2 : phi < 90) : 0 < π / 2 - reduced phi a f ∧ π / 2 - reduced phi a f ≤ 0.79 := by
  have hpi := pi_lt_d4
  have hpi0 := pi_pos
  have hS : tan ((90 - phi) * π / 180) ≤ 1 := (tan_le_one (by linarith) (by linarith)).1
  have hS0 : 0 < tan ((90 - phi) * π / 180) :=
    tan_pos_of_pos_of_lt_pi_div_two (div_pos (mul_pos (by linarith) hpi0) (by norm_num)) (by nlinarith)
  have e : tan (phi * π / 180) = (tan ((90 - phi) * π / 180))⁻¹ := by
    rw [← tan_pi_div_two_sub]; congr 1; ring
  have e2 : (1 - f) * a / a * tan (phi * π / 180) =
      (tan ((90 - phi) * π / 180) / (1 - f))⁻¹ := by
    rw [e]
    generalize tan ((90 - phi) * π / 180) = t at *
    have : 1 - f ≠ 0 := by linarith
    field_simp
  have hq : 0 < tan ((90 - phi) * π / 180) / (1 - f) := div_pos hS0 (by linarith)
  have e3 : π / 2 - reduced phi a f = arctan (tan ((90 - phi) * π / 180) / (1 - f)) := by
    unfold reduced
    rw [e2, arctan_inv_of_pos hq]; ring
  rw [e3]
  refine ⟨arctan_pos.2 hq, ?_⟩
  have b : tan ((90 - phi) * π / 180) / (1 - f) ≤ 1.0041 := by
    rw [div_le_iff₀ (by linarith)]; nlinarith
  have := arctan_mono b
  have := arctan_lipschitz (t := 1.0041) (by norm_num)
  linarith

/-- The iteration beyond 45 degrees is the other one for the angle from the pole. -/
theorem newtonHigh_low (k0 k1 k2 eps : ℝ) (n : ℕ) (u : ℝ) :
    newtonHigh k0 k1 k2 eps n u = π / 2 - newtonLow k0 k1 k2 eps n (π / 2 - u) := by
  induction n generalizing u with
  | zero => unfold newtonHigh newtonLow; ring
  | succ n ih =>
    rw [newtonHigh, newtonLow]
    dsimp only
    rw [sin_pi_div_two_sub, cos_pi_div_two_sub, tan_pi_div_two_sub, ← div_eq_mul_inv, neg_one_mul,
      abs_neg, div_neg, abs_neg]
    split
    · ring
    · split
      · ring
      · rw [ih]; congr 2; ring

/-- The iteration in the other hemisphere. -/
theorem newtonHigh_neg (k0 k1 k2 eps : ℝ) (n : ℕ) (u : ℝ) :
    newtonHigh k0 (-k1) k2 eps n (-u) = -newtonHigh k0 k1 k2 eps n u := by
  induction n generalizing u with
  | zero => unfold newtonHigh; rfl
  | succ n ih =>
    rw [newtonHigh, newtonHigh]
    dsimp only
    have e1 : k0 * cos (-u) + -k1 / tan (-u) - k2 = k0 * cos u + k1 / tan u - k2 := by
      rw [cos_neg, tan_neg, neg_div_neg_eq]
    have e2 : -1 * (k0 * sin (-u) + -k1 / (sin (-u) * sin (-u))) =
        -(-1 * (k0 * sin u + k1 / (sin u * sin u))) := by
      rw [sin_neg]; ring
    rw [e1, e2, abs_neg, div_neg, abs_neg]
    split
    · rfl
    · split
      · ring
      · rw [← ih]; congr 1; ring

/-- The error left by the iteration, as a part of the semi-major axis: that of the tolerance or
that of quadratic convergence. -/
noncomputable def left (eps : ℝ) (itmax : ℕ) : ℝ :=
  max (5 * eps ^ 2) ((1 / 16) ^ 2 ^ (itmax + 1))

theorem left_ge (eps : ℝ) (itmax : ℕ) :
    max (5 * eps ^ 2) ((7.7 * 0.0063) ^ 2 ^ (itmax + 1)) ≤ left eps itmax :=
  max_le_max le_rfl (pow_le_pow_left₀ (by norm_num) (by norm_num) _)

/-- Within 45 degrees of the equator. -/
theorem solved_low {phi1 h1 a1 f1 a2 f2 eps : ℝ} {itmax : ℕ} (E : EarthLike h1 a1 f1 a2 f2)
    (he : eps ≤ a2 ^ 2 / 2) (hp : |phi1| ≤ 45) :
    0 < cos (solvedLow phi1 h1 a1 f1 a2 f2 eps itmax) ∧
      |residualLow phi1 h1 a1 f1 a2 f2 (solvedLow phi1 h1 a1 f1 a2 f2 eps itmax)| ≤
        a2 ^ 2 * left eps itmax := by
  obtain ⟨f10, f11⟩ := E.flat1
  obtain ⟨f20, f21⟩ := E.flat2
  have ha1 := E.first
  have ha2 := E.second
  have hC : 0 < cos (phi1 * π / 180) := cos_lat_pos (by linarith)
  have hu := reduced_low (phi := phi1) ha1 f10 (by linarith) hp
  have r1 : |a1 / a2 - 1| ≤ 1 / 1000 := by
    rw [div_sub_one ha2.ne', abs_div, abs_of_pos ha2, div_le_iff₀ ha2]
    linarith [E.axes]
  have w1 : |h1 / a2| ≤ 1 / 100 := by
    rw [abs_div, abs_of_pos ha2, div_le_iff₀ ha2]
    linarith [E.height]
  obtain ⟨c1, c2, c3⟩ := core_low r1 w1 f10 f11 f20 f21 (cos_far (by linarith : |reduced phi1 a1 f1| ≤ 0.8))
    (cos_le_one _) (abs_sin_le_one _) (abs_cos_le_one (phi1 * π / 180))
    (abs_sin_le_one (phi1 * π / 180)) (reduced_rel ha1 hC)
  obtain ⟨k, hk⟩ : ∃ k, k = (1 - f2) * (1 - f2) - 1 := ⟨_, rfl⟩
  obtain ⟨c, hc⟩ : ∃ c, c = a1 / a2 * cos (reduced phi1 a1 f1) + h1 / a2 * cos (phi1 * π / 180) :=
    ⟨_, rfl⟩
  obtain ⟨s, hs⟩ : ∃ s, s = (1 - f2) * ((1 - f1) * (a1 / a2) * sin (reduced phi1 a1 f1) +
    h1 / a2 * sin (phi1 * π / 180)) := ⟨_, rfl⟩
  have e0 : (1 - f2) * a2 * ((1 - f2) * a2) - a2 * a2 = a2 ^ 2 * k := by rw [hk]; ring
  have e1 : a2 * fromAxis phi1 h1 a1 f1 = a2 ^ 2 * c := by
    rw [hc]; unfold fromAxis; field_simp
  have e2 : (1 - f2) * a2 * fromPlane phi1 h1 a1 f1 = a2 ^ 2 * s := by
    rw [hs]; unfold fromPlane; field_simp
  rw [← hk, ← hc, ← hs, ← tan_eq_sin_div_cos] at c3
  rw [← hc] at c1 c2
  have hk' : |k| ≤ 0.01 := by
    rw [hk]; exact abs_le.2 ⟨by nlinarith, by nlinarith⟩
  obtain ⟨n1, n2, -⟩ := newton_converges (A := a2 ^ 2) (s := s) (eps := eps) (by positivity) hk' c1 c2
    (by nlinarith [sq_nonneg a2]) (itmax + 1) (reduced phi1 a1 f1) 0.0063 (by norm_num) (by norm_num)
    (by linarith) c3
  have es : solvedLow phi1 h1 a1 f1 a2 f2 eps itmax =
      newtonLow (a2 ^ 2 * k) (a2 ^ 2 * c) (a2 ^ 2 * s) eps (itmax + 1) (reduced phi1 a1 f1) := by
    unfold solvedLow; rw [e0, e1, e2]
  rw [← es] at n1 n2
  refine ⟨by linarith [cos_far n1], ?_⟩
  have er : ∀ u, residualLow phi1 h1 a1 f1 a2 f2 u = a2 ^ 2 * sought k c s u := by
    intro u
    unfold residualLow sought
    rw [e0, e1, e2]; ring
  rw [er, abs_mul, abs_of_pos (by positivity)]
  exact mul_le_mul_of_nonneg_left (n2.trans (left_ge eps itmax)) (by positivity)

/-- Beyond 45 degrees north. -/
theorem solved_high {phi1 h1 a1 f1 a2 f2 eps : ℝ} {itmax : ℕ} (E : EarthLike h1 a1 f1 a2 f2)
    (he : eps ≤ a2 ^ 2 / 2) (hp : 45 < phi1) (hp2 : phi1 < 90) :
    0 < cos (solvedHigh phi1 h1 a1 f1 a2 f2 eps itmax) ∧
      0 < sin (solvedHigh phi1 h1 a1 f1 a2 f2 eps itmax) ∧
      |residualHigh phi1 h1 a1 f1 a2 f2 (solvedHigh phi1 h1 a1 f1 a2 f2 eps itmax)| ≤
        a2 ^ 2 * left eps itmax := by
  obtain ⟨f10, f11⟩ := E.flat1
  obtain ⟨f20, f21⟩ := E.flat2
  have ha1 := E.first
  have ha2 := E.second
  have hC : 0 < cos (phi1 * π / 180) := cos_lat_pos (by rw [abs_of_pos (by linarith)]; exact hp2)
  have hS : 0 < sin (phi1 * π / 180) :=
    sin_pos_of_pos_of_lt_pi (div_pos (mul_pos (by linarith) pi_pos) (by norm_num))
      (by nlinarith [pi_pos])
  obtain ⟨v0, v1⟩ := reduced_high (f := f1) ha1 f10 f11 hp hp2
  have r1 : |a1 / a2 - 1| ≤ 1 / 1000 := by
    rw [div_sub_one ha2.ne', abs_div, abs_of_pos ha2, div_le_iff₀ ha2]
    linarith [E.axes]
  have w1 : |h1 / a2| ≤ 1 / 100 := by
    rw [abs_div, abs_of_pos ha2, div_le_iff₀ ha2]
    linarith [E.height]
  have hV : 0.687 ≤ sin (reduced phi1 a1 f1) := by
    rw [← cos_pi_div_two_sub]
    have := one_sub_sq_div_two_le_cos (x := π / 2 - reduced phi1 a1 f1)
    nlinarith
  have rel := reduced_rel (f := f1) ha1 hC
  obtain ⟨c1, c2, s0⟩ := core_high r1 w1 f10 f11 f20 f21 hV (sin_le_one _)
    (abs_cos_le_one (phi1 * π / 180)) hC (abs_sin_le_one (phi1 * π / 180)) hS rel
  have c3 := core_high_start r1 w1 f10 f11 f20 f21 hV (abs_cos_le_one _)
    (abs_cos_le_one (phi1 * π / 180)) rel
  obtain ⟨k, hk⟩ : ∃ k, k = 1 - (1 - f2) * (1 - f2) := ⟨_, rfl⟩
  obtain ⟨s, hs⟩ : ∃ s, s = a1 / a2 * cos (reduced phi1 a1 f1) + h1 / a2 * cos (phi1 * π / 180) :=
    ⟨_, rfl⟩
  obtain ⟨c, hc⟩ : ∃ c, c = (1 - f2) * ((1 - f1) * (a1 / a2) * sin (reduced phi1 a1 f1) +
    h1 / a2 * sin (phi1 * π / 180)) := ⟨_, rfl⟩
  have e0 : a2 * a2 - (1 - f2) * a2 * ((1 - f2) * a2) = a2 ^ 2 * k := by rw [hk]; ring
  have e1 : a2 * fromAxis phi1 h1 a1 f1 = a2 ^ 2 * s := by
    rw [hs]; unfold fromAxis; field_simp
  have e2 : (1 - f2) * a2 * fromPlane phi1 h1 a1 f1 = a2 ^ 2 * c := by
    rw [hc]; unfold fromPlane; field_simp
  have tn : tan (π / 2 - reduced phi1 a1 f1) =
      cos (reduced phi1 a1 f1) / sin (reduced phi1 a1 f1) := by
    rw [tan_eq_sin_div_cos, sin_pi_div_two_sub, cos_pi_div_two_sub]
  rw [← hk, ← hc, ← hs, ← tn, ← sin_pi_div_two_sub] at c3
  rw [← hc] at c1 c2
  rw [← hs] at s0
  have hk0 : 0 ≤ k := by rw [hk]; nlinarith
  have hk' : |k| ≤ 0.01 := by
    rw [abs_of_nonneg hk0, hk]; nlinarith
  obtain ⟨n1, n2, n3⟩ := newton_converges (A := a2 ^ 2) (s := s) (eps := eps) (by positivity) hk' c1 c2
    (by nlinarith [sq_nonneg a2]) (itmax + 1) (π / 2 - reduced phi1 a1 f1) 0.0063 (by norm_num)
    (by norm_num) (by rw [abs_of_pos v0]; linarith) c3
  have n3' := n3 hk0 s0 v0
  have es : solvedHigh phi1 h1 a1 f1 a2 f2 eps itmax =
      π / 2 - newtonLow (a2 ^ 2 * k) (a2 ^ 2 * c) (a2 ^ 2 * s) eps (itmax + 1)
        (π / 2 - reduced phi1 a1 f1) := by
    unfold solvedHigh; rw [e0, e1, e2, newtonHigh_low]
  generalize newtonLow (a2 ^ 2 * k) (a2 ^ 2 * c) (a2 ^ 2 * s) eps (itmax + 1)
        (π / 2 - reduced phi1 a1 f1) = v at n1 n2 n3' es
  rw [es, cos_pi_div_two_sub, sin_pi_div_two_sub]
  refine ⟨sin_pos_of_pos_of_lt_pi n3' (by linarith [pi_gt_d2, (abs_le.1 n1).2]),
    by linarith [cos_far n1], ?_⟩
  have er : residualHigh phi1 h1 a1 f1 a2 f2 (π / 2 - v) = a2 ^ 2 * sought k c s v := by
    unfold residualHigh sought
    rw [e0, e1, e2, cos_pi_div_two_sub, tan_pi_div_two_sub, div_inv_eq_mul]; ring
  rw [er, abs_mul, abs_of_pos (by positivity)]
  exact mul_le_mul_of_nonneg_left (n2.trans (left_ge eps itmax)) (by positivity)

theorem reduced_neg (phi a f : ℝ) : reduced (-phi) a f = -reduced phi a f := by
  unfold reduced
  rw [show -phi * π / 180 = -(phi * π / 180) by ring, tan_neg, mul_neg, arctan_neg]

theorem fromAxis_neg (phi h a f : ℝ) : fromAxis (-phi) h a f = fromAxis phi h a f := by
  unfold fromAxis
  rw [reduced_neg, show -phi * π / 180 = -(phi * π / 180) by ring, cos_neg, cos_neg]

theorem fromPlane_neg (phi h a f : ℝ) : fromPlane (-phi) h a f = -fromPlane phi h a f := by
  unfold fromPlane
  rw [reduced_neg, show -phi * π / 180 = -(phi * π / 180) by ring, sin_neg, sin_neg]; ring

theorem solvedHigh_neg (phi1 h1 a1 f1 a2 f2 eps : ℝ) (itmax : ℕ) :
    solvedHigh (-phi1) h1 a1 f1 a2 f2 eps itmax = -solvedHigh phi1 h1 a1 f1 a2 f2 eps itmax := by
  unfold solvedHigh
  rw [reduced_neg, fromAxis_neg, fromPlane_neg, mul_neg, newtonHigh_neg]

theorem residualHigh_neg (phi1 h1 a1 f1 a2 f2 u : ℝ) :
    residualHigh (-phi1) h1 a1 f1 a2 f2 (-u) = residualHigh phi1 h1 a1 f1 a2 f2 u := by
  unfold residualHigh
  rw [fromAxis_neg, fromPlane_neg, cos_neg, tan_neg, mul_neg, neg_div_neg_eq]

/-- Beyond 45 degrees in either hemisphere. -/
theorem solved_high_abs {phi1 h1 a1 f1 a2 f2 eps : ℝ} {itmax : ℕ} (E : EarthLike h1 a1 f1 a2 f2)
    (he : eps ≤ a2 ^ 2 / 2) (hp : 45 < |phi1|) (hp2 : |phi1| < 90) :
    0 < cos (solvedHigh phi1 h1 a1 f1 a2 f2 eps itmax) ∧
      sin (solvedHigh phi1 h1 a1 f1 a2 f2 eps itmax) ≠ 0 ∧
      |residualHigh phi1 h1 a1 f1 a2 f2 (solvedHigh phi1 h1 a1 f1 a2 f2 eps itmax)| ≤
        a2 ^ 2 * left eps itmax := by
  rcases le_total 0 phi1 with h | h
  · rw [abs_of_nonneg h] at hp hp2
    obtain ⟨q1, q2, q3⟩ := solved_high (itmax := itmax) E he hp hp2
    exact ⟨q1, q2.ne', q3⟩
  · rw [abs_of_nonpos h] at hp hp2
    obtain ⟨q1, q2, q3⟩ := solved_high (itmax := itmax) E he hp hp2
    rw [solvedHigh_neg, residualHigh_neg] at q3
    rw [solvedHigh_neg, cos_neg] at q1
    rw [solvedHigh_neg, sin_neg] at q2
    exact ⟨q1, by intro g; rw [g] at q2; simp at q2, q3⟩

/-- C36: for ellipsoids and heights as on the Earth, and any latitude that is not within the
tolerance of the equator or a pole, the converted latitude and height on the second ellipsoid
denote the same point in space as the original ones did on the first, up to what is left of the
iteration: the square of the tolerance or the square of the start error repeated once for every
step. -/
theorem C36_same_point (lon phi1 h1 a1 f1 a2 f2 eps : ℝ) (itmax : ℕ)
    (E : EarthLike h1 a1 f1 a2 f2) (he0 : 0 < eps) (he : eps ≤ a2 ^ 2 / 2) (he2 : eps ≤ 45)
    (e1 : eps ≤ |phi1|) (e2 : eps ≤ 90 - |phi1|) (e3 : eps ≤ cos (phi1 * π / 180)) :
    let q := convertPoint phi1 h1 a1 f1 a2 f2 eps itmax
    let before := toCartesian lon phi1 h1 a1 f1
    let after := toCartesian lon q.1 q.2 a2 f2
    |after.x - before.x| ≤ 1.01 * a2 * left eps itmax ∧
      |after.y - before.y| ≤ 1.01 * a2 * left eps itmax ∧
      |after.z - before.z| ≤ 1.01 * a2 * left eps itmax := by
  obtain ⟨f10, f11⟩ := E.flat1
  obtain ⟨f20, f21⟩ := E.flat2
  have ha1 := E.first
  have ha2 := E.second
  have hl : 0 ≤ left eps itmax := le_max_of_le_left (by positivity)
  have hb : 0 ≤ 1.01 * a2 * left eps itmax := by positivity
  intro q before after
  rcases le_or_gt |phi1| 45 with hp | hp
  · obtain ⟨g1, g2⟩ := solved_low (itmax := itmax) E he hp
    obtain ⟨q1, q2, q3⟩ := C36_same_point_low_partial lon phi1 h1 a1 f1 a2 f2 eps itmax ha1
      ⟨f10, by linarith⟩ ha2 ⟨f20, by linarith⟩ e1 hp e3 he2 g1
    refine ⟨?_, ?_, ?_⟩
    · rw [show after.x = before.x from q1, sub_self, abs_zero]; exact hb
    · rw [show after.y = before.y from q2, sub_self, abs_zero]; exact hb
    · rw [show after.z = _ from q3, add_sub_cancel_left, abs_div,
        abs_of_pos (a := (1 - f2) * a2) (mul_pos (by linarith) ha2),
        div_le_iff₀ (mul_pos (by linarith) ha2)]
      refine g2.trans ?_
      have : a2 ^ 2 * left eps itmax * 1 ≤ a2 ^ 2 * left eps itmax * (1.01 * (1 - f2)) :=
        mul_le_mul_of_nonneg_left (by linarith) (by positivity)
      linarith
  · obtain ⟨g1, g2, g3⟩ := solved_high_abs (itmax := itmax) E he hp (by linarith)
    obtain ⟨q1, q2, q3⟩ := C36_same_point_high_partial lon phi1 h1 a1 f1 a2 f2 eps itmax he0 ha1
      ⟨f10, by linarith⟩ ha2 ⟨f20, by linarith⟩ e1 hp e3 e2 g1 g2
    have off : ∀ t : ℝ, |t| ≤ 1 → |residualHigh phi1 h1 a1 f1 a2 f2
        (solvedHigh phi1 h1 a1 f1 a2 f2 eps itmax) / a2 * t| ≤ 1.01 * a2 * left eps itmax := by
      intro t ht
      have h1 : |residualHigh phi1 h1 a1 f1 a2 f2
        (solvedHigh phi1 h1 a1 f1 a2 f2 eps itmax) / a2| ≤ a2 * left eps itmax := by
        rw [abs_div, abs_of_pos ha2, div_le_iff₀ ha2]
        linarith
      rw [abs_mul]
      have := mul_le_mul h1 ht (abs_nonneg _) (by positivity)
      nlinarith [mul_nonneg ha2.le hl]
    refine ⟨?_, ?_, ?_⟩
    · rw [show after.x = _ from q1, add_sub_cancel_left]; exact off _ (abs_cos_le_one _)
    · rw [show after.y = _ from q2, add_sub_cancel_left]; exact off _ (abs_sin_le_one _)
    · rw [show after.z = before.z from q3, sub_self, abs_zero]; exact hb

/-- C36 with the tolerance and the number of steps the function has by default: the point moves by
less than one part in 10^22 in every coordinate. -/
theorem C36_same_point_default (lon phi1 h1 a1 f1 a2 f2 : ℝ) (E : EarthLike h1 a1 f1 a2 f2)
    (ha : 1 ≤ a2) (e1 : 1e-12 ≤ |phi1|) (e2 : 1e-12 ≤ 90 - |phi1|)
    (e3 : 1e-12 ≤ cos (phi1 * π / 180)) :
    let q := convertPoint phi1 h1 a1 f1 a2 f2 1e-12 10
    let before := toCartesian lon phi1 h1 a1 f1
    let after := toCartesian lon q.1 q.2 a2 f2
    |after.x - before.x| ≤ 1e-22 * a2 ∧ |after.y - before.y| ≤ 1e-22 * a2 ∧
      |after.z - before.z| ≤ 1e-22 * a2 := by
  have hl : left 1e-12 10 ≤ 5e-24 := by
    refine max_le (by norm_num) ?_
    calc ((1 / 16 : ℝ)) ^ 2 ^ (10 + 1) ≤ (1 / 16) ^ 20 :=
          pow_le_pow_of_le_one (by norm_num) (by norm_num) (by norm_num)
      _ ≤ 5e-24 := by norm_num
  have hb : 1.01 * a2 * left 1e-12 10 ≤ 1e-22 * a2 := by nlinarith
  obtain ⟨q1, q2, q3⟩ := C36_same_point lon phi1 h1 a1 f1 a2 f2 1e-12 10 E (by norm_num)
    (by nlinarith) (by norm_num) e1 e2 e3
  exact ⟨q1.trans hb, q2.trans hb, q3.trans hb⟩

/-- The ellipsoid of TOPEX/Poseidon and that of WGS84 are of this kind, with the height of a
mountain. -/
example : EarthLike 8848 6378136.3 (1 / 298.257) 6378137 (1 / 298.257223563) where
  first := by norm_num
  second := by norm_num
  axes := by norm_num [abs_le]
  flat1 := by norm_num
  flat2 := by norm_num
  height := by norm_num [abs_le]

end Verif.Spatial
