import Verif.Props.SolidRequests
import Verif.Props.PoleTide
import Verif.Props.Ephemerides
import Mathlib.Analysis.InnerProductSpace.PiL2

/-!
# C108: no displacement of the ground is larger than the body that causes it allows

Solid Earth tides and load pole tides, bounded at all stations and all times.
-/

namespace Verif.SolidEarth

open Verif Real Spec

/-! ### Lengths -/

theorem length3_norm (X : Vec) : length3 X = ‖(WithLp.toLp 2 X : EuclideanSpace ℝ (Fin 3))‖ := by
  rw [length3, EuclideanSpace.norm_eq]
  congr 1
  simp only [dotProduct, Fin.sum_univ_three, Real.norm_eq_abs, sq_abs]
  ring

theorem length3_add (X Y : Vec) : length3 (X + Y) ≤ length3 X + length3 Y := by
  rw [length3_norm, length3_norm, length3_norm, WithLp.toLp_add]
  exact norm_add_le _ _

theorem length3_zero : length3 (0 : Vec) = 0 := by simp [length3]

theorem length3_local3 (u n e p l : ℝ) :
    length3 (local3 u n e p l) = sqrt (u ^ 2 + n ^ 2 + e ^ 2) := by
  rw [length3]
  congr 1
  simp only [dotProduct, Fin.sum_univ_three, local3_0, local3_1, local3_2]
  have h1 := sin_sq_add_cos_sq p
  have h2 := sin_sq_add_cos_sq l
  linear_combination (u ^ 2 * cos p ^ 2 + n ^ 2 * sin p ^ 2 + e ^ 2 - 2 * u * n * cos p * sin p) * h2 +
    (u ^ 2 + n ^ 2) * h1

theorem length3_le (u n e p l a b c : ℝ) (hu : |u| ≤ a) (hn : |n| ≤ b) (he : |e| ≤ c) :
    length3 (local3 u n e p l) ≤ a + b + c := by
  rw [length3_local3]
  have h1 := abs_nonneg u
  have h2 := abs_nonneg n
  have h3 := abs_nonneg e
  refine (sqrt_le_sqrt (?_ : _ ≤ (|u| + |n| + |e|) ^ 2)).trans ?_
  · rw [← sq_abs u, ← sq_abs n, ← sq_abs e]; nlinarith [mul_nonneg h1 h2, mul_nonneg h1 h3, mul_nonneg h2 h3]
  · rw [sqrt_sq (by positivity)]; linarith

/-- The component along a unit vector is not longer than the vector. -/
theorem abs_dot_up (d : Vec) (p l : ℝ) :
    |d 0 * up p l 0 + d 1 * up p l 1 + d 2 * up p l 2| ≤ length3 d := by
  refine abs_le_sqrt ?_
  have h1 := sin_sq_add_cos_sq p
  have h2 := sin_sq_add_cos_sq l
  simp only [up, dotProduct, Fin.sum_univ_three, Matrix.cons_val_zero, Matrix.cons_val_one, Matrix.cons_val]
  set a := cos p * cos l
  set b := cos p * sin l
  set c := sin p
  have hs : a ^ 2 + b ^ 2 + c ^ 2 = 1 := by
    simp only [a, b, c]; linear_combination cos p ^ 2 * h2 + h1
  nlinarith [sq_nonneg (d 0 * b - d 1 * a), sq_nonneg (d 0 * c - d 2 * a), sq_nonneg (d 1 * c - d 2 * b)]

/-! ### One body -/

theorem unit_direction (p l P L : ℝ) :
    (cos p * cos P * cos (l - L) + sin p * sin P) ^ 2 +
      (-sin p * cos P * cos (l - L) + cos p * sin P) ^ 2 + (-cos P * sin (l - L)) ^ 2 = 1 := by
  have h1 := sin_sq_add_cos_sq p
  have h2 := sin_sq_add_cos_sq (l - L)
  have h3 := sin_sq_add_cos_sq P
  linear_combination (cos P ^ 2 * cos (l - L) ^ 2 + sin P ^ 2) * h1 + cos P ^ 2 * h2 + h3

theorem degree_two_le (h l2 F P L : ℝ) {p : ℝ} (hp : 0 < cos p) (l : ℝ) (hF : 0 ≤ F) (hl : 0 ≤ l2)
    (hh : 2 * l2 ≤ h) : length3 (response h l2 (tidal 2 F P L) p l) ≤ h * F := by
  rw [response_two h l2 F P L hp l]
  dsimp only
  rw [length3_local3]
  have hd := unit_direction p l P L
  set s := cos p * cos P * cos (l - L) + sin p * sin P
  set a := -sin p * cos P * cos (l - L) + cos p * sin P
  set b := -cos P * sin (l - L)
  have hx : s ^ 2 ≤ 1 := by nlinarith [sq_nonneg a, sq_nonneg b]
  have hx0 := sq_nonneg s
  have hq : 4 * l2 ^ 2 ≤ h ^ 2 := by nlinarith
  refine sqrt_le_iff.2 ⟨mul_nonneg (by linarith) hF, ?_⟩
  have e : (h * (F * (3 / 2 * s ^ 2 - 1 / 2))) ^ 2 + (l2 * (F * (3 * s * a))) ^ 2 + (l2 * (F * (3 * s * b))) ^ 2 =
      F ^ 2 * (h ^ 2 * (3 / 2 * s ^ 2 - 1 / 2) ^ 2 + 9 * l2 ^ 2 * s ^ 2 * (1 - s ^ 2)) := by
    have : a ^ 2 + b ^ 2 = 1 - s ^ 2 := by linarith
    linear_combination 9 * F ^ 2 * l2 ^ 2 * s ^ 2 * this
  rw [e, mul_pow, mul_comm (h ^ 2) (F ^ 2)]
  refine mul_le_mul_of_nonneg_left ?_ (sq_nonneg F)
  have e2 : h ^ 2 - (h ^ 2 * (3 / 2 * s ^ 2 - 1 / 2) ^ 2 + 9 * l2 ^ 2 * s ^ 2 * (1 - s ^ 2)) =
      (1 - s ^ 2) * (3 / 4 * h ^ 2 + 9 / 4 * s ^ 2 * (h ^ 2 - 4 * l2 ^ 2)) := by ring
  have : 0 ≤ (1 - s ^ 2) * (3 / 4 * h ^ 2 + 9 / 4 * s ^ 2 * (h ^ 2 - 4 * l2 ^ 2)) := by
    refine mul_nonneg (by linarith) (add_nonneg (by positivity) (mul_nonneg (by positivity) (by linarith)))
  linarith

theorem degree_three_le (h l3 F P L : ℝ) {p : ℝ} (hp : 0 < cos p) (l : ℝ) (hF : 0 ≤ F) (hl : 0 ≤ l3)
    (hh : 0 ≤ h) : length3 (response h l3 (tidal 3 F P L) p l) ≤ (h + 12 * l3) * F := by
  rw [response_three h l3 F P L hp l]
  dsimp only
  have hd := unit_direction p l P L
  set s := cos p * cos P * cos (l - L) + sin p * sin P
  set a := -sin p * cos P * cos (l - L) + cos p * sin P
  set b := -cos P * sin (l - L)
  have hs : s ^ 2 ≤ 1 := by nlinarith [sq_nonneg a, sq_nonneg b]
  have ha : |a| ≤ 1 := by rw [abs_le]; constructor <;> nlinarith [sq_nonneg s, sq_nonneg b]
  have hb : |b| ≤ 1 := by rw [abs_le]; constructor <;> nlinarith [sq_nonneg s, sq_nonneg a]
  have hs1 : -1 ≤ s ∧ s ≤ 1 := by constructor <;> nlinarith
  have hP : |5 / 2 * s ^ 3 - 3 / 2 * s| ≤ 1 := by
    have e1 : 1 - (5 / 2 * s ^ 3 - 3 / 2 * s) = (1 - s) * (5 / 2 * (s + 1 / 2) ^ 2 + 3 / 8) := by ring
    have e2 : 1 + (5 / 2 * s ^ 3 - 3 / 2 * s) = (1 + s) * (5 / 2 * (s - 1 / 2) ^ 2 + 3 / 8) := by ring
    have p1 : 0 ≤ (1 - s) * (5 / 2 * (s + 1 / 2) ^ 2 + 3 / 8) := mul_nonneg (by linarith [hs1.2]) (by positivity)
    have p2 : 0 ≤ (1 + s) * (5 / 2 * (s - 1 / 2) ^ 2 + 3 / 8) := mul_nonneg (by linarith [hs1.1]) (by positivity)
    rw [abs_le]; constructor <;> linarith
  have hQ : |15 / 2 * s ^ 2 - 3 / 2| ≤ 6 := by
    rw [abs_le]; constructor <;> nlinarith [sq_nonneg s]
  have hor : ∀ c : ℝ, |c| ≤ 1 → |l3 * (F * ((15 / 2 * s ^ 2 - 3 / 2) * c))| ≤ 6 * l3 * F := by
    intro c hc
    rw [abs_mul, abs_mul, abs_mul, abs_of_nonneg hl, abs_of_nonneg hF]
    have : |15 / 2 * s ^ 2 - 3 / 2| * |c| ≤ 6 * 1 := mul_le_mul hQ hc (abs_nonneg _) (by norm_num)
    calc l3 * (F * (|15 / 2 * s ^ 2 - 3 / 2| * |c|)) ≤ l3 * (F * (6 * 1)) := by gcongr
      _ = 6 * l3 * F := by ring
  refine (length3_le _ _ _ p l (h * F) (6 * l3 * F) (6 * l3 * F) ?_ (hor a ha) (hor b hb)).trans (by linarith)
  rw [abs_mul, abs_mul, abs_of_nonneg hh, abs_of_nonneg hF]
  calc h * (F * |5 / 2 * s ^ 3 - 3 / 2 * s|) ≤ h * (F * 1) := by gcongr
    _ = h * F := by ring


/-- A product of numbers that are at most one. -/
theorem abs_mul_le_one {x y : ℝ} (hx : |x| ≤ 1) (hy : |y| ≤ 1) : |x * y| ≤ 1 := by
  rw [abs_mul]; exact mul_le_one₀ hx (abs_nonneg _) hy

theorem abs_scale (c F x : ℝ) (hF : 0 ≤ F) (hx : |x| ≤ 1) : |c * F * x| ≤ |c| * F := by
  rw [abs_mul, abs_mul, abs_of_nonneg hF]
  calc |c| * F * |x| ≤ |c| * F * 1 := by gcongr
    _ = |c| * F := mul_one _

theorem anelastic_diurnal_le (F P L : ℝ) {p : ℝ} (hp : 0 < cos p) (l : ℝ) (hF : 0 ≤ F) :
    length3 (response (-0.0025) (-0.0007) (diurnal F P (L - π / 2)) p l) ≤ 0.003975 * F := by
  rw [response_diurnal _ _ F P L hp l]
  have s1 := abs_sin_le_one (2 * P)
  refine (length3_le _ _ _ p l (0.001875 * F) (0.00105 * F) (0.00105 * F) ?_ ?_ ?_).trans (by linarith)
  · have := abs_scale (0.001875) F (sin (2 * P) * sin (2 * p) * sin (l - L)) hF
      (abs_mul_le_one (abs_mul_le_one s1 (abs_sin_le_one _)) (abs_sin_le_one _))
    rw [abs_of_nonneg (by norm_num : (0 : ℝ) ≤ 0.001875)] at this
    refine le_trans (le_of_eq ?_) this
    congr 1; ring
  · have := abs_scale (0.00105) F (sin (2 * P) * cos (2 * p) * sin (l - L)) hF
      (abs_mul_le_one (abs_mul_le_one s1 (abs_cos_le_one _)) (abs_sin_le_one _))
    rw [abs_of_nonneg (by norm_num : (0 : ℝ) ≤ 0.00105)] at this
    refine le_trans (le_of_eq ?_) this
    congr 1; ring
  · have := abs_scale (0.00105) F (sin (2 * P) * sin p * cos (l - L)) hF
      (abs_mul_le_one (abs_mul_le_one s1 (abs_sin_le_one _)) (abs_cos_le_one _))
    rw [abs_of_nonneg (by norm_num : (0 : ℝ) ≤ 0.00105)] at this
    refine le_trans (le_of_eq ?_) this
    congr 1; ring

theorem anelastic_semidiurnal_le (F P L : ℝ) {p : ℝ} (hp : 0 < cos p) (l : ℝ) (hF : 0 ≤ F) :
    length3 (response (-0.0022) (-0.0007) (semidiurnal F P (L - π / 4)) p l) ≤ 0.00375 * F := by
  rw [response_semidiurnal _ _ F P L hp l]
  have s1 : |cos P ^ 2| ≤ 1 := by rw [sq]; exact abs_mul_le_one (abs_cos_le_one _) (abs_cos_le_one _)
  have s2 : |cos p ^ 2| ≤ 1 := by rw [sq]; exact abs_mul_le_one (abs_cos_le_one _) (abs_cos_le_one _)
  refine (length3_le _ _ _ p l (0.00165 * F) (0.00105 * F) (0.00105 * F) ?_ ?_ ?_).trans (by linarith)
  · have := abs_scale (0.00165) F (cos P ^ 2 * cos p ^ 2 * sin (2 * (l - L))) hF
      (abs_mul_le_one (abs_mul_le_one s1 s2) (abs_sin_le_one _))
    rw [abs_of_nonneg (by norm_num : (0 : ℝ) ≤ 0.00165)] at this
    refine le_trans (le_of_eq ?_) this
    congr 1; ring
  · have := abs_scale (-0.00105) F (cos P ^ 2 * (sin p * cos p) * sin (2 * (l - L))) hF
      (abs_mul_le_one (abs_mul_le_one s1 (abs_mul_le_one (abs_sin_le_one _) (abs_cos_le_one _))) (abs_sin_le_one _))
    rw [abs_of_nonpos (by norm_num : (-0.00105 : ℝ) ≤ 0)] at this
    refine le_trans (le_of_eq ?_) (this.trans (by linarith))
    congr 1; ring
  · have := abs_scale (0.00105) F (cos P ^ 2 * cos p * cos (2 * (l - L))) hF
      (abs_mul_le_one (abs_mul_le_one s1 (abs_cos_le_one _)) (abs_cos_le_one _))
    rw [abs_of_nonneg (by norm_num : (0 : ℝ) ≤ 0.00105)] at this
    refine le_trans (le_of_eq ?_) this
    congr 1; ring

theorem latitude_diurnal_le (F P L p l : ℝ) (hP : 0 ≤ cos P) (hF : 0 ≤ F) :
    length3 (latitudeDiurnal 0.0012 F P L p l) ≤ 0.0072 * F := by
  rw [latitudeDiurnal, assoc_two_one hP]
  have sp := abs_sin_le_one p
  have q : |sin P * cos P| ≤ 1 := abs_mul_le_one (abs_sin_le_one _) (abs_cos_le_one _)
  refine (length3_le _ _ _ p l 0 (0.0036 * F) (0.0036 * F) (by simp) ?_ ?_).trans (by linarith)
  · have := abs_scale (-0.0036) F (sin P * cos P * sin p * (sin p * cos (l - L))) hF
      (abs_mul_le_one (abs_mul_le_one q sp) (abs_mul_le_one sp (abs_cos_le_one _)))
    rw [abs_of_nonpos (by norm_num : (-0.0036 : ℝ) ≤ 0)] at this
    refine le_trans (le_of_eq ?_) (this.trans (by linarith))
    congr 1; ring
  · have := abs_scale (0.0036) F (sin P * cos P * sin p * (cos (2 * p) * sin (l - L))) hF
      (abs_mul_le_one (abs_mul_le_one q sp) (abs_mul_le_one (abs_cos_le_one _) (abs_sin_le_one _)))
    rw [abs_of_nonneg (by norm_num : (0 : ℝ) ≤ 0.0036)] at this
    refine le_trans (le_of_eq ?_) this
    congr 1; ring

theorem latitude_semidiurnal_le (F P L p l : ℝ) (hP : 0 ≤ cos P) (hF : 0 ≤ F) :
    length3 (latitudeSemidiurnal 0.0024 F P L p l) ≤ 0.0072 * F := by
  rw [latitudeSemidiurnal, assoc_two_two hP]
  have sp := abs_sin_le_one p
  have cp := abs_cos_le_one p
  have q : |cos P ^ 2| ≤ 1 := by rw [sq]; exact abs_mul_le_one (abs_cos_le_one _) (abs_cos_le_one _)
  refine (length3_le _ _ _ p l 0 (0.0036 * F) (0.0036 * F) (by simp) ?_ ?_).trans (by linarith)
  · have := abs_scale (-0.0036) F (cos P ^ 2 * (sin p * cos p) * cos (2 * (l - L))) hF
      (abs_mul_le_one (abs_mul_le_one q (abs_mul_le_one sp cp)) (abs_cos_le_one _))
    rw [abs_of_nonpos (by norm_num : (-0.0036 : ℝ) ≤ 0)] at this
    refine le_trans (le_of_eq ?_) (this.trans (by linarith))
    congr 1; ring
  · have := abs_scale (-0.0036) F (cos P ^ 2 * (sin p * cos p) * (sin p * sin (2 * (l - L)))) hF
      (abs_mul_le_one (abs_mul_le_one q (abs_mul_le_one sp cp)) (abs_mul_le_one sp (abs_sin_le_one _)))
    rw [abs_of_nonpos (by norm_num : (-0.0036 : ℝ) ≤ 0)] at this
    refine le_trans (le_of_eq ?_) (this.trans (by linarith))
    congr 1; ring

theorem byBody_le (h2 l2 h3 l3 ratio a R P L : ℝ) {p : ℝ} (hp : 0 < cos p) (l : ℝ) (hP : 0 ≤ cos P)
    (hr : 0 ≤ ratio) (ha : 0 ≤ a) (hR : 0 < R) (hl2 : 0 ≤ l2) (hh2 : 2 * l2 ≤ h2) (hl3 : 0 ≤ l3)
    (hh3 : 0 ≤ h3) :
    length3 (byBody h2 l2 h3 l3 ratio a R P L p l) ≤
      (h2 + 0.022125) * (ratio * a ^ 4 / R ^ 3) + (h3 + 12 * l3) * (ratio * a ^ 5 / R ^ 4) := by
  have f2 : 0 ≤ ratio * a ^ 4 / R ^ 3 := by positivity
  have f3 : 0 ≤ ratio * a ^ 5 / R ^ 4 := by positivity
  rw [byBody]
  set F2 := ratio * a ^ 4 / R ^ 3
  set F3 := ratio * a ^ 5 / R ^ 4
  have t1 := degree_two_le h2 l2 F2 P L hp l f2 hl2 hh2
  have t2 := degree_three_le h3 l3 F3 P L hp l f3 hl3 hh3
  have t3 := anelastic_diurnal_le F2 P L hp l f2
  have t4 := anelastic_semidiurnal_le F2 P L hp l f2
  have t5 := latitude_diurnal_le F2 P L p l hP f2
  have t6 := latitude_semidiurnal_le F2 P L p l hP f2
  refine (length3_add _ _).trans ((add_le_add_left ((length3_add _ _).trans (add_le_add_left
    ((length3_add _ _).trans (add_le_add_left ((length3_add _ _).trans (add_le_add_left
      (length3_add _ _) _)) _)) _)) _).trans ?_)
  linarith

/-! ### Tables -/

theorem sum_abs_le {α : Type} (t : List α) (f : α → ℝ) (g : α → ℚ) (h : ∀ q, |f q| ≤ 1e-3 * (g q : ℝ))
    (B : ℚ) (hB : (t.map g).sum ≤ B) : |(t.map f).sum| ≤ 1e-3 * (B : ℝ) := by
  suffices this : |(t.map f).sum| ≤ 1e-3 * ((t.map g).sum : ℚ) by
    have : (((t.map g).sum : ℚ) : ℝ) ≤ B := by exact_mod_cast hB
    linarith
  clear hB B
  induction t with
  | nil => simp
  | cons q t ih =>
    simp only [List.map_cons, List.sum_cons]
    have := abs_add_le (f q) (t.map f).sum
    have := h q
    rw [Rat.cast_add]
    linarith

theorem two_terms (a b : ℚ) {x y z : ℝ} (hx : |x| ≤ 1) (hy : |y| ≤ 1) (hz : |z| ≤ 1) :
    |1e-3 * (((a : ℝ) * x + b * y) * z)| ≤ 1e-3 * ((|a| + |b| : ℚ) : ℝ) := by
  rw [abs_mul, abs_of_pos (by norm_num : (0 : ℝ) < 1e-3), abs_mul, Rat.cast_add, Rat.cast_abs, Rat.cast_abs]
  have h1 : |(a : ℝ) * x + b * y| ≤ |(a : ℝ)| + |(b : ℝ)| := by
    refine (abs_add_le _ _).trans ?_
    rw [abs_mul, abs_mul]
    nlinarith [abs_nonneg (a : ℝ), abs_nonneg (b : ℝ)]
  have : |(a : ℝ) * x + b * y| * |z| ≤ (|(a : ℝ)| + |(b : ℝ)|) * 1 :=
    mul_le_mul h1 hz (abs_nonneg _) (by positivity)
  linarith

theorem frequency_diurnal_le {r p : ℝ} (hr : 0 < r) (hp : 0 < cos p) (l : ℝ) (d : Doodson) :
    length3 (frequencyDiurnal (point r p l) d) ≤ 0.0199 := by
  rw [C40_frequency_diurnal hr hp]
  have s1 : (diurnalTable.map fun q => |q.r5| + |q.r6|).sum ≤ 17.92 := by decide +kernel
  have s2 : (diurnalTable.map fun q => |q.r7| + |q.r8|).sum ≤ 0.99 := by decide +kernel
  refine (length3_le _ _ _ p l (1e-3 * (17.92 : ℚ)) (1e-3 * (0.99 : ℚ)) (1e-3 * (0.99 : ℚ)) ?_ ?_ ?_).trans (by norm_num)
  · refine sum_abs_le diurnalTable _ (fun q => |q.r5| + |q.r6|) (fun q => ?_) _ s1
    exact two_terms _ _ (abs_sin_le_one _) (abs_cos_le_one _) (abs_sin_le_one _)
  · refine sum_abs_le diurnalTable _ (fun q => |q.r7| + |q.r8|) (fun q => ?_) _ s2
    exact two_terms _ _ (abs_sin_le_one _) (abs_cos_le_one _) (abs_cos_le_one _)
  · refine sum_abs_le diurnalTable _ (fun q => |q.r7| + |q.r8|) (fun q => ?_) _ s2
    have := two_terms q.r7 (-q.r8) (abs_cos_le_one (d.tau + combination d q.n + l))
      (abs_sin_le_one (d.tau + combination d q.n + l)) (abs_sin_le_one p)
    rw [abs_neg] at this
    refine le_trans (le_of_eq ?_) this
    congr 1; push_cast; ring

theorem frequency_long_le {r p : ℝ} (hr : 0 < r) (hp : 0 < cos p) (l : ℝ) (d : Doodson) :
    length3 (frequencyLongPeriod (point r p l) d) ≤ 0.0024 := by
  rw [C40_frequency_long_period hr hp]
  have s1 : (longPeriodTable.map fun q => |q.r5| + |q.r7|).sum ≤ 1.53 := by decide +kernel
  have s2 : (longPeriodTable.map fun q => |q.r6| + |q.r8|).sum ≤ 0.85 := by decide +kernel
  have hz : |3 / 2 * sin p ^ 2 - 1 / 2| ≤ 1 := by
    have := sin_sq_le_one p
    rw [abs_le]; constructor <;> nlinarith [sq_nonneg (sin p)]
  refine (length3_le _ _ _ p l (1e-3 * (1.53 : ℚ)) (1e-3 * (0.85 : ℚ)) 0 ?_ ?_ (by simp)).trans (by norm_num)
  · refine sum_abs_le longPeriodTable _ (fun q => |q.r5| + |q.r7|) (fun q => ?_) _ s1
    have := two_terms q.r5 q.r7 (abs_cos_le_one (combination d q.n)) (abs_sin_le_one (combination d q.n)) hz
    refine le_trans (le_of_eq ?_) this
    congr 1; ring
  · refine sum_abs_le longPeriodTable _ (fun q => |q.r6| + |q.r8|) (fun q => ?_) _ s2
    exact two_terms _ _ (abs_cos_le_one _) (abs_sin_le_one _) (abs_sin_le_one _)

theorem freeToMean_point {r p : ℝ} (hr : 0 < r) (hp : 0 < cos p) (l h2 l2 : ℝ) :
    freeToMean (point r p l) h2 l2 =
      local3 (sqrt (5 / (4 * π)) * h2 * (-0.31460) * (3 / 2 * sin p ^ 2 - 1 / 2))
        (2 * (sqrt (45 / (16 * π)) * l2 * (-0.31460)) * cos p * sin p) 0 p l := by
  rw [← assemble hr hp, freeToMean, cosphi_point hr hp, sinphi_point hr]
  refine vec_ext ?_ ?_ ?_ <;> simp only [Matrix.cons_val_zero, Matrix.cons_val_one, Matrix.cons_val] <;> ring

theorem freeToMean_le {r p : ℝ} (hr : 0 < r) (hp : 0 < cos p) (l h2 l2 : ℝ) (hh : 0 ≤ h2) (hh' : h2 ≤ 0.6081)
    (hl : 0 ≤ l2) (hl' : l2 ≤ 0.0849) : length3 (freeToMean (point r p l) h2 l2) ≤ 0.1461 := by
  rw [freeToMean_point hr hp]
  have hpi := pi_gt_d4
  have q1 : sqrt (5 / (4 * π)) ≤ 0.6309 := by
    refine sqrt_le_iff.2 ⟨by norm_num, ?_⟩
    rw [div_le_iff₀ (by positivity)]; nlinarith
  have q2 : sqrt (45 / (16 * π)) ≤ 0.9463 := by
    refine sqrt_le_iff.2 ⟨by norm_num, ?_⟩
    rw [div_le_iff₀ (by positivity)]; nlinarith
  have q1' := sqrt_nonneg (5 / (4 * π))
  have q2' := sqrt_nonneg (45 / (16 * π))
  have hz : |3 / 2 * sin p ^ 2 - 1 / 2| ≤ 1 := by
    have := sin_sq_le_one p
    rw [abs_le]; constructor <;> nlinarith [sq_nonneg (sin p)]
  have m1 : sqrt (5 / (4 * π)) * h2 ≤ 0.6309 * 0.6081 := mul_le_mul q1 hh' hh (by norm_num)
  have m2 : sqrt (45 / (16 * π)) * l2 ≤ 0.9463 * 0.0849 := mul_le_mul q2 hl' hl (by norm_num)
  have m1' : 0 ≤ sqrt (5 / (4 * π)) * h2 := mul_nonneg q1' hh
  have m2' : 0 ≤ sqrt (45 / (16 * π)) * l2 := mul_nonneg q2' hl
  refine (length3_le _ _ _ p l (0.6309 * 0.6081 * 0.3146) (0.9463 * 0.0849 * 0.3146) 0 ?_ ?_ (by simp)).trans
    (by norm_num)
  · rw [abs_mul, abs_mul, abs_of_nonneg m1', abs_of_neg (by norm_num : (-0.31460 : ℝ) < 0)]
    calc _ ≤ (0.6309 * 0.6081 * 0.3146) * (1 : ℝ) := by
          refine mul_le_mul ?_ hz (abs_nonneg _) (by norm_num)
          nlinarith
      _ = _ := mul_one _
  · have hs : |2 * cos p * sin p| ≤ 1 := by
      rw [show 2 * cos p * sin p = sin (2 * p) by rw [sin_two_mul]; ring]
      exact abs_sin_le_one _
    rw [show 2 * (sqrt (45 / (16 * π)) * l2 * (-0.31460)) * cos p * sin p =
      sqrt (45 / (16 * π)) * l2 * (-0.31460) * (2 * cos p * sin p) by ring,
      abs_mul, abs_mul, abs_of_nonneg m2', abs_of_neg (by norm_num : (-0.31460 : ℝ) < 0)]
    calc _ ≤ (0.9463 * 0.0849 * 0.3146) * (1 : ℝ) := by
          refine mul_le_mul ?_ hs (abs_nonneg _) (by norm_num)
          nlinarith
      _ = _ := mul_one _

/-! ### Solid Earth tides -/

theorem length3_point {r : ℝ} (hr : 0 < r) (p l : ℝ) : length3 (point r p l) = r := by
  rw [PoleTide.length3_eq, radius_point hr]

theorem force_le {ratio a R c : ℝ} (n : ℕ) (hr : 0 ≤ ratio) (ha : 0 ≤ a) (ha' : a ≤ 6378400) (hc : 0 < c)
    (hR : c ≤ R) : ratio * a ^ (n + 1) / R ^ n ≤ ratio * 6378400 ^ (n + 1) / c ^ n := by
  gcongr

/-- C108.  For every station off the axis, every time, every equatorial radius of an ellipsoid of the
Earth, and Sun and Moon at least as far as they come, the displacement is at most 42 centimetres long,
and at most 57 centimetres with the permanent tide. -/
theorem C108_displacement (a t : ℝ) (X S L : Vec) (ha : 0 ≤ a) (ha' : a ≤ 6378400)
    (hX : ¬ (X 0 = 0 ∧ X 1 = 0)) (hS : 147.099e9 ≤ length3 S) (hL : 356096e3 ≤ length3 L) :
    (∃ d, tideOrNaN {} a false t X S L = some d ∧ length3 d ≤ 0.42) ∧
    ∃ d, tideOrNaN {} a true t X S L = some d ∧ length3 d ≤ 0.57 := by
  obtain ⟨r, p, l, hr, hp, rfl⟩ := exists_point X hX
  have hS0 : S ≠ 0 := by rintro rfl; rw [length3_zero] at hS; norm_num at hS
  have hL0 : L ≠ 0 := by rintro rfl; rw [length3_zero] at hL; norm_num at hL
  obtain ⟨R, P, l', hR, hP, rfl⟩ := exists_body S hS0
  obtain ⟨R', P', l'', hR', hP', rfl⟩ := exists_body L hL0
  rw [length3_point hR] at hS
  rw [length3_point hR'] at hL
  have hc := cos_sq_le_one p
  have hc0 := sq_nonneg (cos p)
  have bh : (0.6072 : ℝ) ≤ 0.6078 - 0.0006 * (1 - 3 / 2 * cos p ^ 2) := by norm_num; linarith
  have bh' : (0.6078 : ℝ) - 0.0006 * (1 - 3 / 2 * cos p ^ 2) ≤ 0.6081 := by norm_num; linarith
  have bl : (0.0846 : ℝ) ≤ 0.0847 + 0.0002 * (1 - 3 / 2 * cos p ^ 2) := by norm_num; linarith
  have bl' : (0.0847 : ℝ) + 0.0002 * (1 - 3 / 2 * cos p ^ 2) ≤ 0.0849 := by norm_num; linarith
  have body := fun (ratio R P L : ℝ) (h0 : 0 ≤ ratio) (h1 : 0 < R) (h2 : 0 ≤ cos P) =>
    byBody_le (0.6078 - 0.0006 * (1 - 3 / 2 * cos p ^ 2)) (0.0847 + 0.0002 * (1 - 3 / 2 * cos p ^ 2)) 0.292 0.015
      ratio a R P L hp l h2 h0 ha h1 (by linarith) (by linarith) (by norm_num) (by norm_num)
  have bS := body 332946.0482 R P l' (by norm_num) hR hP
  have bL := body 0.0123000371 R' P' l'' (by norm_num) hR' hP'
  have f2S := force_le (ratio := 332946.0482) 3 (by norm_num) ha ha' (by norm_num) hS
  have f3S := force_le (ratio := 332946.0482) 4 (by norm_num) ha ha' (by norm_num) hS
  have f2L := force_le (ratio := 0.0123000371) 3 (by norm_num) ha ha' (by norm_num) hL
  have f3L := force_le (ratio := 0.0123000371) 4 (by norm_num) ha ha' (by norm_num) hL
  have n2S : (332946.0482 : ℝ) * 6378400 ^ (3 + 1) / 147.099e9 ^ 3 ≤ 0.1732 := by norm_num
  have n3S : (332946.0482 : ℝ) * 6378400 ^ (4 + 1) / 147.099e9 ^ 4 ≤ 0.0001 := by norm_num
  have n2L : (0.0123000371 : ℝ) * 6378400 ^ (3 + 1) / 356096e3 ^ 3 ≤ 0.4510 := by norm_num
  have n3L : (0.0123000371 : ℝ) * 6378400 ^ (4 + 1) / 356096e3 ^ 4 ≤ 0.0081 := by norm_num
  have p2S : 0 ≤ 332946.0482 * a ^ 4 / R ^ 3 := by positivity
  have p2L : 0 ≤ 0.0123000371 * a ^ 4 / R' ^ 3 := by positivity
  have cS : length3 (byBody (0.6078 - 0.0006 * (1 - 3 / 2 * cos p ^ 2))
      (0.0847 + 0.0002 * (1 - 3 / 2 * cos p ^ 2)) 0.292 0.015 332946.0482 a R P l' p l) ≤ 0.1093 := by
    refine bS.trans ?_
    have : (0.6078 - 0.0006 * (1 - 3 / 2 * cos p ^ 2) + 0.022125) * (332946.0482 * a ^ 4 / R ^ 3) ≤
        (0.6081 + 0.022125) * 0.1732 := mul_le_mul (by linarith) (f2S.trans n2S) p2S (by norm_num)
    norm_num at this f3S n3S ⊢
    linarith
  have cL : length3 (byBody (0.6078 - 0.0006 * (1 - 3 / 2 * cos p ^ 2))
      (0.0847 + 0.0002 * (1 - 3 / 2 * cos p ^ 2)) 0.292 0.015 0.0123000371 a R' P' l'' p l) ≤ 0.2881 := by
    refine bL.trans ?_
    have : (0.6078 - 0.0006 * (1 - 3 / 2 * cos p ^ 2) + 0.022125) * (0.0123000371 * a ^ 4 / R' ^ 3) ≤
        (0.6081 + 0.022125) * 0.4510 := mul_le_mul (by linarith) (f2L.trans n2L) p2L (by norm_num)
    norm_num at this f3L n3L ⊢
    linarith
  have fd := frequency_diurnal_le hr hp l (doodsonArguments (t + 48622))
  have fl := frequency_long_le hr hp l (doodsonArguments (t + 48622))
  have fm := freeToMean_le hr hp l _ _ (by linarith) bh' (by linarith) bl'
  constructor
  · refine ⟨_, C39_mathews {} a t false hr hp hR hR' hP hP' l l' l'', ?_⟩
    simp only [Bool.false_eq_true, if_false, add_zero]
    refine (length3_add _ _).trans ((add_le_add_left ((length3_add _ _).trans (add_le_add_left
      (length3_add _ _) _)) _).trans ?_)
    linarith
  · refine ⟨_, C39_mathews {} a t true hr hp hR hR' hP hP' l l' l'', ?_⟩
    simp only [if_true]
    refine (length3_add _ _).trans ((add_le_add_left ((length3_add _ _).trans (add_le_add_left
      ((length3_add _ _).trans (add_le_add_left (length3_add _ _) _)) _)) _).trans ?_)
    linarith

theorem radialRow_up (X : Vec) : ∃ p l, radialRow X = up p l := by
  unfold radialRow
  dsimp only
  split
  · split
    · exact ⟨π / 2, Spatial.arctan2 (X 1) (X 0), by simp [up]⟩
    · exact ⟨-(π / 2), Spatial.arctan2 (X 1) (X 0), by simp [up]⟩
  · exact ⟨arctan (X 2 / sqrt (X 0 ^ 2 + X 1 ^ 2)), Spatial.arctan2 (X 1) (X 0), by
      rw [sin_pi_div_two_sub, cos_pi_div_two_sub, up, mul_comm (cos _), mul_comm (sin _)]⟩

theorem radial_le {X : Vec} {d : Option Vec} {x B : ℝ} (h : radial X d = some x)
    (hd : ∀ v, d = some v → length3 v ≤ B) : |x| ≤ B := by
  unfold radial at h
  obtain ⟨v, rfl, rfl⟩ := Option.map_eq_some_iff.1 h
  obtain ⟨p, l, e⟩ := radialRow_up X
  rw [e]
  exact (abs_dot_up v p l).trans (hd v rfl)

/-- The largest displacement, in metres, with and without the permanent tide. -/
noncomputable def largest (system : String) : ℝ := if system.toLower = "mean_tide" then 0.57 else 0.42

theorem tide_le {a t : ℝ} {system : String} {X S L v : Vec} (ha : 0 ≤ a) (ha' : a ≤ 6378400)
    (hS : 147.099e9 ≤ length3 S) (hL : 356096e3 ≤ length3 L)
    (h : tideOrNaN {} a (system.toLower == "mean_tide") t X S L = some v) :
    length3 v ≤ largest system := by
  by_cases hX : X 0 = 0 ∧ X 1 = 0
  · exfalso
    rw [tideOrNaN, if_pos] at h
    · cases h
    · left; rw [hX.1, hX.2]; simp
  · obtain ⟨⟨d, e, b⟩, d', e', b'⟩ := C108_displacement a t X S L ha ha' hX hS hL
    unfold largest
    split
    · rename_i hs
      rw [hs, beq_self_eq_true, e'] at h
      cases h
      exact b'
    · rename_i hs
      rw [beq_eq_false_iff_ne.2 hs, e] at h
      cases h
      exact b

theorem solidEarthTide_le {a : ℝ} {system : String} {ts : List ℝ} {Xs Ss Ls : List Vec} {d : List (Option Vec)}
    (ha : 0 ≤ a) (ha' : a ≤ 6378400) (hS : ∀ S ∈ Ss, 147.099e9 ≤ length3 S) (hL : ∀ L ∈ Ls, 356096e3 ≤ length3 L)
    (h : solidEarthTide {} a system ts Xs Ss Ls = .ok d) :
    ∀ o ∈ d, ∀ v, o = some v → length3 v ≤ largest system := by
  unfold solidEarthTide at h
  split at h
  · cases h
  · cases hX : rows ts.length Xs with
    | error e => rw [hX, error_bind] at h; cases h
    | ok X =>
      rw [hX, ok_bind] at h
      cases hS' : rows ts.length Ss with
      | error e => rw [hS', error_bind] at h; cases h
      | ok S =>
        rw [hS', ok_bind] at h
        cases hL' : rows ts.length Ls with
        | error e => rw [hL', error_bind] at h; cases h
        | ok L =>
          rw [hL', ok_bind] at h
          cases h
          intro o ho v hv
          obtain ⟨⟨t, x, s, l⟩, hm, rfl⟩ := List.mem_map.1 ho
          have m1 := (List.of_mem_zip hm).2
          have m2 := (List.of_mem_zip m1).2
          have m3 := List.of_mem_zip m2
          exact tide_le ha ha' (hS s (PoleTide.rows_mem hS' s m3.1)) (hL l (PoleTide.rows_mem hL' l m3.2)) hv

theorem pyMap_mem {α β : Type} {f : α → Except PyErr β} : ∀ {l : List α} {r : List β}, pyMap f l = .ok r →
    ∀ b ∈ r, ∃ a ∈ l, f a = .ok b
  | [], r, h, b, hb => by cases h; cases hb
  | a :: l, r, h, b, hb => by
    unfold pyMap at h
    split at h
    · cases h
    · rename_i b' hb'
      split at h
      · cases h
      · rename_i bs hbs
        cases h
        rcases List.mem_cons.1 hb with rfl | hb
        · exact ⟨a, by simp, hb'⟩
        · obtain ⟨a', ha', e⟩ := pyMap_mem hbs b hb
          exact ⟨a', by simp [ha'], e⟩

/-- All values of a result. -/
def Out.values : Out → List (Option ℝ)
  | .grid l => l.flatten
  | .drift l => l
  | .series l => l.flatten

/-- C108.  Whatever is asked for - grid, drift track or time series, at any places and times - every
solid Earth tide returned, if it is a number, is at most 42 centimetres (tide-free) or 57 centimetres (mean
tide), for ephemerides that never place the Sun and the Moon closer than they come. -/
theorem C108_requests (type system ephemerides : String) (dm : CRS.Datum) (sun moon : ℝ → Vec) (ny nx : ℕ)
    (pts : List (ℝ × ℝ)) (times : List Time) (out : Out) (ha : 0 ≤ dm.a) (ha' : dm.a ≤ 6378400)
    (hS : ∀ t, 147.099e9 ≤ length3 (sun t)) (hL : ∀ t, 356096e3 ≤ length3 (moon t))
    (h : setDisplacements type system ephemerides dm sun moon ny nx pts times = .ok out) :
    ∀ x, some x ∈ out.values → |x| ≤ largest system := by
  have memS : ∀ S ∈ times.map fun t => sun t.mjd, 147.099e9 ≤ length3 S := by
    intro S hm; obtain ⟨t, _, rfl⟩ := List.mem_map.1 hm; exact hS _
  have memL : ∀ L ∈ times.map fun t => moon t.mjd, 356096e3 ≤ length3 L := by
    intro L hm; obtain ⟨t, _, rfl⟩ := List.mem_map.1 hm; exact hL _
  intro x hx
  unfold setDisplacements at h
  split at h
  · cases h
  split at h
  · cases h
  split at h
  · cases h
  dsimp only at h
  split at h
  · cases hp : pyMap (fun t : Time => do
        let dxi ← solidEarthTide {} dm.a system
          ((List.replicate (ny * nx) 1).map fun o => t.tide + t.ttUt1 + o) (pts.map (place dm))
          (List.replicate (ny * nx) (sun t.mjd)) (List.replicate (ny * nx) (moon t.mjd))
        reshape (ny * nx) (List.zipWith radial (pts.map (place dm)) dxi)) times with
    | error e => rw [hp, error_bind] at h; cases h
    | ok o =>
      rw [hp, ok_bind] at h
      cases h
      obtain ⟨l, hl, hxl⟩ := List.mem_flatten.1 hx
      obtain ⟨t, _, e⟩ := pyMap_mem hp l hl
      cases hd : solidEarthTide {} dm.a system
          ((List.replicate (ny * nx) 1).map fun o => t.tide + t.ttUt1 + o) (pts.map (place dm))
          (List.replicate (ny * nx) (sun t.mjd)) (List.replicate (ny * nx) (moon t.mjd)) with
      | error e' => rw [hd, error_bind] at e; cases e
      | ok d =>
        rw [hd, ok_bind, reshape] at e
        split at e
        · cases e
          obtain ⟨X, _, o, ho, hr⟩ := PoleTide.mem_zipWith hxl
          refine radial_le hr.symm (solidEarthTide_le ha ha' ?_ ?_ hd o ho)
          · intro S hm; rw [List.eq_of_mem_replicate hm]; exact hS _
          · intro L hm; rw [List.eq_of_mem_replicate hm]; exact hL _
        · cases e
  split at h
  · cases hd : solidEarthTide {} dm.a system (times.map fun t => t.tide + t.ttUt1) (pts.map (place dm))
        (times.map fun t => sun t.mjd) (times.map fun t => moon t.mjd) with
    | error e => rw [hd, error_bind] at h; cases h
    | ok d =>
      rw [hd, ok_bind] at h
      cases hX : rows times.length (pts.map (place dm)) with
      | error e => rw [hX, error_bind] at h; cases h
      | ok X =>
        rw [hX, ok_bind] at h
        cases h
        obtain ⟨X, _, o, ho, hr⟩ := PoleTide.mem_zipWith hx
        exact radial_le hr.symm (solidEarthTide_le ha ha' memS memL hd o ho)
  split at h
  · cases hp : pyMap (fun X => do
        let dxi ← solidEarthTide {} dm.a system (times.map fun t => t.tide + t.ttUt1)
          (List.replicate times.length X) (times.map fun t => sun t.mjd) (times.map fun t => moon t.mjd)
        Except.ok (dxi.map (radial X))) (pts.map (place dm)) with
    | error e => rw [hp, error_bind] at h; cases h
    | ok o =>
      rw [hp, ok_bind] at h
      cases h
      obtain ⟨l, hl, hxl⟩ := List.mem_flatten.1 hx
      obtain ⟨X, _, e⟩ := pyMap_mem hp l hl
      cases hd : solidEarthTide {} dm.a system (times.map fun t => t.tide + t.ttUt1)
          (List.replicate times.length X) (times.map fun t => sun t.mjd) (times.map fun t => moon t.mjd) with
      | error e' => rw [hd, error_bind] at e; cases e
      | ok d =>
        rw [hd, ok_bind] at e
        cases e
        obtain ⟨o, ho, hr⟩ := List.mem_map.1 hxl
        exact radial_le hr (solidEarthTide_le ha ha' memS memL hd o ho)
  · cases h

theorem datum_axis {ellipsoid : String} {dm : CRS.Datum}
    (h : CRS.datum ellipsoid "MKS" none none none none = .ok dm) :
    6377000 ≤ dm.a ∧ dm.a ≤ 6378400 ∧ 1 / 300 ≤ dm.flat ∧ dm.flat ≤ 1 / 290 ∧
      3.986e14 ≤ dm.GM ∧ dm.GM ≤ 3.98604e14 ∧ 7.2921e-5 ≤ dm.omega ∧ dm.omega ≤ 7.29212e-5 := by
  unfold CRS.datum at h
  dsimp only at h
  split at h
  · rename_i hn
    cases h
    have hc : ∀ name ∈ CRS.ellipsoids, 6377000 ≤ (CRS.constants name).1 ∧ (CRS.constants name).1 ≤ 6378400 ∧
        290 ≤ (CRS.constants name).2.1 ∧ (CRS.constants name).2.1 ≤ 300 ∧
        (3.986e14 : ℚ) ≤ (CRS.constants name).2.2.1.getD 3986004418e5 ∧
        (CRS.constants name).2.2.1.getD 3986004418e5 ≤ (3.98604e14 : ℚ) ∧
        (7.2921e-5 : ℚ) ≤ (CRS.constants name).2.2.2.getD (7292115 / 10 ^ 11) ∧
        (CRS.constants name).2.2.2.getD (7292115 / 10 ^ 11) ≤ (7.29212e-5 : ℚ) := by decide +kernel
    obtain ⟨a1, a2, a3, a4, a5, a6, a7, a8⟩ := hc _ hn.1
    have n : ¬ "MKS".toUpper = "CGS" := by decide +kernel
    unfold CRS.finish
    dsimp only
    rw [if_neg n]
    dsimp only
    have g : ((Option.none.orElse fun _ => Option.map (fun q : ℚ => (q : ℝ))
        (CRS.constants ellipsoid.toUpper).2.2.1).getD 3986004418e5 : ℝ) =
        (((CRS.constants ellipsoid.toUpper).2.2.1.getD 3986004418e5 : ℚ) : ℝ) := by
      cases (CRS.constants ellipsoid.toUpper).2.2.1 with
      | none => norm_num [Option.orElse]
      | some x => rfl
    have o : ((Option.none.orElse fun _ => Option.map (fun q : ℚ => (q : ℝ))
        (CRS.constants ellipsoid.toUpper).2.2.2).getD (7292115 / 10 ^ 11) : ℝ) =
        (((CRS.constants ellipsoid.toUpper).2.2.2.getD (7292115 / 10 ^ 11) : ℚ) : ℝ) := by
      cases (CRS.constants ellipsoid.toUpper).2.2.2 with
      | none => norm_num [Option.orElse]
      | some x => rfl
    rw [g, o]
    have a3' : (290 : ℝ) ≤ ((CRS.constants ellipsoid.toUpper).2.1 : ℝ) := by exact_mod_cast a3
    have a4' : ((CRS.constants ellipsoid.toUpper).2.1 : ℝ) ≤ 300 := by exact_mod_cast a4
    have c : ∀ {x y : ℚ}, x ≤ y → (x : ℝ) ≤ y := fun h => by exact_mod_cast h
    refine ⟨by exact_mod_cast a1, by exact_mod_cast a2, one_div_le_one_div_of_le (by linarith) a4',
      one_div_le_one_div_of_le (by norm_num) a3', ?_, ?_, ?_, ?_⟩
    · refine le_trans (le_of_eq ?_) (c a5); norm_num
    · refine le_trans (c a6) (le_of_eq ?_); norm_num
    · refine le_trans (le_of_eq ?_) (c a7); norm_num
    · refine le_trans (c a8) (le_of_eq ?_); norm_num
  · cases h

/-- C108, for the approximate ephemerides of the Sun and the Moon and the named ellipsoids: no further
hypotheses. -/
theorem C108_approximate (type system ephemerides ellipsoid : String) (dm : CRS.Datum)
    (hdm : CRS.datum ellipsoid "MKS" none none none none = .ok dm) (sun moon : ℝ → Vec)
    (hS : ∀ t, ∃ T gha p, Sky.solarApproximate T gha = .ok p ∧ sun t = ![p.x, p.y, p.z])
    (hL : ∀ t, ∃ T gha p, Sky.lunarApproximate T gha = .ok p ∧ moon t = ![p.x, p.y, p.z])
    (ny nx : ℕ) (pts : List (ℝ × ℝ)) (times : List Time) (out : Out)
    (h : setDisplacements type system ephemerides dm sun moon ny nx pts times = .ok out) :
    ∀ x, some x ∈ out.values → |x| ≤ largest system := by
  have norm : ∀ p : Sky.P3, length3 ![p.x, p.y, p.z] = p.norm := by
    intro p
    rw [PoleTide.length3_eq, radius, Sky.P3.norm]
    simp only [Matrix.cons_val_zero, Matrix.cons_val_one, Matrix.cons_val]
  obtain ⟨a1, a2, -⟩ := datum_axis hdm
  refine C108_requests type system ephemerides dm sun moon ny nx pts times out (by linarith) a2 ?_ ?_ h
  · intro t
    obtain ⟨T, gha, p, e, e'⟩ := hS t
    obtain ⟨p', e'', b, -⟩ := (Sky.C78_range T gha).1
    rw [e] at e''
    cases e''
    rw [e', norm]
    exact b
  · intro t
    obtain ⟨T, gha, p, e, e'⟩ := hL t
    obtain ⟨p', e'', b, -⟩ := (Sky.C78_range T gha).2
    rw [e] at e''
    cases e''
    rw [e', norm]
    exact b

/-- The hypotheses can be met: there are such ephemerides, and a request for one station and one time is
answered. -/
example : ∃ (dm : CRS.Datum) (sun moon : ℝ → Vec) (out : Out),
    CRS.datum "WGS84" "MKS" none none none none = .ok dm ∧
    (∀ t, ∃ T gha p, Sky.solarApproximate T gha = .ok p ∧ sun t = ![p.x, p.y, p.z]) ∧
    (∀ t, ∃ T gha p, Sky.lunarApproximate T gha = .ok p ∧ moon t = ![p.x, p.y, p.z]) ∧
    setDisplacements "time series" "tide_free" "approximate" dm sun moon 1 1 [(10, 50)] [⟨0, 0, 0⟩] = .ok out ∧
    out.values.length = 1 := by
  obtain ⟨dm, hdm, -⟩ := (CRS.C38_names "WGS84").1 (by decide +kernel)
  obtain ⟨p, hp, -⟩ := (Sky.C78_range 0 0).1
  obtain ⟨q, hq, -⟩ := (Sky.C78_range 0 0).2
  refine ⟨dm, fun _ => ![p.x, p.y, p.z], fun _ => ![q.x, q.y, q.z], _, hdm, fun _ => ⟨0, 0, p, hp, rfl⟩,
    fun _ => ⟨0, 0, q, hq, rfl⟩, (requests "tide_free" "approximate" dm _ _ (.inl (by decide +kernel))
      (.inl (by decide +kernel))).2.1 1 1 [(10, 50)] [⟨0, 0, 0⟩], rfl⟩

end Verif.SolidEarth

namespace Verif.PoleTide

open Verif Real Spec SolidEarth

/-! ### Load pole tides -/

theorem row_le {gamma omega h2 l2 : ℝ} {m : ℝ × ℝ} {X v : Vec} (hg : 0 < gamma) (hl : 0 ≤ l2)
    (hh : 2 * l2 ≤ h2) (h : loadRow gamma omega h2 l2 m X = some v) :
    length3 v ≤ h2 / 2 * (atr * (omega ^ 2 * radius X ^ 2) / gamma) * sqrt (m.1 ^ 2 + m.2 ^ 2) := by
  unfold loadRow at h
  obtain ⟨lat, -, rfl⟩ := Option.map_eq_some_iff.1 h
  dsimp only
  generalize π / 2 - lat = th
  generalize Spatial.arctan2 (X 1) (X 0) = ph
  set c := atr * (omega ^ 2 * radius X ^ 2) / gamma with hc
  have hc0 : 0 ≤ c := by
    rw [hc, atr]; positivity
  have t1 := sin_sq_add_cos_sq th
  have t2 := sin_sq_add_cos_sq ph
  have t3 := sin_sq_add_cos_sq (2 * th)
  set A := m.1 * cos ph + m.2 * sin ph
  set B := m.1 * sin ph - m.2 * cos ph
  have hAB : A ^ 2 + B ^ 2 = m.1 ^ 2 + m.2 ^ 2 := by
    simp only [A, B]; linear_combination (m.1 ^ 2 + m.2 ^ 2) * t2
  rw [← hAB, length3]
  refine sqrt_le_iff.2 ⟨by have : 0 ≤ h2 := by linarith
                           positivity, ?_⟩
  rw [mul_pow, sq_sqrt (by positivity)]
  have e : dotProduct
      (fun j => ![-l2 * atr * (omega ^ 2 * radius X ^ 2) / gamma * cos (2 * th) * A,
        l2 * atr * (omega ^ 2 * radius X ^ 2) / gamma * cos th * B,
        -h2 * atr * (omega ^ 2 * radius X ^ 2) / (2 * gamma) * sin (2 * th) * A] 0 * columns th ph j 0 +
        ![-l2 * atr * (omega ^ 2 * radius X ^ 2) / gamma * cos (2 * th) * A,
        l2 * atr * (omega ^ 2 * radius X ^ 2) / gamma * cos th * B,
        -h2 * atr * (omega ^ 2 * radius X ^ 2) / (2 * gamma) * sin (2 * th) * A] 1 * columns th ph j 1 +
        ![-l2 * atr * (omega ^ 2 * radius X ^ 2) / gamma * cos (2 * th) * A,
        l2 * atr * (omega ^ 2 * radius X ^ 2) / gamma * cos th * B,
        -h2 * atr * (omega ^ 2 * radius X ^ 2) / (2 * gamma) * sin (2 * th) * A] 2 * columns th ph j 2)
      (fun j => ![-l2 * atr * (omega ^ 2 * radius X ^ 2) / gamma * cos (2 * th) * A,
        l2 * atr * (omega ^ 2 * radius X ^ 2) / gamma * cos th * B,
        -h2 * atr * (omega ^ 2 * radius X ^ 2) / (2 * gamma) * sin (2 * th) * A] 0 * columns th ph j 0 +
        ![-l2 * atr * (omega ^ 2 * radius X ^ 2) / gamma * cos (2 * th) * A,
        l2 * atr * (omega ^ 2 * radius X ^ 2) / gamma * cos th * B,
        -h2 * atr * (omega ^ 2 * radius X ^ 2) / (2 * gamma) * sin (2 * th) * A] 1 * columns th ph j 1 +
        ![-l2 * atr * (omega ^ 2 * radius X ^ 2) / gamma * cos (2 * th) * A,
        l2 * atr * (omega ^ 2 * radius X ^ 2) / gamma * cos th * B,
        -h2 * atr * (omega ^ 2 * radius X ^ 2) / (2 * gamma) * sin (2 * th) * A] 2 * columns th ph j 2) =
      (l2 * c * cos (2 * th) * A) ^ 2 + (l2 * c * cos th * B) ^ 2 + (h2 / 2 * c * sin (2 * th) * A) ^ 2 := by
    have q0 : -l2 * atr * (omega ^ 2 * radius X ^ 2) / gamma = -(l2 * c) := by rw [hc]; ring
    have q1 : l2 * atr * (omega ^ 2 * radius X ^ 2) / gamma = l2 * c := by rw [hc]; ring
    have q2 : -h2 * atr * (omega ^ 2 * radius X ^ 2) / (2 * gamma) = -(h2 / 2 * c) := by
      rw [hc]; field_simp
    rw [q0, q1, q2]
    simp only [dotProduct, Fin.sum_univ_three, columns, Matrix.of_apply, Matrix.cons_val_zero,
      Matrix.cons_val_one, Matrix.cons_val, Matrix.cons_val']
    have g : ∀ x y z : ℝ,
        (x * (cos ph * cos th) + y * -sin ph + z * (cos ph * sin th)) * (x * (cos ph * cos th) + y * -sin ph + z * (cos ph * sin th)) +
        (x * (sin ph * cos th) + y * cos ph + z * (sin ph * sin th)) * (x * (sin ph * cos th) + y * cos ph + z * (sin ph * sin th)) +
        (x * -sin th + y * 0 + z * cos th) * (x * -sin th + y * 0 + z * cos th) = x ^ 2 + y ^ 2 + z ^ 2 := by
      intro x y z
      linear_combination (x ^ 2 + z ^ 2) * t1 + ((x * cos th + z * sin th) ^ 2 + y ^ 2) * t2
    rw [g]
    ring
  refine (le_of_eq e).trans ?_
  have k1 : (l2 * c * cos (2 * th) * A) ^ 2 ≤ (h2 / 2 * c) ^ 2 * (cos (2 * th) ^ 2 * A ^ 2) := by
    have : (l2 * c) ^ 2 ≤ (h2 / 2 * c) ^ 2 :=
      pow_le_pow_left₀ (by positivity) (mul_le_mul_of_nonneg_right (by linarith) hc0) 2
    calc _ = (l2 * c) ^ 2 * (cos (2 * th) ^ 2 * A ^ 2) := by ring
      _ ≤ _ := mul_le_mul_of_nonneg_right this (by positivity)
  have k2 : (l2 * c * cos th * B) ^ 2 ≤ (h2 / 2 * c) ^ 2 * B ^ 2 := by
    have : (l2 * c) ^ 2 ≤ (h2 / 2 * c) ^ 2 :=
      pow_le_pow_left₀ (by positivity) (mul_le_mul_of_nonneg_right (by linarith) hc0) 2
    calc _ = (l2 * c) ^ 2 * (cos th ^ 2 * B ^ 2) := by ring
      _ ≤ (h2 / 2 * c) ^ 2 * (1 * B ^ 2) := by
        gcongr
        exact cos_sq_le_one th
      _ = _ := by ring
  calc _ ≤ (h2 / 2 * c) ^ 2 * (cos (2 * th) ^ 2 * A ^ 2) + (h2 / 2 * c) ^ 2 * B ^ 2 +
        (h2 / 2 * c * sin (2 * th) * A) ^ 2 := by linarith
    _ = _ := by linear_combination (h2 / 2 * c) ^ 2 * A ^ 2 * t3

theorem gravity_ge {ellipsoid : String} {dm : CRS.Datum}
    (h : CRS.datum ellipsoid "MKS" none none none none = .ok dm) (theta : ℝ) : 9.74 ≤ dm.gamma0 theta := by
  obtain ⟨a1, a2, f1, f2, g1, g2, o1, o2⟩ := datum_axis h
  have ha : 0 < dm.a := by linarith
  have hG : 0 < dm.GM := by linarith
  have hb : 0 < dm.b := by unfold CRS.Datum.b; exact mul_pos (by linarith) ha
  have hb' : dm.b ≤ 6378400 := by
    unfold CRS.Datum.b
    calc (1 - dm.flat) * dm.a ≤ 1 * dm.a := mul_le_mul_of_nonneg_right (by linarith) ha.le
      _ ≤ _ := by linarith
  have hf : 0 ≤ 1 - dm.flat := by linarith
  have ho : 0 ≤ dm.omega := le_trans (by norm_num) o1
  have m0 : 0.0034 ≤ dm.m := by
    unfold CRS.Datum.m
    rw [le_div_iff₀ hG]
    calc 0.0034 * dm.GM ≤ 0.0034 * 3.98604e14 := by linarith
      _ ≤ 7.2921e-5 ^ 2 * ((1 - 1 / 290) * 6377000 ^ 3) := by norm_num
      _ ≤ _ := by gcongr
  have m1 : dm.m ≤ 0.00347 := by
    unfold CRS.Datum.m
    rw [div_le_iff₀ hG]
    calc dm.omega ^ 2 * ((1 - dm.flat) * dm.a ^ 3) ≤ (7.29212e-5 : ℝ) ^ 2 * (1 * 6378400 ^ 3) := by
          gcongr
          linarith
      _ ≤ 0.00347 * 3.986e14 := by norm_num
      _ ≤ _ := by linarith
  have e2 : dm.ecc2 ^ 2 ≤ 0.01 := by
    unfold CRS.Datum.ecc2 CRS.Datum.ecc
    rw [div_pow, sq_sqrt (by
      refine mul_nonneg ?_ (sq_nonneg _)
      nlinarith), div_le_iff₀ (by positivity)]
    unfold CRS.Datum.b
    rw [mul_pow]
    have : 2 * dm.flat - dm.flat ^ 2 ≤ 0.01 * (1 - dm.flat) ^ 2 := by nlinarith
    calc _ ≤ 0.01 * (1 - dm.flat) ^ 2 * dm.a ^ 2 := mul_le_mul_of_nonneg_right this (sq_nonneg _)
      _ = _ := by ring
  have A : 9.74 ≤ dm.gammaA := by
    unfold CRS.Datum.gammaA
    have k1 : 9.797 ≤ dm.GM / (dm.a * dm.b) := by
      rw [le_div_iff₀ (by positivity)]
      calc 9.797 * (dm.a * dm.b) ≤ 9.797 * (6378400 * 6378400) := by gcongr
        _ ≤ 3.986e14 := by norm_num
        _ ≤ _ := g1
    have k2 : 0.99478 ≤ 1 - 3 / 2 * dm.m - 3 / 14 * dm.ecc2 ^ 2 * dm.m := by
      have : dm.ecc2 ^ 2 * dm.m ≤ 0.01 * 0.00347 := mul_le_mul e2 m1 (by linarith) (by norm_num)
      norm_num at this m1 ⊢
      linarith
    calc (9.74 : ℝ) ≤ 9.797 * 0.99478 := by norm_num
      _ ≤ _ := mul_le_mul k1 k2 (by norm_num) (by linarith)
  have hc := cos_sq_le_one theta
  have hc0 := sq_nonneg (cos theta)
  have F2 : 0.004 ≤ dm.f2 := by
    unfold CRS.Datum.f2
    have : dm.flat * dm.m ≤ 1 / 290 * 0.00347 := mul_le_mul f2 m1 (by linarith) (by norm_num)
    norm_num at this m0 f2 ⊢
    nlinarith [sq_nonneg dm.flat, sq_nonneg dm.m]
  have F4 : 0 ≤ dm.f4 := by
    unfold CRS.Datum.f4
    have : 0 ≤ dm.flat * (5 / 2 * dm.m - 1 / 2 * dm.flat) := mul_nonneg (by linarith) (by linarith)
    linarith
  unfold CRS.Datum.gamma0
  have : 1 ≤ 1 + dm.f2 * cos theta ^ 2 + dm.f4 * cos theta ^ 4 := by
    have h1 : 0 ≤ dm.f2 * cos theta ^ 2 := mul_nonneg (by linarith) hc0
    have h2 : 0 ≤ dm.f4 * cos theta ^ 4 := mul_nonneg F4 (by positivity)
    linarith
  calc (9.74 : ℝ) ≤ dm.gammaA := A
    _ = dm.gammaA * 1 := (mul_one _).symm
    _ ≤ _ := mul_le_mul_of_nonneg_left this (by linarith)

theorem place_le {dm : CRS.Datum} (ha : 0 < dm.a) (f0 : 0 ≤ dm.flat) (f1 : dm.flat ≤ 1 / 2) (q : ℝ × ℝ) :
    radius (place dm q) ≤ dm.a := by
  have he : Spatial.ecc1 dm.a dm.flat ^ 2 = 2 * dm.flat - dm.flat ^ 2 := Spatial.ecc1_sq ha f0 (by linarith)
  unfold radius
  refine sqrt_le_iff.2 ⟨ha.le, ?_⟩
  unfold place Spatial.toCartesian
  dsimp only
  simp only [Matrix.cons_val_zero, Matrix.cons_val_one, Matrix.cons_val]
  generalize (if q.1 < 0 then q.1 + 360 else q.1) * (π / 180) = lon
  generalize q.2 * (π / 180) = phi
  unfold Spatial.primeVertical
  rw [he]
  set e := 2 * dm.flat - dm.flat ^ 2 with hedef
  have e0 : 0 ≤ e := by nlinarith
  have e1 : e ≤ 3 / 4 := by nlinarith
  have t1 := sin_sq_add_cos_sq phi
  have t2 := sin_sq_add_cos_sq lon
  have hs := sin_sq_le_one phi
  have hs0 := sq_nonneg (sin phi)
  have w : 0 < 1 - e * sin phi ^ 2 := by nlinarith
  have hw := sq_sqrt w.le
  have hw0 := sqrt_pos.2 w
  set s := sqrt (1 - e * sin phi ^ 2)
  have : ((dm.a / s + 0) * cos phi * cos lon) ^ 2 + ((dm.a / s + 0) * cos phi * sin lon) ^ 2 +
      ((dm.a / s * (1 - e) + 0) * sin phi) ^ 2 = dm.a ^ 2 * (cos phi ^ 2 + (1 - e) ^ 2 * sin phi ^ 2) / s ^ 2 := by
    field_simp
    linear_combination dm.a ^ 2 * cos phi ^ 2 * t2
  rw [this, div_le_iff₀ (by positivity), hw]
  refine mul_le_mul_of_nonneg_left ?_ (sq_nonneg _)
  nlinarith [mul_nonneg (mul_nonneg e0 (by linarith : 0 ≤ 1 - e)) hs0]

theorem third_le (th ph : ℝ) (v : Vec) : |third (lptMatrix th ph) v| ≤ length3 v := by
  have := abs_dot_up v (π / 2 - th) ph
  unfold third
  rw [up, cos_pi_div_two_sub, sin_pi_div_two_sub] at this
  simpa [lptMatrix, up, mul_comm] using this

/-- C108.  Whatever is asked for, every load pole tide returned, if it is a number, is at most 33.5
millimetres for every second of arc between the pole and the mean pole. -/
theorem C108_load (P : Poles) (type ellipsoid convention : String) (ny nx : ℕ) (pts times : List (ℝ × ℝ))
    (out : Out) (M : ℝ)
    (hM : ∀ t ∈ times, sqrt ((poleOffset P convention t).1 ^ 2 + (poleOffset P convention t).2 ^ 2) ≤ M)
    (h : lptDisplacements P type ellipsoid convention ny nx pts times = .ok out) :
    ∀ x, some x ∈ out.values → |x| ≤ 0.0335 * M := by
  unfold lptDisplacements at h
  split at h
  · cases h
  split at h
  · cases h
  split at h
  · cases h
  cases hdm : CRS.datum ellipsoid "MKS" none none none none with
  | error e => rw [hdm, error_bind] at h; cases h
  | ok dm =>
    rw [hdm, ok_bind] at h
    obtain ⟨a1, a2, f1, f2, g1, g2, o1, o2⟩ := datum_axis hdm
    have hpi := pi_lt_d4
    have hrow : ∀ q : ℝ × ℝ, ∀ t ∈ times, ∀ v,
        loadRow (lptPoint dm q).1.2 dm.omega 0.6207 0.0836 (offset P convention t) (lptPoint dm q).1.1 = some v →
        length3 v ≤ 0.0335 * M := by
      intro q t ht v hv
      have hg := gravity_ge hdm (((angles dm q).map Prod.fst).getD 0)
      have hoff : offset P convention t = poleOffset P convention t := by
        rw [offset_eq, poleOffset, neg_sub]
      have := row_le (X := place dm q) (lt_of_lt_of_le (by norm_num) hg) (by norm_num) (by norm_num) hv
      rw [hoff] at this
      refine this.trans (mul_le_mul ?_ (hM t ht) (sqrt_nonneg _) (by norm_num))
      have hr := place_le (by linarith) (by linarith) (by linarith) q (dm := dm)
      have hr0 : 0 ≤ radius (place dm q) := sqrt_nonneg _
      have k : atr * (dm.omega ^ 2 * radius (place dm q) ^ 2) / dm.gamma0 (((angles dm q).map Prod.fst).getD 0) ≤
          3.1416 / 648000 * (7.29212e-5 ^ 2 * 6378400 ^ 2) / 9.74 := by
        unfold atr
        gcongr
        · linarith
      calc _ ≤ 0.6207 / 2 * (3.1416 / 648000 * (7.29212e-5 ^ 2 * 6378400 ^ 2) / 9.74) :=
            mul_le_mul_of_nonneg_left k (by norm_num)
        _ ≤ _ := by norm_num
    have hmem : ∀ (ts : List (ℝ × ℝ)) (ps : List (Vec × ℝ)) (d : List (Option Vec)), (∀ t ∈ ts, t ∈ times) →
        (∀ x ∈ ps, ∃ q, x = (lptPoint dm q).1) →
        loadPoleTide P convention dm.omega 0.6207 0.0836 ts ps = .ok d →
        ∀ o ∈ d, ∀ v, o = some v → length3 v ≤ 0.0335 * M := by
      intro ts ps d hts hps hd o ho v hv
      rw [loadPoleTide] at hd
      cases hm : rows (max ts.length ps.length) (ts.map (offset P convention)) with
      | error e => rw [hm, error_bind] at hd; cases hd
      | ok m =>
        rw [hm, ok_bind] at hd
        cases hX : rows (max ts.length ps.length) ps with
        | error e => rw [hX, error_bind] at hd; cases hd
        | ok X =>
          rw [hX, ok_bind] at hd
          cases hd
          obtain ⟨a, ha, b, hb, rfl⟩ := mem_zipWith ho
          obtain ⟨t, ht, rfl⟩ := List.mem_map.1 (rows_mem hm a ha)
          obtain ⟨q, rfl⟩ := hps b (rows_mem hX b hb)
          exact hrow q t (hts t ht) v hv
    have hthird : ∀ (R : Option (Matrix (Fin 3) (Fin 3) ℝ)) (o : Option Vec) (x : ℝ),
        (∃ q, R = (lptPoint dm q).2) → (∀ v, o = some v → length3 v ≤ 0.0335 * M) →
        thirdOrNaN R o = some x → |x| ≤ 0.0335 * M := by
      rintro R o x ⟨q, rfl⟩ ho hx
      unfold thirdOrNaN at hx
      obtain ⟨R, hR, hx⟩ := Option.bind_eq_some_iff.1 hx
      obtain ⟨v, rfl, rfl⟩ := Option.map_eq_some_iff.1 hx
      unfold lptPoint at hR
      obtain ⟨a, -, rfl⟩ := Option.map_eq_some_iff.1 hR
      exact (third_le _ _ _).trans (ho v rfl)
    have hpf : ∀ x ∈ (pts.map (lptPoint dm)).map Prod.fst, ∃ q, x = (lptPoint dm q).1 := by
      intro x hx
      obtain ⟨y, hy, rfl⟩ := List.mem_map.1 hx
      obtain ⟨q, _, rfl⟩ := List.mem_map.1 hy
      exact ⟨q, rfl⟩
    have hps : ∀ x ∈ (pts.map (lptPoint dm)).map Prod.snd, ∃ q, x = (lptPoint dm q).2 := by
      intro x hx
      obtain ⟨y, hy, rfl⟩ := List.mem_map.1 hx
      obtain ⟨q, _, rfl⟩ := List.mem_map.1 hy
      exact ⟨q, rfl⟩
    intro x hx
    unfold byType at h
    split at h
    · cases hp : pyMap (fun t => do
          let dxi ← loadPoleTide P convention dm.omega 0.6207 0.0836 [t] ((pts.map (lptPoint dm)).map Prod.fst)
          let R ← rows dxi.length ((pts.map (lptPoint dm)).map Prod.snd)
          reshape (ny * nx) (List.zipWith thirdOrNaN R dxi)) times with
      | error e => rw [hp, error_bind] at h; cases h
      | ok o =>
        rw [hp, ok_bind] at h
        cases h
        obtain ⟨l, hl, hxl⟩ := List.mem_flatten.1 hx
        obtain ⟨t, ht, e⟩ := pyMap_mem hp l hl
        cases hd : loadPoleTide P convention dm.omega 0.6207 0.0836 [t] ((pts.map (lptPoint dm)).map Prod.fst) with
        | error e' => rw [hd, error_bind] at e; cases e
        | ok d =>
          rw [hd, ok_bind] at e
          cases hR : rows d.length ((pts.map (lptPoint dm)).map Prod.snd) with
          | error e' => rw [hR, error_bind] at e; cases e
          | ok R =>
            rw [hR, ok_bind, reshape] at e
            split at e
            · cases e
              obtain ⟨r, hr, o, ho, hxo⟩ := mem_zipWith hxl
              exact hthird r o x (hps r (rows_mem hR r hr))
                (hmem [t] _ d (by simpa using ht) hpf hd o ho) hxo.symm
            · cases e
    split at h
    · cases hd : loadPoleTide P convention dm.omega 0.6207 0.0836 times ((pts.map (lptPoint dm)).map Prod.fst) with
      | error e' => rw [hd, error_bind] at h; cases h
      | ok d =>
        rw [hd, ok_bind] at h
        cases hR : rows d.length ((pts.map (lptPoint dm)).map Prod.snd) with
        | error e' => rw [hR, error_bind] at h; cases h
        | ok R =>
          rw [hR, ok_bind] at h
          cases hS : rows times.length (List.zipWith thirdOrNaN R d) with
          | error e' => rw [hS, error_bind] at h; cases h
          | ok S =>
            rw [hS, ok_bind] at h
            cases h
            obtain ⟨r, hr, o, ho, hxo⟩ := mem_zipWith (rows_mem hS _ hx)
            exact hthird r o x (hps r (rows_mem hR r hr)) (hmem times _ d (fun t ht => ht) hpf hd o ho) hxo.symm
    split at h
    · cases hp : pyMap (fun q : (Vec × ℝ) × Option (Matrix (Fin 3) (Fin 3) ℝ) => do
          let dxi ← loadPoleTide P convention dm.omega 0.6207 0.0836 times (List.replicate times.length q.1)
          Except.ok (dxi.map (thirdOrNaN q.2))) (pts.map (lptPoint dm)) with
      | error e => rw [hp, error_bind] at h; cases h
      | ok o =>
        rw [hp, ok_bind] at h
        cases h
        obtain ⟨l, hl, hxl⟩ := List.mem_flatten.1 hx
        obtain ⟨y, hy, e⟩ := pyMap_mem hp l hl
        obtain ⟨q, _, rfl⟩ := List.mem_map.1 hy
        cases hd : loadPoleTide P convention dm.omega 0.6207 0.0836 times
            (List.replicate times.length (lptPoint dm q).1) with
        | error e' => rw [hd, error_bind] at e; cases e
        | ok d =>
          rw [hd, ok_bind] at e
          cases e
          obtain ⟨o, ho, hxo⟩ := List.mem_map.1 hxl
          exact hthird _ o x ⟨q, rfl⟩ (hmem times _ d (fun t ht => ht) (fun z hz =>
            ⟨q, List.eq_of_mem_replicate hz⟩) hd o ho) hxo
    · cases h

/-- The hypotheses can be met: a pole within half a second of arc, one station, one time. -/
example : ∃ out, lptDisplacements ⟨fun _ _ => (0.1, 0.2), fun _ => (0.4, 0.6)⟩ "time series" "WGS84" "2018" 1 1
      [(10, 50)] [(0, 0)] = .ok out ∧ out.values.length = 1 ∧
    sqrt ((poleOffset ⟨fun _ _ => (0.1, 0.2), fun _ => (0.4, 0.6)⟩ "2018" (0, 0)).1 ^ 2 +
      (poleOffset ⟨fun _ _ => (0.1, 0.2), fun _ => (0.4, 0.6)⟩ "2018" (0, 0)).2 ^ 2) ≤ 0.5 := by
  obtain ⟨dm, -, h⟩ := C58_load ⟨fun _ _ => (0.1, 0.2), fun _ => (0.4, 0.6)⟩ "WGS84" "2018" (by decide +kernel) (by decide)
  refine ⟨_, (h [(10, 50)] [(0, 0)] 1 1 (by simp; norm_num)).2.1, rfl, ?_⟩
  refine sqrt_le_iff.2 ⟨by norm_num, ?_⟩
  norm_num [poleOffset]

end Verif.PoleTide
