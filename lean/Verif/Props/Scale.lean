import Verif.Props.Ellipsoid
import Mathlib.Analysis.SpecialFunctions.Pow.Continuity
import Mathlib.Analysis.Real.Pi.Bounds

/-!
# C56: polar stereographic scale factors; C57: the kind of data
-/

namespace Verif.Spatial

open Verif Real Filter Topology

/-! ## C56: scale factors -/

theorem half_angle {theta : ℝ} (h0 : 0 ≤ theta) (h1 : theta < π) :
    tan (π / 4 - theta / 2) = cos theta / (1 + sin theta) := by
  have hp := pi_pos
  have hc : 0 < cos (π / 4 - theta / 2) := cos_pos_of_mem_Ioo ⟨by linarith, by linarith⟩
  have e1 : cos theta = 2 * sin (π / 4 - theta / 2) * cos (π / 4 - theta / 2) := by
    rw [← sin_two_mul, show 2 * (π / 4 - theta / 2) = π / 2 - theta by ring, sin_pi_div_two_sub]
  have e2 : 1 + sin theta = 2 * cos (π / 4 - theta / 2) ^ 2 := by
    have := cos_two_mul (π / 4 - theta / 2)
    rw [show 2 * (π / 4 - theta / 2) = π / 2 - theta by ring, cos_pi_div_two_sub] at this
    linarith
  rw [e1, e2, tan_eq_sin_div_cos]
  field_simp

/-- The eccentricity of an oblate ellipsoid lies in [0, 1). -/
theorem ecc_range {f : ℝ} (h0 : 0 ≤ f) (h1 : f < 1) :
    0 ≤ sqrt (2 * f - f ^ 2) ∧ sqrt (2 * f - f ^ 2) < 1 ∧ sqrt (2 * f - f ^ 2) ^ 2 = 2 * f - f ^ 2 := by
  have h : 0 ≤ 2 * f - f ^ 2 := by nlinarith
  refine ⟨sqrt_nonneg _, ?_, sq_sqrt h⟩
  rw [sqrt_lt' one_pos]
  nlinarith

/-- The quotient of the two ratios without the removable singularity at the pole. -/
noncomputable def ratio (f theta : ℝ) : ℝ :=
  let e := sqrt (2 * f - f ^ 2)
  sqrt (1 - (2 * f - f ^ 2) * sin theta ^ 2) / (1 + sin theta) /
    ((1 - e * sin theta) / (1 + e * sin theta)) ^ (e / 2)

theorem base_pos {f theta : ℝ} (h0 : 0 ≤ f) (h1 : f < 1) (hs : 0 ≤ sin theta) :
    0 < (1 - sqrt (2 * f - f ^ 2) * sin theta) / (1 + sqrt (2 * f - f ^ 2) * sin theta) := by
  obtain ⟨e0, e1, _⟩ := ecc_range h0 h1
  have := sin_le_one theta
  apply div_pos
  · nlinarith
  · nlinarith [mul_nonneg e0 hs]

theorem ratio_pos {f theta : ℝ} (h0 : 0 ≤ f) (h1 : f < 1) (hs : 0 ≤ sin theta) :
    0 < ratio f theta := by
  unfold ratio
  have hb := base_pos h0 h1 hs
  have hr := sqrt_pos.2 (radicand_pos h1 h0 theta)
  have := rpow_pos_of_pos hb (sqrt (2 * f - f ^ 2) / 2)
  positivity

theorem t_over_m {f theta : ℝ} (h0 : 0 ≤ f) (h1 : f < 1) (t0 : 0 ≤ theta) (t1 : theta < π / 2) :
    0 < scaleM (2 * f - f ^ 2) theta ∧ 0 < scaleT (sqrt (2 * f - f ^ 2)) theta ∧
      scaleT (sqrt (2 * f - f ^ 2)) theta = ratio f theta * scaleM (2 * f - f ^ 2) theta := by
  have hp := pi_pos
  have hc : 0 < cos theta := cos_pos_of_mem_Ioo ⟨by linarith, t1⟩
  have hs : 0 ≤ sin theta := sin_nonneg_of_nonneg_of_le_pi t0 (by linarith)
  have hr := sqrt_pos.2 (radicand_pos h1 h0 theta)
  have hb := rpow_pos_of_pos (base_pos h0 h1 hs) (sqrt (2 * f - f ^ 2) / 2)
  have hm : 0 < scaleM (2 * f - f ^ 2) theta := div_pos hc hr
  have e : scaleT (sqrt (2 * f - f ^ 2)) theta = ratio f theta * scaleM (2 * f - f ^ 2) theta := by
    unfold scaleT scaleM ratio
    dsimp only
    rw [half_angle t0 (by linarith)]
    generalize sqrt (1 - (2 * f - f ^ 2) * sin theta ^ 2) = r at hr ⊢
    generalize ((1 - sqrt (2 * f - f ^ 2) * sin theta) / (1 + sqrt (2 * f - f ^ 2) * sin theta)) ^
      (sqrt (2 * f - f ^ 2) / 2) = b at hb ⊢
    field_simp
  exact ⟨hm, by rw [e]; exact mul_pos (ratio_pos h0 h1 hs) hm, e⟩

theorem scaleK_eq {f theta ref : ℝ} (h0 : 0 ≤ f) (h1 : f < 1) (t0 : 0 ≤ theta) (t1 : theta < π / 2)
    (r0 : 0 ≤ ref) (r1 : ref < π / 2) : scaleK f theta ref = ratio f theta / ratio f ref := by
  obtain ⟨a1, a2, a3⟩ := t_over_m h0 h1 t0 t1
  obtain ⟨b1, b2, b3⟩ := t_over_m h0 h1 r0 r1
  have := pi_pos
  have hr := ratio_pos h0 h1 (sin_nonneg_of_nonneg_of_le_pi r0 (by linarith))
  unfold scaleK
  dsimp only
  rw [a3, b3]
  generalize scaleM (2 * f - f ^ 2) theta = m at a1 ⊢
  generalize scaleM (2 * f - f ^ 2) ref = n at b1 ⊢
  field_simp

theorem ratio_pole {f : ℝ} (h0 : 0 ≤ f) (h1 : f < 1) :
    ratio f (π / 2) = 0.5 * sqrt ((1 + sqrt (2 * f - f ^ 2)) ^ (1 + sqrt (2 * f - f ^ 2)) *
      (1 - sqrt (2 * f - f ^ 2)) ^ (1 - sqrt (2 * f - f ^ 2))) := by
  obtain ⟨e0, e1, e2⟩ := ecc_range h0 h1
  unfold ratio
  dsimp only
  rw [sin_pi_div_two]
  generalize sqrt (2 * f - f ^ 2) = e at e0 e1 e2 ⊢
  rw [← e2]
  have p1 : 0 < 1 + e := by linarith
  have p2 : 0 < 1 - e := by linarith
  rw [mul_one, one_pow, mul_one, rpow_add p1, rpow_sub p2, rpow_one, rpow_one]
  have q1 := rpow_pos_of_pos p1 e
  have q2 := rpow_pos_of_pos p2 e
  rw [show 1 - e ^ 2 = (1 + e) * (1 - e) by ring]
  rw [show (1 + e) * (1 + e) ^ e * ((1 - e) / (1 - e) ^ e) =
    (1 + e) * (1 - e) / ((1 - e) ^ e / (1 + e) ^ e) by field_simp]
  rw [sqrt_div (by positivity), ← div_rpow p2.le p1.le, sqrt_eq_rpow (((1 - e) / (1 + e)) ^ e),
    ← rpow_mul (by positivity), show e * (1 / 2) = e / 2 by ring]
  norm_num
  ring

theorem scaleKp_eq {f ref : ℝ} (h0 : 0 ≤ f) (h1 : f < 1) (r0 : 0 ≤ ref) (r1 : ref < π / 2) :
    scaleKp f ref = ratio f (π / 2) / ratio f ref := by
  obtain ⟨b1, b2, b3⟩ := t_over_m h0 h1 r0 r1
  have := pi_pos
  have hr := ratio_pos h0 h1 (sin_nonneg_of_nonneg_of_le_pi r0 (by linarith))
  rw [ratio_pole h0 h1]
  unfold scaleKp
  dsimp only
  rw [b3]
  generalize scaleM (2 * f - f ^ 2) ref = n at b1 ⊢
  generalize sqrt (2 * f - f ^ 2) = e
  field_simp

theorem ratio_continuous {f : ℝ} (h0 : 0 ≤ f) (h1 : f < 1) : ContinuousAt (ratio f) (π / 2) := by
  have hs : 0 ≤ sin (π / 2) := by rw [sin_pi_div_two]; exact zero_le_one
  have hb := base_pos h0 h1 hs
  obtain ⟨e0, e1, e2⟩ := ecc_range h0 h1
  unfold ratio
  dsimp only
  have c1 : ContinuousAt (fun x => sqrt (1 - (2 * f - f ^ 2) * sin x ^ 2)) (π / 2) := by fun_prop
  have c2 : ContinuousAt (fun x => (1 - sqrt (2 * f - f ^ 2) * sin x) /
      (1 + sqrt (2 * f - f ^ 2) * sin x)) (π / 2) :=
    ContinuousAt.div (by fun_prop) (by fun_prop) (by rw [sin_pi_div_two]; linarith)
  refine ContinuousAt.div (ContinuousAt.div c1 (by fun_prop) ?_) (ContinuousAt.rpow_const c2 (Or.inl hb.ne'))
    (rpow_pos_of_pos hb _).ne'
  rw [sin_pi_div_two]; norm_num

/-- C56: the value used at the pole is the limit of the values used on the way to it. -/
theorem C56_pole_limit (f ref : ℝ) (h0 : 0 ≤ f) (h1 : f < 1) (r0 : 0 ≤ ref) (r1 : ref < π / 2) :
    Tendsto (fun theta => scaleK f theta ref) (𝓝[<] (π / 2)) (𝓝 (scaleKp f ref)) := by
  have hp := pi_pos
  rw [scaleKp_eq h0 h1 r0 r1]
  have hr := ratio_pos h0 h1 (sin_nonneg_of_nonneg_of_le_pi r0 (by linarith))
  have h : Tendsto (fun theta => ratio f theta / ratio f ref) (𝓝[<] (π / 2))
      (𝓝 (ratio f (π / 2) / ratio f ref)) :=
    ((ratio_continuous h0 h1).tendsto.mono_left nhdsWithin_le_nhds).div_const _
  refine h.congr' ?_
  have hnear : ∀ᶠ theta in 𝓝[<] (π / 2), theta ∈ Set.Ioo 0 (π / 2) :=
    Ioo_mem_nhdsLT (by linarith)
  filter_upwards [hnear] with theta ht
  exact (scaleK_eq h0 h1 ht.1.le ht.2 r0 r1).symm

/-- C56: the metric is read without regard to case, and no other metric is accepted. -/
theorem C56_metric (lat f ref : ℝ) (metric : String) :
    ((∃ s, scaleFactors lat f ref metric = .ok s) ↔
      metric.toLower = "distance" ∨ metric.toLower = "area") ∧
    (¬ (metric.toLower = "distance" ∨ metric.toLower = "area") →
      scaleFactors lat f ref metric = .error .assertionError) := by
  unfold scaleFactors
  dsimp only
  by_cases h1 : metric.toLower = "distance"
  · simp [h1]
  · by_cases h2 : metric.toLower = "area"
    · simp [h2]
    · simp [h1, h2]

/-- C56: area factors are the squares of distance factors. -/
theorem C56_area (lat f ref : ℝ) : ∃ s, scaleFactors lat f ref "distance" = .ok s ∧
    scaleFactors lat f ref "area" = .ok (s ^ 2) := by
  have e1 : "distance".toLower = "distance" := by decide +kernel
  have e2 : "area".toLower = "area" := by decide +kernel
  unfold scaleFactors
  dsimp only
  rw [e1, e2, if_neg (by simp), if_pos rfl,
    if_neg (by simp : ¬ "area" ∉ ["distance", "area"]), if_neg (by decide : ¬ "area" = "distance"), if_pos rfl]
  refine ⟨_, rfl, congrArg Except.ok ?_⟩
  split
  · rw [div_pow, one_pow]
  · rw [div_pow, one_pow]

/-- C56: the hemispheres are alike, for the latitude and for the reference latitude. -/
theorem C56_hemispheres (lat f ref : ℝ) (metric : String) :
    scaleFactors (-lat) f ref metric = scaleFactors lat f ref metric ∧
      scaleFactors lat f (-ref) metric = scaleFactors lat f ref metric := by
  unfold scaleFactors
  rw [abs_neg, abs_neg]
  exact ⟨rfl, rfl⟩

/-- Latitudes more than a thousandth of a degree from the poles are not close to them. -/
theorem not_close {lat : ℝ} (h : |lat| ≤ 89.999) : ¬ isCloseToPole (|lat| * π / 180) := by
  unfold isCloseToPole
  have := pi_pos
  have h3 := pi_gt_three
  rw [abs_of_pos (show 0 < π / 2 by positivity), abs_sub_comm,
    abs_of_pos (by nlinarith), not_le]
  nlinarith

theorem lat_range {lat : ℝ} (h : |lat| < 90) : 0 ≤ |lat| * π / 180 ∧ |lat| * π / 180 < π / 2 := by
  have := pi_pos
  exact ⟨by positivity, by nlinarith⟩

/-- C56: the scale is true at the latitude of true scale and at the same latitude of the other
hemisphere, for either metric. -/
theorem C56_true_scale (lat f ref : ℝ) (metric : String) (h0 : 0 ≤ f) (h1 : f < 1)
    (hl : |lat| = |ref|) (hr : |ref| ≤ 89.999)
    (hm : metric.toLower = "distance" ∨ metric.toLower = "area") :
    scaleFactors lat f ref metric = .ok 1 := by
  obtain ⟨r0, r1⟩ := lat_range (show |ref| < 90 by linarith)
  have hk : scaleK f (|ref| * π / 180) (|ref| * π / 180) = 1 := by
    rw [scaleK_eq h0 h1 r0 r1 r0 r1, div_self]
    have := pi_pos
    exact (ratio_pos h0 h1 (sin_nonneg_of_nonneg_of_le_pi r0 (by linarith))).ne'
  unfold scaleFactors
  dsimp only
  rw [hl, if_neg (not_close hr), if_neg (not_close hr), hk]
  rcases hm with h | h
  · simp [h]
  · simp [h]

example : scaleFactors (-70) (1 / 298) 70 "Area" = .ok 1 :=
  C56_true_scale _ _ _ _ (by norm_num) (by norm_num) (by simp) (by norm_num [abs_of_pos])
    (Or.inr (by decide +kernel))

/-- C56: the factors are positive. -/
theorem C56_positive (lat f ref : ℝ) (metric : String) (s : ℝ) (h0 : 0 ≤ f) (h1 : f < 1)
    (hl : |lat| ≤ 90) (hr : |ref| < 90) (hs : scaleFactors lat f ref metric = .ok s) : 0 < s := by
  obtain ⟨r0, r1⟩ := lat_range hr
  have hp := pi_pos
  have hR := ratio_pos h0 h1 (sin_nonneg_of_nonneg_of_le_pi r0 (by linarith))
  have hP : 0 < scaleKp f (|ref| * π / 180) := by
    rw [scaleKp_eq h0 h1 r0 r1]
    exact div_pos (ratio_pos h0 h1 (by rw [sin_pi_div_two]; exact zero_le_one)) hR
  have hK : ¬ isCloseToPole (|lat| * π / 180) → 0 < scaleK f (|lat| * π / 180) (|ref| * π / 180) := by
    intro hc
    have : |lat| < 90 := by
      rcases hl.lt_or_eq with h | h
      · exact h
      · exfalso
        apply hc
        rw [h]
        unfold isCloseToPole
        rw [show 90 * π / 180 - π / 2 = 0 by ring, abs_zero]
        positivity
    obtain ⟨t0, t1⟩ := lat_range this
    rw [scaleK_eq h0 h1 t0 t1 r0 r1]
    exact div_pos (ratio_pos h0 h1 (sin_nonneg_of_nonneg_of_le_pi t0 (by linarith))) hR
  unfold scaleFactors at hs
  dsimp only at hs
  split_ifs at hs with c1 c2 c3 c4 c5 <;> cases hs
  · positivity
  · have := hK c3; positivity
  · positivity
  · have := hK c5; positivity

/-- C56: on a sphere the distance factor is (1 + sin φ) / (1 + sin φ₀), the inverse of the scale
of the polar stereographic projection. -/
theorem C56_sphere (lat ref : ℝ) (hl : |lat| ≤ 89.999) (hr : |ref| < 90) :
    scaleFactors lat 0 ref "distance" =
      .ok ((1 + sin (|lat| * π / 180)) / (1 + sin (|ref| * π / 180))) := by
  obtain ⟨r0, r1⟩ := lat_range hr
  obtain ⟨t0, t1⟩ := lat_range (show |lat| < 90 by linarith)
  have e1 : "distance".toLower = "distance" := by decide +kernel
  unfold scaleFactors
  dsimp only
  rw [e1, if_neg (by simp), if_pos rfl, if_neg (not_close hl),
    scaleK_eq le_rfl one_pos t0 t1 r0 r1]
  refine congrArg Except.ok ?_
  unfold ratio
  norm_num
  ring

/-- C56: on a sphere, pole included. -/
theorem C56_sphere_pole (ref : ℝ) (hr : |ref| < 90) :
    scaleFactors 90 0 ref "distance" = .ok (2 / (1 + sin (|ref| * π / 180))) := by
  obtain ⟨r0, r1⟩ := lat_range hr
  have e1 : "distance".toLower = "distance" := by decide +kernel
  have hc : isCloseToPole (|90| * π / 180) := by
    unfold isCloseToPole
    rw [abs_of_pos (show (0 : ℝ) < 90 by norm_num), show 90 * π / 180 - π / 2 = 0 by ring, abs_zero]
    positivity
  unfold scaleFactors
  dsimp only
  rw [e1, if_neg (by simp), if_pos rfl, if_pos hc, scaleKp_eq le_rfl one_pos r0 r1]
  refine congrArg Except.ok ?_
  unfold ratio
  norm_num
  ring

/-! ## C57: the kind of data -/

/-- C57: single points are time series; otherwise coordinates as many as the times are a drift;
otherwise what is left is a grid unless `x` and `y` are vectors of the same length. -/
theorem C57_table (nx ny nt nd : ℕ) :
    (dataType nx ny nt nd = .ok "time series" ↔ nx = 1 ∧ ny = 1 ∧ 1 ≤ nt) ∧
    (dataType nx ny nt nd = .ok "drift" ↔ nx = ny ∧ nx = nt ∧ nx ≠ 1) ∧
    (dataType nx ny nt nd = .ok "grid" ↔
      nx ≠ ny ∨ (nx = ny ∧ nx ≠ nt ∧ 1 < nd ∧ ¬ (nx = 1 ∧ 1 ≤ nt))) ∧
    (dataType nx ny nt nd = .error .valueError ↔
      nx = ny ∧ nx ≠ nt ∧ nd ≤ 1 ∧ ¬ (nx = 1 ∧ 1 ≤ nt)) := by
  unfold dataType
  have n1 : ¬ ("time series" = "drift") := by decide
  have n2 : ¬ ("time series" = "grid") := by decide
  have n3 : ¬ ("drift" = "grid") := by decide
  have n4 : ¬ ("drift" = "time series") := by decide
  have n5 : ¬ ("grid" = "time series") := by decide
  have n6 : ¬ ("grid" = "drift") := by decide
  split_ifs with c1 c2 c3 c4
  all_goals simp only [Except.ok.injEq, reduceCtorEq, n1, n2, n3, n4, n5, n6, true_iff, false_iff]
  all_goals refine ⟨?_, ?_, ?_, ?_⟩ <;> omega

/-- C57: the kind of data never depends on whether the coordinates are given as vectors or as
arrays when their numbers differ, and the four outcomes exclude each other. -/
theorem C57_total (nx ny nt nd : ℕ) :
    dataType nx ny nt nd ∈ [.ok "time series", .ok "drift", .ok "grid", .error PyErr.valueError] ∧
      (nx ≠ ny → ∀ nd', dataType nx ny nt nd = dataType nx ny nt nd') := by
  unfold dataType
  constructor
  · split_ifs <;> simp
  · intro h nd'
    split_ifs <;> first | rfl | omega

/-- C57 does not hold for the axes of square grids: `n` columns, `n` rows and `n` times are taken
for a drift, and any other number of times is rejected. -/
theorem C57_square_grid_false (n nt : ℕ) (hn : 1 < n) :
    dataType n n n 1 = .ok "drift" ∧ (nt ≠ n → dataType n n nt 1 = .error .valueError) := by
  unfold dataType
  refine ⟨?_, fun h => ?_⟩
  · rw [if_neg (by omega), if_pos ⟨rfl, rfl⟩]
  · rw [if_neg (by omega), if_neg (by omega), if_neg (by omega), if_neg (by simp)]

end Verif.Spatial
