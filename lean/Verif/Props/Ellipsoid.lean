import Verif.Props.Spatial
import Mathlib.Analysis.SpecialFunctions.Trigonometric.Bounds

/-!
# C36: converting between ellipsoids, wrapping longitudes
-/

namespace Verif.Spatial

open Verif Real

/-! ## Reduced latitude -/

theorem cos_sin_reduced {a f phi : ℝ} (ha : 0 < a) (h0 : 0 ≤ f) (h1 : f < 1) (hc : 0 < cos phi) :
    primeVertical a f phi * cos phi = a * cos (arctan ((1 - f) * a / a * tan phi)) ∧
      primeVertical a f phi * (1 - ecc1 a f ^ 2) * sin phi =
        (1 - f) * a * sin (arctan ((1 - f) * a / a * tan phi)) := by
  have hr := radicand_pos h1 h0 phi
  have e : (1 - f) * a / a * tan phi = (1 - f) * tan phi := by field_simp
  have hs : sqrt (1 - (2 * f - f ^ 2) * sin phi ^ 2) =
      cos phi * sqrt (1 + ((1 - f) * tan phi) ^ 2) := by
    have h2 : 1 - (2 * f - f ^ 2) * sin phi ^ 2 =
        cos phi ^ 2 * (1 + ((1 - f) * tan phi) ^ 2) := by
      rw [tan_eq_sin_div_cos]
      have := sin_sq_add_cos_sq phi
      field_simp
      linear_combination (-1 : ℝ) * this
    rw [h2, sqrt_mul (by positivity), sqrt_sq hc.le]
  have hq : 0 < sqrt (1 + ((1 - f) * tan phi) ^ 2) := sqrt_pos.2 (by positivity)
  rw [e, cos_arctan, sin_arctan, primeVertical, ecc1_sq ha h0 (by linarith), hs]
  constructor
  · field_simp
  · rw [show sin phi = tan phi * cos phi from (tan_mul_cos hc.ne').symm]
    field_simp
    ring

/-- The Newton iterations stop at once at a root. -/
theorem newtonLow_root {k0 k1 k2 eps u : ℝ} (he : 0 < eps) (h : k0 * sin u + k1 * tan u - k2 = 0)
    (n : ℕ) : newtonLow k0 k1 k2 eps n u = u := by
  cases n with
  | zero => rfl
  | succ n =>
    unfold newtonLow
    simp only [h, zero_div, abs_zero, he, sub_zero, ite_true, ite_self]

theorem newtonHigh_root {k0 k1 k2 eps u : ℝ} (he : 0 < eps) (h : k0 * cos u + k1 / tan u - k2 = 0)
    (n : ℕ) : newtonHigh k0 k1 k2 eps n u = u := by
  cases n with
  | zero => rfl
  | succ n =>
    unfold newtonHigh
    simp only [h, zero_div, abs_zero, he, sub_zero, ite_true, ite_self]

theorem sin_cos_arctan_tan {u : ℝ} (h : 0 < cos u) : cos (arctan (tan u)) = cos u ∧
    sin (arctan (tan u)) = sin u := by
  have h2 : sqrt (1 + tan u ^ 2) = 1 / cos u := by
    rw [show 1 + tan u ^ 2 = (1 / cos u) ^ 2 by
      rw [tan_eq_sin_div_cos]; have := sin_sq_add_cos_sq u; field_simp; linarith]
    exact sqrt_sq (by positivity)
  rw [cos_arctan, sin_arctan, h2]
  refine ⟨by field_simp, ?_⟩
  rw [tan_eq_sin_div_cos]
  field_simp

/-- A latitude strictly between the poles has a positive cosine. -/
theorem cos_lat_pos {phi : ℝ} (h : |phi| < 90) : 0 < cos (phi * π / 180) := by
  obtain ⟨h1, h2⟩ := abs_lt.1 h
  have := pi_pos
  exact cos_pos_of_mem_Ioo ⟨by nlinarith, by nlinarith⟩

theorem arctan_tan_lat {phi : ℝ} (h : |phi| < 90) :
    arctan (tan (phi * π / 180)) * 180 / π = phi := by
  obtain ⟨h1, h2⟩ := abs_lt.1 h
  have := pi_pos
  rw [arctan_tan (by nlinarith) (by nlinarith)]
  field_simp

/-- The reduced latitude of a point, the distance of the point from the axis and its distance from
the equatorial plane. -/
noncomputable def reduced (phi a f : ℝ) : ℝ := arctan ((1 - f) * a / a * tan (phi * π / 180))

noncomputable def fromAxis (phi h a f : ℝ) : ℝ := a * cos (reduced phi a f) + h * cos (phi * π / 180)

noncomputable def fromPlane (phi h a f : ℝ) : ℝ :=
  (1 - f) * a * sin (reduced phi a f) + h * sin (phi * π / 180)

/-- The function whose root is sought within 45 degrees of the equator and the iterate the code
ends with. -/
noncomputable def residualLow (phi1 h1 a1 f1 a2 f2 u : ℝ) : ℝ :=
  ((1 - f2) * a2 * ((1 - f2) * a2) - a2 * a2) * sin u + a2 * fromAxis phi1 h1 a1 f1 * tan u -
    (1 - f2) * a2 * fromPlane phi1 h1 a1 f1

noncomputable def solvedLow (phi1 h1 a1 f1 a2 f2 eps : ℝ) (itmax : ℕ) : ℝ :=
  newtonLow ((1 - f2) * a2 * ((1 - f2) * a2) - a2 * a2) (a2 * fromAxis phi1 h1 a1 f1)
    ((1 - f2) * a2 * fromPlane phi1 h1 a1 f1) eps (itmax + 1) (reduced phi1 a1 f1)

/-- The same beyond 45 degrees. -/
noncomputable def residualHigh (phi1 h1 a1 f1 a2 f2 u : ℝ) : ℝ :=
  (a2 * a2 - (1 - f2) * a2 * ((1 - f2) * a2)) * cos u +
    (1 - f2) * a2 * fromPlane phi1 h1 a1 f1 / tan u - a2 * fromAxis phi1 h1 a1 f1

noncomputable def solvedHigh (phi1 h1 a1 f1 a2 f2 eps : ℝ) (itmax : ℕ) : ℝ :=
  newtonHigh (a2 * a2 - (1 - f2) * a2 * ((1 - f2) * a2)) ((1 - f2) * a2 * fromPlane phi1 h1 a1 f1)
    (a2 * fromAxis phi1 h1 a1 f1) eps (itmax + 1) (reduced phi1 a1 f1)

/-- The clamping of the result never applies. -/
theorem arctan_unclamped (t : ℝ) : ¬ 90 < |arctan t * 180 / π| := by
  have h1 := arctan_lt_pi_div_two t
  have h2 := neg_pi_div_two_lt_arctan t
  have := pi_pos
  rw [not_lt, abs_le]
  constructor
  · rw [le_div_iff₀ this]; linarith
  · rw [div_le_iff₀ this]; linarith

theorem convert_low (phi1 h1 a1 f1 a2 f2 eps : ℝ) (itmax : ℕ) (e1 : eps ≤ |phi1|) (e2 : |phi1| ≤ 45)
    (e3 : eps ≤ 45) (e4 : eps ≤ cos (phi1 * π / 180)) :
    convertPoint phi1 h1 a1 f1 a2 f2 eps itmax =
      let u := solvedLow phi1 h1 a1 f1 a2 f2 eps itmax
      let phi := arctan (a2 / ((1 - f2) * a2) * tan u)
      (phi * 180 / π, (fromAxis phi1 h1 a1 f1 - a2 * cos u) / cos phi) := by
  unfold convertPoint
  dsimp only
  rw [if_neg (by linarith : ¬ 90 < |phi1|), if_neg (not_lt.2 e1), if_neg (by linarith), if_pos e2,
    if_neg (not_lt.2 e4), ← tan_eq_sin_div_cos, if_neg (arctan_unclamped _)]
  rfl

theorem convert_high (phi1 h1 a1 f1 a2 f2 eps : ℝ) (itmax : ℕ) (e1 : eps ≤ |phi1|)
    (e2 : 45 < |phi1|) (e3 : eps ≤ 90 - |phi1|) (e4 : eps ≤ cos (phi1 * π / 180)) (he : 0 < eps) :
    convertPoint phi1 h1 a1 f1 a2 f2 eps itmax =
      let u := solvedHigh phi1 h1 a1 f1 a2 f2 eps itmax
      let phi := arctan (a2 / ((1 - f2) * a2) * tan u)
      (phi * 180 / π, (fromPlane phi1 h1 a1 f1 - (1 - f2) * a2 * sin u) / sin phi) := by
  unfold convertPoint
  dsimp only
  rw [if_neg (by linarith : ¬ 90 < |phi1|), if_neg (not_lt.2 e1), if_neg (by linarith),
    if_neg (not_le.2 e2), if_neg (not_lt.2 e4), ← tan_eq_sin_div_cos, if_neg (arctan_unclamped _)]
  rfl

/-- Cartesian coordinates from the two distances. -/
theorem toCartesian_reduced (lon phi h a f : ℝ) (ha : 0 < a) (h0 : 0 ≤ f) (h1 : f < 1)
    (hc : 0 < cos (phi * π / 180)) :
    toCartesian lon phi h a f = ⟨fromAxis phi h a f * cos (lon * (π / 180)),
      fromAxis phi h a f * sin (lon * (π / 180)), fromPlane phi h a f⟩ := by
  obtain ⟨e1, e2⟩ := cos_sin_reduced ha h0 h1 hc
  unfold toCartesian fromAxis fromPlane reduced
  dsimp only
  rw [cos_wrapped, sin_wrapped, ← e1, ← e2, show phi * π / 180 = phi * (π / 180) by ring]
  ext
  · dsimp only; ring
  · dsimp only; ring
  · dsimp only; ring

/-- The two distances of the converted point, for a final iterate `u`. -/
theorem distances_after {a f u h : ℝ} (ha : 0 < a) (h1 : f < 1) (hu : 0 < cos u) :
    let phi := arctan (a / ((1 - f) * a) * tan u)
    fromAxis (phi * 180 / π) h a f = a * cos u + h * cos phi ∧
      fromPlane (phi * 180 / π) h a f = (1 - f) * a * sin u + h * sin phi := by
  have hf : (1 - f) ≠ 0 := by linarith
  intro phi
  have e : phi * 180 / π * π / 180 = phi := by field_simp
  have e2 : reduced (phi * 180 / π) a f = arctan (tan u) := by
    unfold reduced
    rw [e, tan_arctan]
    congr 1
    field_simp
  obtain ⟨c1, c2⟩ := sin_cos_arctan_tan hu
  unfold fromAxis fromPlane
  rw [e2, c1, c2, e]
  exact ⟨rfl, rfl⟩

/-- C36, within 45 degrees of the equator: the converted latitude and height on the second
ellipsoid denote a point with the same `x` and `y` as the original, and with `z` off by the
residual of the equation the code solves divided by the second semi-minor axis.  What is missing
is the unconditional smallness of that residual. -/
theorem C36_same_point_low_partial (lon phi1 h1 a1 f1 a2 f2 eps : ℝ) (itmax : ℕ)
    (ha1 : 0 < a1) (hf1 : 0 ≤ f1 ∧ f1 < 1) (ha2 : 0 < a2) (hf2 : 0 ≤ f2 ∧ f2 < 1)
    (e1 : eps ≤ |phi1|) (e2 : |phi1| ≤ 45) (e3 : eps ≤ cos (phi1 * π / 180)) (e4 : eps ≤ 45)
    (hu : 0 < cos (solvedLow phi1 h1 a1 f1 a2 f2 eps itmax)) :
    let q := convertPoint phi1 h1 a1 f1 a2 f2 eps itmax
    let before := toCartesian lon phi1 h1 a1 f1
    let after := toCartesian lon q.1 q.2 a2 f2
    after.x = before.x ∧ after.y = before.y ∧ after.z = before.z +
      residualLow phi1 h1 a1 f1 a2 f2 (solvedLow phi1 h1 a1 f1 a2 f2 eps itmax) /
        ((1 - f2) * a2) := by
  rw [convert_low _ _ _ _ _ _ _ _ e1 e2 e4 e3]
  dsimp only
  set u := solvedLow phi1 h1 a1 f1 a2 f2 eps itmax
  set phi := arctan (a2 / ((1 - f2) * a2) * tan u) with hphi
  have hcp : 0 < cos phi := cos_arctan_pos _
  have e : phi * 180 / π * π / 180 = phi := by field_simp
  rw [toCartesian_reduced lon phi1 h1 a1 f1 ha1 hf1.1 hf1.2 (cos_lat_pos (by linarith)),
    toCartesian_reduced lon _ _ a2 f2 ha2 hf2.1 hf2.2 (by rw [e]; exact hcp)]
  obtain ⟨d1, d2⟩ := distances_after (h := (fromAxis phi1 h1 a1 f1 - a2 * cos u) / cos phi) ha2 hf2.2 hu
  rw [← hphi] at d1 d2
  rw [d1, d2, div_mul_cancel₀ _ hcp.ne']
  have hf : (1 - f2) ≠ 0 := by linarith [hf2.2]
  refine ⟨?_, ?_, ?_⟩
  · dsimp only; ring
  · dsimp only; ring
  · dsimp only
    have ht : sin phi = a2 / ((1 - f2) * a2) * tan u * cos phi := by
      rw [hphi, sin_arctan, cos_arctan]; ring
    have hs : sin u = tan u * cos u := (tan_mul_cos hu.ne').symm
    unfold residualLow
    rw [ht, hs]
    field_simp
    ring

/-- C36, beyond 45 degrees: `z` is kept and the distance from the axis is off by the residual
divided by the semi-major axis. -/
theorem C36_same_point_high_partial (lon phi1 h1 a1 f1 a2 f2 eps : ℝ) (itmax : ℕ) (he : 0 < eps)
    (ha1 : 0 < a1) (hf1 : 0 ≤ f1 ∧ f1 < 1) (ha2 : 0 < a2) (hf2 : 0 ≤ f2 ∧ f2 < 1)
    (e1 : eps ≤ |phi1|) (e2 : 45 < |phi1|) (e3 : eps ≤ cos (phi1 * π / 180))
    (e4 : eps ≤ 90 - |phi1|)
    (hu : 0 < cos (solvedHigh phi1 h1 a1 f1 a2 f2 eps itmax))
    (hs : sin (solvedHigh phi1 h1 a1 f1 a2 f2 eps itmax) ≠ 0) :
    let q := convertPoint phi1 h1 a1 f1 a2 f2 eps itmax
    let before := toCartesian lon phi1 h1 a1 f1
    let after := toCartesian lon q.1 q.2 a2 f2
    let off := residualHigh phi1 h1 a1 f1 a2 f2 (solvedHigh phi1 h1 a1 f1 a2 f2 eps itmax) / a2
    after.x = before.x + off * cos (lon * (π / 180)) ∧
      after.y = before.y + off * sin (lon * (π / 180)) ∧ after.z = before.z := by
  rw [convert_high _ _ _ _ _ _ _ _ e1 e2 e4 e3 he]
  dsimp only
  set u := solvedHigh phi1 h1 a1 f1 a2 f2 eps itmax
  set phi := arctan (a2 / ((1 - f2) * a2) * tan u) with hphi
  have hcp : 0 < cos phi := cos_arctan_pos _
  have hf : (1 - f2) ≠ 0 := by linarith [hf2.2]
  have ht : sin phi = a2 / ((1 - f2) * a2) * tan u * cos phi := by
    rw [hphi, sin_arctan, cos_arctan]; ring
  have htu : tan u ≠ 0 := by
    rw [tan_eq_sin_div_cos]; exact div_ne_zero hs hu.ne'
  have hsp : sin phi ≠ 0 := by
    rw [ht]
    exact mul_ne_zero (mul_ne_zero (div_ne_zero ha2.ne' (mul_ne_zero hf ha2.ne')) htu) hcp.ne'
  have e : phi * 180 / π * π / 180 = phi := by field_simp
  rw [toCartesian_reduced lon phi1 h1 a1 f1 ha1 hf1.1 hf1.2 (cos_lat_pos (by linarith)),
    toCartesian_reduced lon _ _ a2 f2 ha2 hf2.1 hf2.2 (by rw [e]; exact hcp)]
  obtain ⟨d1, d2⟩ := distances_after
    (h := (fromPlane phi1 h1 a1 f1 - (1 - f2) * a2 * sin u) / sin phi) ha2 hf2.2 hu
  rw [← hphi] at d1 d2
  rw [d1, d2, div_mul_cancel₀ _ hsp]
  have hsu : sin u = tan u * cos u := (tan_mul_cos hu.ne').symm
  have key : a2 * cos u + (fromPlane phi1 h1 a1 f1 - (1 - f2) * a2 * sin u) / sin phi * cos phi =
      fromAxis phi1 h1 a1 f1 + residualHigh phi1 h1 a1 f1 a2 f2 u / a2 := by
    unfold residualHigh
    rw [ht, hsu]
    field_simp
    ring
  refine ⟨?_, ?_, ?_⟩
  · dsimp only; rw [key]; ring
  · dsimp only; rw [key]; ring
  · dsimp only; ring

/-- The starting value is a root when the two ellipsoids are the same. -/
theorem start_root (phi h a f : ℝ) (ha : 0 < a) (h1 : f < 1) (h90 : |phi| < 90) :
    residualLow phi h a f a f (reduced phi a f) = 0 ∧
      (phi ≠ 0 → residualHigh phi h a f a f (reduced phi a f) = 0) := by
  have hC := cos_lat_pos h90
  have hf : (1 - f) ≠ 0 := by linarith
  have ht := (tan_mul_cos hC.ne').symm
  have hs : sin (reduced phi a f) = (1 - f) * a / a * tan (phi * π / 180) * cos (reduced phi a f) := by
    unfold reduced; rw [sin_arctan, cos_arctan]; ring
  have htr : tan (reduced phi a f) = (1 - f) * a / a * tan (phi * π / 180) := tan_arctan _
  constructor
  · unfold residualLow fromAxis fromPlane
    rw [htr, hs, ht]
    field_simp
    ring
  · intro h0
    have ht0 : tan (phi * π / 180) ≠ 0 := by
      intro hz
      have := arctan_tan_lat h90
      rw [hz, arctan_zero] at this
      apply h0; rw [← this]; ring
    unfold residualHigh fromAxis fromPlane
    rw [htr, hs, ht]
    field_simp
    ring

/-- C36: converting to the same ellipsoid changes nothing, at the poles, at the equator and
wherever the cosine of the latitude is not below the tolerance. -/
theorem C36_identity_partial (phi h a f eps : ℝ) (itmax : ℕ) (ha : 0 < a) (h1 : f < 1)
    (he : 0 < eps) (he2 : eps ≤ 45) (hphi : |phi| ≤ 90)
    (hc : |phi| < eps ∨ 90 - |phi| < eps ∨ eps ≤ cos (phi * π / 180)) :
    convertPoint phi h a f a f eps itmax = (phi, h) := by
  by_cases c1 : |phi| < eps
  · unfold convertPoint
    dsimp only
    rw [if_neg (not_lt.2 hphi), if_pos c1]
    exact Prod.ext rfl (by ring)
  by_cases c2 : 90 - |phi| < eps
  · unfold convertPoint
    dsimp only
    rw [if_neg (not_lt.2 hphi), if_neg c1, if_pos c2]
    exact Prod.ext rfl (by ring)
  have hc' : eps ≤ cos (phi * π / 180) := by tauto
  push Not at c1 c2
  have h90 : |phi| < 90 := by linarith
  have hC := cos_lat_pos h90
  have hf : (1 - f) ≠ 0 := by linarith
  obtain ⟨r1, r2⟩ := start_root phi h a f ha h1 h90
  have hne : phi ≠ 0 := by rintro rfl; rw [abs_zero] at c1; linarith
  have hp : a / ((1 - f) * a) * tan (reduced phi a f) = tan (phi * π / 180) := by
    unfold reduced
    rw [tan_arctan]
    field_simp
  obtain ⟨t1, t2⟩ := sin_cos_arctan_tan hC
  rcases le_or_gt |phi| 45 with c3 | c3
  · rw [convert_low _ _ _ _ _ _ _ _ c1 c3 he2 hc']
    dsimp only
    rw [show solvedLow phi h a f a f eps itmax = reduced phi a f from newtonLow_root he r1 _, hp,
      arctan_tan_lat h90, t1]
    refine Prod.ext rfl ?_
    dsimp only [fromAxis]
    field_simp
    ring
  · rw [convert_high _ _ _ _ _ _ _ _ c1 c3 c2 hc' he]
    dsimp only
    rw [show solvedHigh phi h a f a f eps itmax = reduced phi a f from newtonHigh_root he (r2 hne) _,
      hp, arctan_tan_lat h90, t2]
    have hS : sin (phi * π / 180) ≠ 0 := by
      intro hz
      have h3 := arctan_tan_lat h90
      rw [tan_eq_sin_div_cos, hz, zero_div, arctan_zero] at h3
      apply hne; rw [← h3]; ring
    refine Prod.ext rfl ?_
    dsimp only [fromPlane]
    field_simp
    ring

example : ∃ phi : ℝ, |phi| ≤ 90 ∧ 45 < |phi| ∧ (1e-12 : ℝ) ≤ cos (phi * π / 180) := by
  refine ⟨60, by norm_num [abs_of_pos], by norm_num [abs_of_pos], ?_⟩
  rw [show (60 : ℝ) * π / 180 = π / 3 by ring, cos_pi_div_three]
  norm_num

/-- C36 fails in the thin ring around the poles where the cosine of the latitude is below the
tolerance but the latitude is not within the tolerance of 90: on a sphere, with no change of
ellipsoid, the latitude of every such point of the surface changes. -/
theorem C36_identity_false (phi a eps : ℝ) (itmax : ℕ) (ha : 0 < a) (hp : 45 < phi)
    (he : 0 < eps) (he2 : eps ≤ 45) (h1 : eps ≤ 90 - phi) (h2 : cos (phi * π / 180) < eps) :
    (convertPoint phi 0 a 0 a 0 eps itmax).1 ≠ phi := by
  have habs : |phi| = phi := abs_of_pos (by linarith)
  have hC := cos_lat_pos (show |phi| < 90 by rw [habs]; linarith)
  have hS : 0 < sin (phi * π / 180) := by
    have := pi_pos
    exact sin_pos_of_pos_of_lt_pi (by positivity) (by nlinarith)
  unfold convertPoint
  dsimp only
  rw [habs, if_neg (by linarith : ¬ 90 < phi), habs, if_neg (by linarith : ¬ phi < eps),
    if_neg (by linarith), if_neg (by linarith), if_pos h2, if_neg (arctan_unclamped _)]
  dsimp only
  rw [show (1 - 0) * a / a * (sin (phi * π / 180) / eps) = sin (phi * π / 180) / eps by
    field_simp; ring]
  set t := sin (phi * π / 180) / eps with ht
  have ht0 : 0 < t := by positivity
  have hc := cos_arctan_pos t
  rw [newtonHigh_root he (by
    rw [tan_arctan, sin_arctan, cos_arctan]
    field_simp
    ring), tan_arctan, show a / ((1 - 0) * a) * t = t by field_simp; ring]
  intro h
  have h3 : arctan t = phi * π / 180 := by rw [← h]; field_simp
  have h4 : tan (phi * π / 180) = t := by rw [← h3, tan_arctan]
  rw [tan_eq_sin_div_cos, ht, div_eq_div_iff hC.ne' he.ne'] at h4
  have := mul_left_cancel₀ hS.ne' h4
  linarith

/-- With the default tolerance there are such latitudes. -/
example : ∃ phi : ℝ, 45 < phi ∧ (1e-12 : ℝ) ≤ 90 - phi ∧ cos (phi * π / 180) < 1e-12 := by
  refine ⟨90 - 2e-12, by norm_num, by norm_num, ?_⟩
  rw [show (90 - 2e-12 : ℝ) * π / 180 = π / 2 - 2e-12 * π / 180 by ring, cos_pi_div_two_sub]
  have := pi_pos
  have := pi_le_four
  have := sin_lt (show 0 < (2e-12 : ℝ) * π / 180 by positivity)
  linarith

/-- C36: at the equator and the poles the conversion moves along the normal by the difference of
the axes, and this is exactly what the empirical height difference gives there. -/
theorem C36_equator_and_poles (phi h a1 f1 a2 f2 eps : ℝ) (itmax : ℕ) (he : 0 < eps)
    (he2 : eps ≤ 45) (hphi : phi = 0 ∨ |phi| = 90) :
    convertPoint phi h a1 f1 a2 f2 eps itmax = (phi, h + computeDeltaH phi a1 f1 a2 f2) := by
  unfold convertPoint computeDeltaH clip
  dsimp only
  rcases hphi with rfl | h90
  · rw [abs_zero, if_neg (by norm_num : ¬ (90 : ℝ) < 0), abs_zero, if_pos he]
    norm_num
    ring
  · rw [h90, if_neg (lt_irrefl _), h90, if_neg (by linarith), if_pos (by linarith)]
    refine Prod.ext rfl ?_
    dsimp only
    rcases (abs_eq (by norm_num : (0 : ℝ) ≤ 90)).1 h90 with rfl | rfl
    · rw [max_eq_left (by norm_num), min_self, show (90 : ℝ) * π / 180 = π / 2 by ring,
        cos_pi_div_two, sin_pi_div_two]
      ring
    · rw [max_self, min_eq_left (by norm_num), show (-90 : ℝ) * π / 180 = -(π / 2) by ring,
        cos_neg, sin_neg, cos_pi_div_two, sin_pi_div_two]
      ring

/-- C36: the empirical height difference is zero for equal ellipsoids, changes sign when they are
exchanged, adds up over intermediate ellipsoids, is the same in both hemispheres and lies between
the differences of the axes. -/
theorem C36_delta_h (lat a1 f1 a2 f2 a3 f3 : ℝ) :
    computeDeltaH lat a1 f1 a1 f1 = 0 ∧
      computeDeltaH lat a2 f2 a1 f1 = -computeDeltaH lat a1 f1 a2 f2 ∧
      computeDeltaH lat a1 f1 a2 f2 + computeDeltaH lat a2 f2 a3 f3 =
        computeDeltaH lat a1 f1 a3 f3 ∧
      computeDeltaH (-lat) a1 f1 a2 f2 = computeDeltaH lat a1 f1 a2 f2 ∧
      min (a1 - a2) ((1 - f1) * a1 - (1 - f2) * a2) ≤ computeDeltaH lat a1 f1 a2 f2 ∧
      computeDeltaH lat a1 f1 a2 f2 ≤ max (a1 - a2) ((1 - f1) * a1 - (1 - f2) * a2) := by
  have hclip : clip (-lat) (-90) 90 = -clip lat (-90) 90 := by
    unfold clip
    rcases le_total lat (-90) with h | h
    · rw [max_eq_right h, max_eq_left (by linarith), min_eq_right (by linarith),
        min_eq_left (by linarith)]
      ring
    · rcases le_total lat 90 with h2 | h2
      · rw [max_eq_left h, max_eq_left (by linarith), min_eq_left (by linarith),
          min_eq_left (by linarith)]
      · rw [max_eq_left h, max_eq_right (by linarith), min_eq_right h2, min_eq_left (by norm_num)]
  unfold computeDeltaH
  dsimp only
  rw [hclip]
  have hsc := sin_sq_add_cos_sq (clip lat (-90) 90 * π / 180)
  set C := cos (clip lat (-90) 90 * π / 180)
  set S := sin (clip lat (-90) 90 * π / 180)
  have hC := sq_nonneg C
  have hS := sq_nonneg S
  refine ⟨by ring, by ring, by ring, ?_, ?_, ?_⟩
  · rw [show -clip lat (-90) 90 * π / 180 = -(clip lat (-90) 90 * π / 180) by ring, cos_neg, sin_neg]
    ring
  · set m := min (a1 - a2) ((1 - f1) * a1 - (1 - f2) * a2)
    have m1 : m ≤ a1 - a2 := min_le_left _ _
    have m2 : m ≤ (1 - f1) * a1 - (1 - f2) * a2 := min_le_right _ _
    have e := congrArg (m * ·) hsc
    linarith [mul_nonneg (sub_nonneg.2 m1) hC, mul_nonneg (sub_nonneg.2 m2) hS]
  · set m := max (a1 - a2) ((1 - f1) * a1 - (1 - f2) * a2)
    have m1 : a1 - a2 ≤ m := le_max_left _ _
    have m2 : (1 - f1) * a1 - (1 - f2) * a2 ≤ m := le_max_right _ _
    have e := congrArg (m * ·) hsc
    linarith [mul_nonneg (sub_nonneg.2 m1) hC, mul_nonneg (sub_nonneg.2 m2) hS]

/-- C36: wrapped longitudes lie in (-180, 180] and differ from the given ones by whole turns. -/
theorem C36_wrap (lon : ℝ) : -180 < wrapLongitudes lon ∧ wrapLongitudes lon ≤ 180 ∧
    ∃ k : ℤ, wrapLongitudes lon = lon + 360 * k := by
  unfold wrapLongitudes arctan2
  have e : (⟨cos (lon * π / 180), sin (lon * π / 180)⟩ : ℂ) =
      Complex.cos ((lon * π / 180 : ℝ) : ℂ) + Complex.sin ((lon * π / 180 : ℝ) : ℂ) * Complex.I := by
    rw [← Complex.ofReal_cos, ← Complex.ofReal_sin]
    apply Complex.ext
    · rw [Complex.add_re, Complex.mul_I_re, Complex.ofReal_re, Complex.ofReal_im]; ring
    · rw [Complex.add_im, Complex.mul_I_im, Complex.ofReal_re, Complex.ofReal_im]; ring
  have h1 := Complex.neg_pi_lt_arg ⟨cos (lon * π / 180), sin (lon * π / 180)⟩
  have h2 := Complex.arg_le_pi ⟨cos (lon * π / 180), sin (lon * π / 180)⟩
  have h3 := Complex.arg_cos_add_sin_mul_I_sub (lon * π / 180)
  rw [← e] at h3
  have := pi_pos
  refine ⟨?_, ?_, ⌊(π - lon * π / 180) / (2 * π)⌋, ?_⟩
  · rw [lt_div_iff₀ this]; linarith
  · rw [div_le_iff₀ this]; linarith
  · rw [eq_add_of_sub_eq h3]
    field_simp
    ring

/-- C36: longitudes already in range are returned as they are, so wrapping twice is wrapping
once. -/
theorem C36_wrap_fixed (lon : ℝ) (h1 : -180 < lon) (h2 : lon ≤ 180) : wrapLongitudes lon = lon := by
  obtain ⟨w1, w2, k, hk⟩ := C36_wrap lon
  rw [hk] at w1 w2 ⊢
  have k1 : (k : ℝ) < 1 := by linarith
  have k2 : (-1 : ℝ) < k := by linarith
  have k1' : k < 1 := by exact_mod_cast k1
  have k2' : -1 < k := by exact_mod_cast k2
  rw [show k = 0 by omega]
  simp

/-- C36: every point of a batch is converted by itself, in order; batches of different lengths are
rejected; and latitudes in range are left as they are in the caller's array. -/
theorem C36_batch (phi h : List ℝ) (a1 f1 a2 f2 eps : ℝ) (itmax : ℕ) :
    (phi.length ≠ h.length → convertEllipsoid phi h a1 f1 a2 f2 eps itmax = .error .valueError) ∧
    (phi.length = h.length → ∃ r, convertEllipsoid phi h a1 f1 a2 f2 eps itmax = .ok r ∧
      r.length = phi.length ∧ ∀ (i : ℕ) (p q : ℝ), phi[i]? = some p → h[i]? = some q →
        ∃ s, r[i]? = some s ∧ convertEllipsoid [p] [q] a1 f1 a2 f2 eps itmax = .ok [s]) ∧
    ((∀ p ∈ phi, |p| ≤ 90) → clampInput phi = phi) := by
  refine ⟨fun hl => if_pos hl, fun hl => ⟨_, if_neg (not_not.2 hl), ?_, ?_⟩, fun hp => ?_⟩
  · rw [List.length_zipWith, hl, min_self]
  · intro i p q hp hq
    refine ⟨convertPoint p q a1 f1 a2 f2 eps itmax, ?_, rfl⟩
    rw [List.getElem?_zipWith, hp, hq]
  · unfold clampInput
    conv_rhs => rw [← List.map_id phi]
    exact List.map_congr_left fun p h => if_neg (not_lt.2 (hp p h))

/-- C36: the caller's array is changed when it holds a latitude beyond a pole. -/
theorem C36_input_false : clampInput [91] ≠ [91] := by
  unfold clampInput
  norm_num [abs_of_pos, Real.sign_of_pos]

end Verif.Spatial
