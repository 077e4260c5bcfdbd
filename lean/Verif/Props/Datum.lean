import Verif.Model.Datum
import Verif.Spec.Ellipsoids
import Mathlib.Analysis.SpecialFunctions.Trigonometric.ArctanDeriv
import Mathlib.Analysis.SpecialFunctions.Log.Deriv
import Mathlib.Analysis.Calculus.Deriv.MeanValue
import Mathlib.Tactic.FieldSimp
import Mathlib.Tactic.LinearCombination
import Mathlib.Tactic.Linarith
import Mathlib.Tactic.Positivity
import Mathlib.Tactic.NormNum
import Mathlib.Tactic.Ring

/-!
# C37, C38: parameters of the reference ellipsoids
-/

namespace Verif.CRS

open Verif Real

namespace Datum

variable {d : Datum}

theorem ecc_sq (h0 : 0 ≤ d.flat) (h1 : d.flat < 1) :
    d.ecc ^ 2 = (2 * d.flat - d.flat ^ 2) * d.a ^ 2 := by
  unfold ecc
  rw [sq_sqrt (mul_nonneg (by nlinarith) (by positivity))]

theorem ecc1_sq (ha : 0 < d.a) (h0 : 0 ≤ d.flat) (h1 : d.flat < 1) :
    d.ecc1 ^ 2 = 2 * d.flat - d.flat ^ 2 := by
  unfold ecc1
  rw [div_pow, ecc_sq h0 h1]
  field_simp

theorem ecc2_sq (ha : 0 < d.a) (h0 : 0 ≤ d.flat) (h1 : d.flat < 1) :
    d.ecc2 ^ 2 = (2 * d.flat - d.flat ^ 2) / (1 - d.flat) ^ 2 := by
  have : 1 - d.flat ≠ 0 := by linarith
  unfold ecc2 b
  rw [div_pow, ecc_sq h0 h1]
  field_simp

theorem ecc_pos (ha : 0 < d.a) (h0 : 0 < d.flat) (h1 : d.flat < 1) : 0 < d.ecc := by
  unfold ecc
  exact sqrt_pos.2 (mul_pos (by nlinarith) (by positivity))

theorem ecc2_pos (ha : 0 < d.a) (h0 : 0 < d.flat) (h1 : d.flat < 1) : 0 < d.ecc2 := by
  unfold ecc2 b
  exact div_pos (ecc_pos ha h0 h1) (mul_pos (by linarith) ha)

end Datum

/-- C37: the axes, eccentricities, radii and volume of an ellipsoid with semi-axes `a` and `b`. -/
theorem C37_identities (d : Datum) (ha : 0 < d.a) (h0 : 0 ≤ d.flat) (h1 : d.flat < 1) :
    0 < d.b ∧ d.b ≤ d.a ∧ d.flat = (d.a - d.b) / d.a ∧ d.ratio = d.b / d.a ∧
    d.ecc ^ 2 = d.a ^ 2 - d.b ^ 2 ∧ 0 ≤ d.ecc ∧
    d.ecc1 ^ 2 = 1 - (d.b / d.a) ^ 2 ∧ 0 ≤ d.ecc1 ∧ d.ecc1 < 1 ∧
    d.ecc2 ^ 2 = (d.a / d.b) ^ 2 - 1 ∧ 0 ≤ d.ecc2 ∧
    d.radP = d.a ^ 2 / d.b ∧
    d.radE ^ 3 = d.a ^ 2 * d.b ∧ d.volume = 4 / 3 * π * d.radE ^ 3 ∧
    (0 < d.G → d.rhoE * d.volume * d.G = d.GM) := by
  have hf : 0 < 1 - d.flat := by linarith
  have hf' : 1 - d.flat ≠ 0 := hf.ne'
  have hb : d.b = (1 - d.flat) * d.a := rfl
  have hb0 : 0 < d.b := by rw [hb]; positivity
  have he := d.ecc_sq h0 h1
  have he1 := d.ecc1_sq ha h0 h1
  have he10 : 0 ≤ d.ecc1 := div_nonneg (sqrt_nonneg _) ha.le
  have hr : d.radE ^ 3 = d.a ^ 2 * d.b := by
    unfold Datum.radE
    rw [mul_pow, ← rpow_natCast ((1 - d.flat) ^ ((1 : ℝ) / 3)), ← rpow_mul hf.le, hb]
    norm_num
    ring
  have hv : d.volume = 4 / 3 * π * d.radE ^ 3 := by
    unfold Datum.volume
    rw [he1, hr, hb, show 1 - (2 * d.flat - d.flat ^ 2) = (1 - d.flat) ^ 2 by ring,
      ← rpow_natCast (1 - d.flat) 2, ← rpow_mul hf.le]
    norm_num
    ring
  refine ⟨hb0, by rw [hb]; nlinarith, ?_, ?_, ?_, sqrt_nonneg _, ?_, he10, ?_, ?_,
    div_nonneg (sqrt_nonneg _) hb0.le, ?_, hr, hv, ?_⟩
  · rw [hb]; field_simp; ring
  · unfold Datum.ratio; rw [hb]; field_simp
  · rw [he, hb]; ring
  · rw [he1, hb]; field_simp; ring
  · nlinarith
  · rw [d.ecc2_sq ha h0 h1, hb]; field_simp; ring
  · unfold Datum.radP; rw [hb]; field_simp
  · intro hG
    have hV : d.volume ≠ 0 := by
      rw [hv, hr]
      positivity
    unfold Datum.rhoE
    field_simp

/-- C37: in CGS units a datum has the dimensions of its attributes scaled, and no other
differences: lengths by 100, areas by 10⁴, volumes by 10⁶, the density by 1/1000, and everything
without dimension unchanged. -/
theorem C37_units (ellipsoid u v : String) (a flat GM omega : Option ℝ) (d : Datum)
    (hu : u.toUpper = "MKS") (hv : v.toUpper = "CGS")
    (hd : datum ellipsoid u a flat GM omega = .ok d) :
    ∃ c, datum ellipsoid v a flat GM omega = .ok c ∧ c.name = d.name ∧
      c.a = 100 * d.a ∧ c.b = 100 * d.b ∧ c.radE = 100 * d.radE ∧ c.radP = 100 * d.radP ∧
      c.ecc = 100 * d.ecc ∧ c.GM = 10 ^ 6 * d.GM ∧ c.G = 1000 * d.G ∧ c.omega = d.omega ∧
      c.gamma = 100 * d.gamma ∧ c.gammaA = 100 * d.gammaA ∧ c.gammaB = 100 * d.gammaB ∧
      c.U0 = 10 ^ 4 * d.U0 ∧ c.area = 10 ^ 4 * d.area ∧ c.volume = 10 ^ 6 * d.volume ∧
      c.rhoE = d.rhoE / 1000 ∧ c.flat = d.flat ∧ c.ratio = d.ratio ∧ c.ecc1 = d.ecc1 ∧
      c.ecc2 = d.ecc2 ∧ c.m = d.m ∧ c.f2 = d.f2 ∧ c.f4 = d.f4 ∧ c.q = d.q ∧ c.q0 = d.q0 ∧
      c.J2 = d.J2 ∧ c.C20 = d.C20 ∧ c.dk = d.dk ∧
      (∀ theta, c.gamma0 theta = 100 * d.gamma0 theta) ∧
      ∀ theta h, c.gammaH theta (100 * h) = 100 * d.gammaH theta h := by
  have key : ∃ c, datum ellipsoid v a flat GM omega = .ok c ∧ c.name = d.name ∧
      c.a = 100 * d.a ∧ c.flat = d.flat ∧ c.GM = 10 ^ 6 * d.GM ∧ c.omega = d.omega ∧
      c.G = 1000 * d.G ∧ c.gamma = 100 * d.gamma := by
    have m1 : "MKS" ∈ unitSystems := by decide
    have m2 : "CGS" ∈ unitSystems := by decide
    have n : ¬ "MKS" = "CGS" := by decide
    have fin : ∀ nm x y gm om, ∀ e, e = finish nm "MKS" x y gm om GM omega →
        let c := finish nm "CGS" x y gm om GM omega
        c.name = e.name ∧ c.a = 100 * e.a ∧ c.flat = e.flat ∧ c.GM = 10 ^ 6 * e.GM ∧
          c.omega = e.omega ∧ c.G = 1000 * e.G ∧ c.gamma = 100 * e.gamma := by
      intro nm x y gm om e he
      rw [he]
      unfold finish
      dsimp only
      rw [if_pos rfl, if_neg n]
      refine ⟨rfl, mul_comm _ _, rfl, mul_comm _ _, rfl, mul_comm _ _, mul_comm _ _⟩
    have named : (if ellipsoid.toUpper ∈ ellipsoids ∧ u.toUpper ∈ unitSystems then
        (.ok (finish ellipsoid.toUpper u.toUpper ((constants ellipsoid.toUpper).1 : ℝ)
          (1 / ((constants ellipsoid.toUpper).2.1 : ℝ))
          ((constants ellipsoid.toUpper).2.2.1.map fun q : ℚ => (q : ℝ))
          ((constants ellipsoid.toUpper).2.2.2.map fun q : ℚ => (q : ℝ)) GM omega) :
            Except PyErr Datum)
        else .error .assertionError) = .ok d →
        ∃ c, (if ellipsoid.toUpper ∈ ellipsoids ∧ v.toUpper ∈ unitSystems then
        (.ok (finish ellipsoid.toUpper v.toUpper ((constants ellipsoid.toUpper).1 : ℝ)
          (1 / ((constants ellipsoid.toUpper).2.1 : ℝ))
          ((constants ellipsoid.toUpper).2.2.1.map fun q : ℚ => (q : ℝ))
          ((constants ellipsoid.toUpper).2.2.2.map fun q : ℚ => (q : ℝ)) GM omega) :
            Except PyErr Datum)
        else .error .assertionError) = .ok c ∧ c.name = d.name ∧
          c.a = 100 * d.a ∧ c.flat = d.flat ∧ c.GM = 10 ^ 6 * d.GM ∧ c.omega = d.omega ∧
          c.G = 1000 * d.G ∧ c.gamma = 100 * d.gamma := by
      intro hd
      by_cases hn : ellipsoid.toUpper ∈ ellipsoids
      · rw [hu, if_pos ⟨hn, m1⟩, Except.ok.injEq] at hd
        rw [hv, if_pos ⟨hn, m2⟩]
        exact ⟨_, rfl, fin _ _ _ _ _ d hd.symm⟩
      · rw [if_neg (fun h => hn h.1)] at hd
        exact absurd hd (by simp)
    unfold datum at hd ⊢
    rcases a with _ | a
    · exact named hd
    · rcases flat with _ | flat
      · exact named hd
      · dsimp only at hd ⊢
        rw [hu, if_pos m1, Except.ok.injEq] at hd
        rw [hv, if_pos m2]
        exact ⟨_, rfl, fin _ _ _ _ _ d hd.symm⟩
  obtain ⟨c, e0, e1, e2, e3, e4, e5, e6, e7⟩ := key
  have b1 : c.b = 100 * d.b := by unfold Datum.b; rw [e2, e3]; ring
  have ecc : c.ecc = 100 * d.ecc := by
    unfold Datum.ecc
    rw [e2, e3, show (2 * d.flat - d.flat ^ 2) * (100 * d.a) ^ 2 =
      100 ^ 2 * ((2 * d.flat - d.flat ^ 2) * d.a ^ 2) by ring, sqrt_mul (by norm_num),
      sqrt_sq (by norm_num)]
  have h100 : (100 : ℝ) ≠ 0 := by norm_num
  have ecc1 : c.ecc1 = d.ecc1 := by
    unfold Datum.ecc1; rw [ecc, e2, mul_div_mul_left _ _ h100]
  have ecc2 : c.ecc2 = d.ecc2 := by
    unfold Datum.ecc2; rw [ecc, b1, mul_div_mul_left _ _ h100]
  have m : c.m = d.m := by
    unfold Datum.m
    rw [e2, e3, e4, e5, show d.omega ^ 2 * ((1 - d.flat) * (100 * d.a) ^ 3) =
      10 ^ 6 * (d.omega ^ 2 * ((1 - d.flat) * d.a ^ 3)) by ring,
      mul_div_mul_left _ _ (by norm_num)]
  have f2 : c.f2 = d.f2 := by unfold Datum.f2; rw [e3, m]
  have f4 : c.f4 = d.f4 := by unfold Datum.f4; rw [e3, m]
  have q : c.q = d.q := by unfold Datum.q; rw [ecc2]
  have q0 : c.q0 = d.q0 := by unfold Datum.q0; rw [ecc2]
  have J2 : c.J2 = d.J2 := by unfold Datum.J2; rw [ecc1, ecc2, m, q]
  have C20 : c.C20 = d.C20 := by unfold Datum.C20; rw [J2]
  have gA : c.gammaA = 100 * d.gammaA := by
    unfold Datum.gammaA
    rw [ecc2, m, e2, e4, b1, show (100 * d.a) * (100 * d.b) = 10 ^ 4 * (d.a * d.b) by ring,
      show (10 : ℝ) ^ 6 * d.GM = 10 ^ 4 * (100 * d.GM) by ring, mul_div_mul_left _ _ (by norm_num)]
    ring
  have gB : c.gammaB = 100 * d.gammaB := by
    unfold Datum.gammaB
    rw [ecc2, m, e2, e4, show (100 * d.a) ^ 2 = 10 ^ 4 * d.a ^ 2 by ring,
      show (10 : ℝ) ^ 6 * d.GM = 10 ^ 4 * (100 * d.GM) by ring, mul_div_mul_left _ _ (by norm_num)]
    ring
  have g0 : ∀ theta, c.gamma0 theta = 100 * d.gamma0 theta := by
    intro theta
    unfold Datum.gamma0
    rw [gA, f2, f4]
    ring
  have vol : c.volume = 10 ^ 6 * d.volume := by
    unfold Datum.volume
    rw [e2, ecc1]
    ring
  refine ⟨c, e0, e1, e2, b1, ?_, ?_, ecc, e4, e6, e5, e7, gA, gB, ?_, ?_, vol, ?_, e3, ?_, ecc1,
    ecc2, m, f2, f4, q, q0, J2, C20, ?_, g0, ?_⟩
  · unfold Datum.radE; rw [e2, e3]; ring
  · unfold Datum.radP; rw [e2, e3]; ring
  · unfold Datum.U0
    rw [e4, ecc, ecc2, e5, e2, show (10 : ℝ) ^ 6 * d.GM = 100 * (10 ^ 4 * d.GM) by ring,
      mul_div_mul_left _ _ h100]
    ring
  · unfold Datum.area
    rw [ecc1, e2]
    ring
  · unfold Datum.rhoE
    rw [vol, e6, e4, show 1000 * d.G * (10 ^ 6 * d.volume) = 10 ^ 6 * (1000 * (d.G * d.volume)) by
      ring, mul_div_mul_left _ _ (by norm_num), div_div, mul_comm (1000 : ℝ)]
  · unfold Datum.ratio; rw [e3]
  · unfold Datum.dk
    rw [b1, gB, e2, show 100 * d.b * (100 * d.gammaB) = 10 ^ 4 * (d.b * d.gammaB) by ring,
      show 100 * d.a * (100 * d.gammaB) = 10 ^ 4 * (d.a * d.gammaB) by ring,
      mul_div_mul_left _ _ (by norm_num)]
  · intro theta h
    unfold Datum.gammaH
    rw [g0, e2, e3, m]
    have k1 : 2 / (100 * d.a) * (1 + d.flat + d.m - 2 * d.flat * cos theta ^ 2) * (100 * h) =
        2 / d.a * (1 + d.flat + d.m - 2 * d.flat * cos theta ^ 2) * h := by
      rw [show (2 : ℝ) = 100 * (2 / 100) by norm_num, mul_div_mul_left _ _ h100]
      ring
    have k2 : 3 / (100 * d.a) ^ 2 * (100 * h) ^ 2 = 3 / d.a ^ 2 * h ^ 2 := by
      rw [mul_pow, mul_pow, show (3 : ℝ) = 100 ^ 2 * (3 / 100 ^ 2) by norm_num,
        mul_div_mul_left _ _ (by norm_num)]
      ring
    rw [k1, k2]
    ring

example : ∃ d, datum "wgs84" "mks" none none none none = .ok d ∧ d.a = 6378137 := by
  refine ⟨finish "WGS84" "MKS" ((6378137 : ℚ) : ℝ) (1 / ((298257223563 / 10 ^ 9 : ℚ) : ℝ)) none none
    none none, ?_, ?_⟩
  · unfold datum
    dsimp only
    rw [if_pos (by decide +kernel), show "wgs84".toUpper = "WGS84" by decide +kernel,
      show "mks".toUpper = "MKS" by decide +kernel,
      show constants "WGS84" = (6378137, 298257223563 / 10 ^ 9, none, none) by decide +kernel]
    rfl
  · unfold finish
    rw [if_neg (by decide)]
    norm_num

/-! ## Normal gravity -/

/-- C37: the series for the normal gravity starts from the value at the equator, is symmetric
about the equator, and is continued upwards from the ellipsoid. -/
theorem C37_gravity (d : Datum) (theta : ℝ) :
    d.gamma0 (π / 2) = d.gammaA ∧ d.gamma0 (π - theta) = d.gamma0 theta ∧
    d.gammaH theta 0 = d.gamma0 theta := by
  refine ⟨?_, ?_, ?_⟩
  · unfold Datum.gamma0; rw [cos_pi_div_two]; ring
  · unfold Datum.gamma0; rw [cos_pi_sub]; ring
  · unfold Datum.gammaH; ring

/-- C37: at the pole the series agrees with the separate value for the pole up to third order in
the flattening and the ratio `m` of centrifugal force to gravity. -/
theorem C37_gravity_pole (d : Datum) (ha : 0 < d.a) (hG : 0 < d.GM) (h0 : 0 ≤ d.flat)
    (h1 : d.flat ≤ 1 / 100) (hm : d.m ≤ 1 / 100) :
    |d.gamma0 0 - d.gammaB| ≤ d.GM / (d.a * d.b) * (20 * (d.flat + d.m) ^ 3) := by
  have hf : 0 < 1 - d.flat := by linarith
  have hb : d.b = (1 - d.flat) * d.a := rfl
  have hm0 : 0 ≤ d.m := by unfold Datum.m; positivity
  have hx := d.ecc2_sq ha h0 (by linarith)
  have hx2 : ∃ y, d.ecc2 ^ 2 = 2 * d.flat + y * d.flat ^ 2 ∧ 0 ≤ y ∧ y ≤ 31 / 10 := by
    refine ⟨(3 - 2 * d.flat) / (1 - d.flat) ^ 2, ?_, ?_, ?_⟩
    · rw [hx]; field_simp; try ring
    · exact div_nonneg (by linarith) (by positivity)
    · rw [div_le_iff₀ (by positivity)]; nlinarith
  obtain ⟨y, hy, y0, y1⟩ := hx2
  have e : d.gamma0 0 - d.gammaB = d.GM / (d.a * d.b) *
      ((1 - 3 / 2 * d.m - 3 / 14 * d.ecc2 ^ 2 * d.m) * (1 + d.f2 + d.f4) -
        (1 - d.flat) * (1 + d.m + 3 / 7 * d.ecc2 ^ 2 * d.m)) := by
    unfold Datum.gamma0 Datum.gammaA Datum.gammaB
    rw [cos_zero, hb]
    field_simp
  have hpos : 0 < d.GM / (d.a * d.b) := by rw [hb]; positivity
  rw [e, abs_mul, abs_of_pos hpos]
  refine mul_le_mul_of_nonneg_left ?_ hpos.le
  rw [hy]
  unfold Datum.f2 Datum.f4
  generalize d.m = m at *
  generalize d.flat = f at *
  have e2 : (1 - 3 / 2 * m - 3 / 14 * (2 * f + y * f ^ 2) * m) *
      (1 + (-f + 5 / 2 * m + 1 / 2 * f ^ 2 - 26 / 7 * f * m + 15 / 4 * m ^ 2) +
        (-(1 / 2) * f ^ 2 + 5 / 2 * f * m)) -
      (1 - f) * (1 + m + 3 / 7 * (2 * f + y * f ^ 2) * m) =
      -(9 / 14) * y * (f ^ 2 * m) + 9 / 7 * (f ^ 2 * m) + 3 / 4 * (f * m ^ 2) - 45 / 8 * m ^ 3 +
      9 / 14 * y * (f ^ 3 * m) - 15 / 28 * y * (f ^ 2 * m ^ 2) + 51 / 98 * (f ^ 2 * m ^ 2) -
      45 / 28 * (f * m ^ 3) + 51 / 196 * y * (f ^ 3 * m ^ 2) - 45 / 56 * y * (f ^ 2 * m ^ 3) := by
    ring
  rw [e2]
  clear e2 e hy hx hpos
  have p1 : 0 ≤ f ^ 2 * m := by positivity
  have p2 : 0 ≤ f * m ^ 2 := by positivity
  have p3 : 0 ≤ m ^ 3 := by positivity
  have p0 : 0 ≤ f ^ 3 := by positivity
  have q1 : f ^ 3 * m ≤ 1 / 100 * (f ^ 2 * m) := by
    have := mul_le_mul_of_nonneg_right h1 p1; linarith
  have q2 : f ^ 2 * m ^ 2 ≤ 1 / 100 * (f ^ 2 * m) := by
    have := mul_le_mul_of_nonneg_right hm p1; linarith
  have q3 : f * m ^ 3 ≤ 1 / 100 * m ^ 3 := by
    have := mul_le_mul_of_nonneg_right h1 p3; linarith
  have hfm : f * m ≤ 1 / 100 := by nlinarith
  have hff : f ^ 2 ≤ 1 / 100 := by nlinarith
  have q4 : f ^ 3 * m ^ 2 ≤ 1 / 100 * (f ^ 2 * m) := by
    have := mul_le_mul_of_nonneg_right hfm p1; linarith
  have q5 : f ^ 2 * m ^ 3 ≤ 1 / 100 * m ^ 3 := by
    have := mul_le_mul_of_nonneg_right hff p3; linarith
  have n1 : 0 ≤ f ^ 3 * m := by positivity
  have n2 : 0 ≤ f ^ 2 * m ^ 2 := by positivity
  have n3 : 0 ≤ f * m ^ 3 := by positivity
  have n4 : 0 ≤ f ^ 3 * m ^ 2 := by positivity
  have n5 : 0 ≤ f ^ 2 * m ^ 3 := by positivity
  have mul31 : ∀ t, 0 ≤ t → 0 ≤ y * t ∧ y * t ≤ 31 / 10 * t := by
    intro t ht
    exact ⟨mul_nonneg y0 ht, mul_le_mul_of_nonneg_right y1 ht⟩
  obtain ⟨a1, b1⟩ := mul31 _ p1
  obtain ⟨a2, b2⟩ := mul31 _ n1
  obtain ⟨a3, b3⟩ := mul31 _ n2
  obtain ⟨a4, b4⟩ := mul31 _ n4
  obtain ⟨a5, b5⟩ := mul31 _ n5
  have e3 : 20 * (f + m) ^ 3 = 20 * f ^ 3 + 60 * (f ^ 2 * m) + 60 * (f * m ^ 2) + 20 * m ^ 3 := by
    ring
  have up : 9 / 7 * (f ^ 2 * m) + 3 / 4 * (f * m ^ 2) + 9 / 14 * (y * (f ^ 3 * m)) +
      51 / 98 * (f ^ 2 * m ^ 2) + 51 / 196 * (y * (f ^ 3 * m ^ 2)) ≤ 20 * (f + m) ^ 3 := by
    rw [e3]
    generalize f ^ 2 * m = t1 at *
    generalize f * m ^ 2 = t2 at *
    generalize f ^ 3 * m ^ 2 = t4 at *
    generalize f ^ 3 * m = t3 at *
    generalize f ^ 2 * m ^ 2 = t5 at *
    generalize y * t3 = s3 at *
    generalize y * t4 = s4 at *
    linarith only [p1, p2, p3, p0, b2, q1, q2, b4, q4]
  have lo : 9 / 14 * (y * (f ^ 2 * m)) + 45 / 8 * m ^ 3 + 15 / 28 * (y * (f ^ 2 * m ^ 2)) +
      45 / 28 * (f * m ^ 3) + 45 / 56 * (y * (f ^ 2 * m ^ 3)) ≤ 20 * (f + m) ^ 3 := by
    rw [e3]
    generalize f ^ 2 * m ^ 3 = t5 at *
    generalize f ^ 2 * m ^ 2 = t4 at *
    generalize f ^ 2 * m = t1 at *
    generalize f * m ^ 2 = t2 at *
    generalize f * m ^ 3 = t3 at *
    generalize y * t1 = s1 at *
    generalize y * t4 = s4 at *
    generalize y * t5 = s5 at *
    linarith only [p1, p2, p3, p0, b1, b3, q2, q3, b5, q5]
  rw [abs_le]
  constructor
  · linarith only [lo, p1, p2, a2, n2, a4]
  · linarith only [up, a1, p3, a3, n3, a5]

/-! ## Surface -/

theorem pos_of_deriv {g g' : ℝ → ℝ} {s x : ℝ} (h0 : g 0 = 0)
    (hd : ∀ t, 0 ≤ t → t < s → HasDerivAt g (g' t) t) (hn : ∀ t, 0 < t → t < s → 0 < g' t)
    (hx : 0 < x) (hs : x < s) : 0 < g x := by
  obtain ⟨c, hc, e⟩ := exists_hasDerivAt_eq_slope g g' hx
    (fun t ht => (hd t ht.1 (lt_of_le_of_lt ht.2 hs)).continuousAt.continuousWithinAt)
    (fun t ht => hd t ht.1.le (ht.2.trans hs))
  have := hn c hc.1 (hc.2.trans hs)
  rw [e, h0, sub_zero, sub_zero] at this
  exact (div_pos_iff_of_pos_right hx).1 this

theorem log_ratio_bounds {e : ℝ} (h0 : 0 < e) (h1 : e < 1) :
    2 * e < log ((1 + e) / (1 - e)) ∧ log ((1 + e) / (1 - e)) < 2 * e / (1 - e ^ 2) := by
  have h2 : 0 < 1 - e := by linarith
  rw [log_div (by linarith) (by linarith)]
  have dl : ∀ t : ℝ, 0 ≤ t → t < 1 →
      HasDerivAt (fun t => log (1 + t) - log (1 - t)) (2 / (1 - t ^ 2)) t := by
    intro t t0 t1
    have d1 : HasDerivAt (fun t : ℝ => log (1 + t)) (1 / (1 + t)) t :=
      ((hasDerivAt_id t).const_add 1).log (by simp only [id]; linarith)
    have d2 : HasDerivAt (fun t : ℝ => log (1 - t)) (-1 / (1 - t)) t :=
      ((hasDerivAt_id t).const_sub 1).log (by simp only [id]; linarith)
    have e1 : 1 + t ≠ 0 := by linarith
    have e2 : 1 - t ≠ 0 := by linarith
    have e : 2 / (1 - t ^ 2) = 1 / (1 + t) - -1 / (1 - t) := by
      rw [show 1 - t ^ 2 = (1 + t) * (1 - t) by ring]
      field_simp
      ring
    rw [e]
    exact d1.sub d2
  constructor
  · have := pos_of_deriv (g := fun t => log (1 + t) - log (1 - t) - 2 * t)
      (g' := fun t => 2 / (1 - t ^ 2) - 2) (s := 1) (x := e) (by simp)
      (fun t t0 t1 => by
        have d3 : HasDerivAt (fun t : ℝ => 2 * t) 2 t := by
          simpa using (hasDerivAt_id t).const_mul 2
        exact (dl t t0 t1).sub d3)
      (fun t t0 t1 => by
        have : 0 < 1 - t ^ 2 := by nlinarith
        rw [sub_pos, lt_div_iff₀ this]
        nlinarith) h0 h1
    linarith
  · have := pos_of_deriv (g := fun t => 2 * t / (1 - t ^ 2) - (log (1 + t) - log (1 - t)))
      (g' := fun t => (2 * (1 - t ^ 2) - 2 * t * (-(2 * t))) / (1 - t ^ 2) ^ 2 - 2 / (1 - t ^ 2))
      (s := 1) (x := e) (by simp)
      (fun t t0 t1 => by
        have hne : (1 : ℝ) - t ^ 2 ≠ 0 := by nlinarith
        have d3 : HasDerivAt (fun t : ℝ => 2 * t) 2 t := by
          simpa using (hasDerivAt_id t).const_mul 2
        have d4 : HasDerivAt (fun t : ℝ => 1 - t ^ 2) (-(2 * t)) t := by
          simpa using (hasDerivAt_pow 2 t).const_sub 1
        exact (d3.div d4 hne).sub (dl t t0 t1))
      (fun t t0 t1 => by
        have : 0 < 1 - t ^ 2 := by nlinarith
        have e1 : (2 * (1 - t ^ 2) - 2 * t * (-(2 * t))) / (1 - t ^ 2) ^ 2 - 2 / (1 - t ^ 2) =
          4 * t ^ 2 / (1 - t ^ 2) ^ 2 := by
          have := this.ne'
          field_simp
          ring
        rw [e1]
        positivity) h0 h1
    linarith

/-- C37: the surface of an ellipsoid lies between those of the spheres it encloses and is enclosed
by. -/
theorem C37_area (d : Datum) (ha : 0 < d.a) (h0 : 0 < d.flat) (h1 : d.flat < 1) :
    4 * π * d.b ^ 2 < d.area ∧ d.area < 4 * π * d.a ^ 2 := by
  have he := d.ecc1_sq ha h0.le h1
  have he0 : 0 < d.ecc1 := div_pos (d.ecc_pos ha h0 h1) ha
  have he1 : d.ecc1 < 1 := by nlinarith
  obtain ⟨k1, k2⟩ := log_ratio_bounds he0 he1
  have hp := pi_pos
  have hb : d.b ^ 2 = d.a ^ 2 * (1 - d.ecc1 ^ 2) := by rw [he]; unfold Datum.b; ring
  have hq : 0 < 1 - d.ecc1 ^ 2 := by nlinarith
  unfold Datum.area
  rw [hb]
  generalize d.ecc1 = e at *
  have c : 0 < (1 - e ^ 2) / e := by positivity
  have m1 := mul_lt_mul_of_pos_left k1 c
  have m2 := mul_lt_mul_of_pos_left k2 c
  have s1 : (1 - e ^ 2) / e * (2 * e) = 2 * (1 - e ^ 2) := by field_simp
  have s2 : (1 - e ^ 2) / e * (2 * e / (1 - e ^ 2)) = 2 := by field_simp
  rw [s1] at m1
  rw [s2] at m2
  constructor
  · have : 4 * π * (d.a ^ 2 * (1 - e ^ 2)) = π * d.a ^ 2 * (4 * (1 - e ^ 2)) := by ring
    rw [this]
    refine mul_lt_mul_of_pos_left ?_ (by positivity)
    nlinarith
  · have : 4 * π * d.a ^ 2 = π * d.a ^ 2 * 4 := by ring
    rw [this]
    exact mul_lt_mul_of_pos_left (by linarith) (by positivity)

/-- C37: the auxiliary quantities `q` and `q0` of the ellipsoidal potential are positive, so no
division by zero occurs in the oblateness. -/
theorem C37_q (d : Datum) (ha : 0 < d.a) (h0 : 0 < d.flat) (h1 : d.flat < 1) :
    0 < d.q ∧ 0 < d.q0 := by
  have he := d.ecc2_pos ha h0 h1
  unfold Datum.q Datum.q0
  generalize d.ecc2 = e at *
  have k1 := pos_of_deriv (g := fun t => arctan t - 3 * t / (3 + t ^ 2))
    (g' := fun t => 1 / (1 + t ^ 2) - (3 * (3 + t ^ 2) - 3 * t * (2 * t)) / (3 + t ^ 2) ^ 2)
    (s := e + 1) (x := e) (by simp)
    (fun t t0 t1 => by
      have hne : (3 : ℝ) + t ^ 2 ≠ 0 := by positivity
      have d3 : HasDerivAt (fun t : ℝ => 3 * t) 3 t := by
        simpa using (hasDerivAt_id t).const_mul 3
      have d4 : HasDerivAt (fun t : ℝ => 3 + t ^ 2) (2 * t) t := by
        simpa using (hasDerivAt_pow 2 t).const_add 3
      exact (hasDerivAt_arctan t).sub (d3.div d4 hne))
    (fun t t0 t1 => by
      have e1 : 1 / (1 + t ^ 2) - (3 * (3 + t ^ 2) - 3 * t * (2 * t)) / (3 + t ^ 2) ^ 2 =
        4 * t ^ 4 / ((1 + t ^ 2) * (3 + t ^ 2) ^ 2) := by
        field_simp
        ring
      rw [e1]
      positivity) he (by linarith)
  have k2 := pos_of_deriv (g := fun t => t - t ^ 3 / (3 * (1 + t ^ 2)) - arctan t)
    (g' := fun t => 1 - (3 * t ^ 2 * (3 * (1 + t ^ 2)) - t ^ 3 * (3 * (2 * t))) /
      (3 * (1 + t ^ 2)) ^ 2 - 1 / (1 + t ^ 2))
    (s := e + 1) (x := e) (by simp)
    (fun t t0 t1 => by
      have hne : (3 : ℝ) * (1 + t ^ 2) ≠ 0 := by positivity
      have d3 : HasDerivAt (fun t : ℝ => t ^ 3) (3 * t ^ 2) t := by
        simpa using hasDerivAt_pow 3 t
      have d4 : HasDerivAt (fun t : ℝ => 3 * (1 + t ^ 2)) (3 * (2 * t)) t := by
        have : HasDerivAt (fun t : ℝ => 1 + t ^ 2) (2 * t) t := by
          simpa using (hasDerivAt_pow 2 t).const_add 1
        exact this.const_mul 3
      exact ((hasDerivAt_id t).sub (d3.div d4 hne)).sub (hasDerivAt_arctan t))
    (fun t t0 t1 => by
      have e1 : 1 - (3 * t ^ 2 * (3 * (1 + t ^ 2)) - t ^ 3 * (3 * (2 * t))) /
        (3 * (1 + t ^ 2)) ^ 2 - 1 / (1 + t ^ 2) = 2 * t ^ 4 / (3 * (1 + t ^ 2) ^ 2) := by
        field_simp
        ring
      rw [e1]
      positivity) he (by linarith)
  constructor
  · have e1 : 1 / 2 * ((1 + 3 / e ^ 2) * arctan e - 3 / e) =
        (3 + e ^ 2) / (2 * e ^ 2) * (arctan e - 3 * e / (3 + e ^ 2)) := by
      have : (3 : ℝ) + e ^ 2 ≠ 0 := by positivity
      field_simp
      ring
    rw [e1]
    positivity
  · have e1 : 3 * (1 + 1 / e ^ 2) * (1 - 1 / e * arctan e) - 1 =
        3 * (1 + e ^ 2) / e ^ 3 * (e - e ^ 3 / (3 * (1 + e ^ 2)) - arctan e) := by
      field_simp
      ring
    rw [e1]
    positivity

/-! ## C38: constants of the named ellipsoids -/

/-- The datum of a name. -/
theorem datum_named {name : String} (hn : name ∈ ellipsoids) (hu : name.toUpper = name)
    (GM omega : Option ℝ) :
    ∃ d, datum name "MKS" none none GM omega = .ok d ∧ d.name = name ∧
      d.a = ((constants name).1 : ℝ) ∧ d.flat = 1 / ((constants name).2.1 : ℝ) ∧
      (∀ x, GM = some x → d.GM = x) ∧ (∀ x, omega = some x → d.omega = x) ∧
      (GM = none → ∀ x, (constants name).2.2.1 = some x → d.GM = x) ∧
      (omega = none → ∀ x, (constants name).2.2.2 = some x → d.omega = x) ∧
      (GM = none → (constants name).2.2.1 = none → d.GM = 3986004418e5) ∧
      (omega = none → (constants name).2.2.2 = none → d.omega = 7292115 / 10 ^ 11) := by
  have m1 : "MKS".toUpper ∈ unitSystems := by decide +kernel
  have n : ¬ "MKS".toUpper = "CGS" := by decide +kernel
  unfold datum
  dsimp only
  rw [hu, if_pos ⟨hn, m1⟩]
  refine ⟨_, rfl, ?_⟩
  unfold finish
  dsimp only
  rw [if_neg n]
  refine ⟨rfl, rfl, rfl, ?_, ?_, ?_, ?_, ?_, ?_⟩
  · rintro x rfl; rfl
  · rintro x rfl; rfl
  · rintro rfl x hx; rw [hx]; rfl
  · rintro rfl x hx; rw [hx]; rfl
  · rintro rfl hx; rw [hx]; rfl
  · rintro rfl hx; rw [hx]; rfl

/-- C38, as far as it holds: every named datum except GRS80 and NAD83 has the published
semi-major axis and flattening.  Missing: the two for which it is false (`C38_grs80_false`). -/
theorem C38_published_partial (e : Spec.Ellipsoid) (he : e ∈ Spec.publishedEllipsoids)
    (h80 : e.name ≠ "GRS80") (h83 : e.name ≠ "NAD83") :
    ∃ d, datum e.name "MKS" none none none none = .ok d ∧ d.a = (e.axis : ℝ) ∧
      d.flat = 1 / (e.inverseFlattening : ℝ) := by
  have h1 : ∀ e ∈ Spec.publishedEllipsoids, e.name ∈ ellipsoids ∧ e.name.toUpper = e.name ∧
      (e.name ≠ "GRS80" → e.name ≠ "NAD83" → (constants e.name).1 = e.axis ∧
        (constants e.name).2.1 = e.inverseFlattening) := by decide +kernel
  obtain ⟨a1, a2, a3⟩ := h1 e he
  obtain ⟨b1, b2⟩ := a3 h80 h83
  obtain ⟨d, d1, -, d3, d4, -⟩ := datum_named a1 a2 none none
  exact ⟨d, d1, by rw [d3, b1], by rw [d4, b2]⟩

/-- C38 is false of GRS80 and NAD83: they have the axis and flattening of WGS72. -/
theorem C38_grs80_false : ∃ e ∈ Spec.publishedEllipsoids, ∃ e' ∈ Spec.publishedEllipsoids,
    e.name = "GRS80" ∧ e'.name = "NAD83" ∧
    ∀ t, t = e ∨ t = e' → ∃ d, datum t.name "MKS" none none none none = .ok d ∧
      d.a = t.axis - 2 ∧ d.flat ≠ 1 / (t.inverseFlattening : ℝ) := by
  have u1 : "GRS80".toUpper = "GRS80" := by decide +kernel
  have u2 : "NAD83".toUpper = "NAD83" := by decide +kernel
  have c1 : constants "GRS80" = (6378135, 29826 / 100, some (3986005 * 10 ^ 8), none) := by
    decide +kernel
  have c2 : constants "NAD83" = (6378135, 29826 / 100, some (3986005 * 10 ^ 8), none) := by
    decide +kernel
  refine ⟨⟨"GRS80", 6378137, 298.257222101⟩, by decide +kernel,
    ⟨"NAD83", 6378137, 298.257222101⟩, by decide +kernel, rfl, rfl, ?_⟩
  rintro t (rfl | rfl)
  · obtain ⟨d, d1, -, d3, d4, -⟩ := datum_named (by decide : "GRS80" ∈ ellipsoids) u1 none none
    refine ⟨d, d1, ?_, ?_⟩
    · rw [d3, c1]; norm_num
    · rw [d4, c1]; norm_num
  · obtain ⟨d, d1, -, d3, d4, -⟩ := datum_named (by decide : "NAD83" ∈ ellipsoids) u2 none none
    refine ⟨d, d1, ?_, ?_⟩
    · rw [d3, c2]; norm_num
    · rw [d4, c2]; norm_num

/-- C38: every listed name, in any case, gives a datum with a positive axis and a flattening
between 0 and 1/290; any other name is refused. -/
theorem C38_names (ellipsoid : String) :
    (ellipsoid.toUpper ∈ ellipsoids → ∃ d, datum ellipsoid "MKS" none none none none = .ok d ∧
      6377000 < d.a ∧ d.a < 6379000 ∧ 0 < d.flat ∧ d.flat < 1 / 290 ∧ 0 < d.GM ∧ 0 < d.omega) ∧
    (ellipsoid.toUpper ∉ ellipsoids → ∀ units GM omega,
      datum ellipsoid units none none GM omega = .error .assertionError) := by
  constructor
  · intro h
    have m1 : "MKS".toUpper ∈ unitSystems := by decide +kernel
    have n : ¬ "MKS".toUpper = "CGS" := by decide +kernel
    have hc : ∀ name ∈ ellipsoids, 6377000 < (constants name).1 ∧ (constants name).1 < 6379000 ∧
        290 < (constants name).2.1 ∧ (∀ x, (constants name).2.2.1 = some x → 0 < x) ∧
        (∀ x, (constants name).2.2.2 = some x → 0 < x) := by
      have : ∀ name ∈ ellipsoids, 6377000 < (constants name).1 ∧ (constants name).1 < 6379000 ∧
        290 < (constants name).2.1 ∧ 0 < (constants name).2.2.1.getD 1 ∧
        0 < (constants name).2.2.2.getD 1 := by decide +kernel
      intro name hn
      obtain ⟨a1, a2, a3, a4, a5⟩ := this name hn
      refine ⟨a1, a2, a3, ?_, ?_⟩
      · intro x hx; rw [hx] at a4; exact a4
      · intro x hx; rw [hx] at a5; exact a5
    obtain ⟨a1, a2, a3, a4, a5⟩ := hc _ h
    unfold datum
    dsimp only
    rw [if_pos ⟨h, m1⟩]
    refine ⟨_, rfl, ?_⟩
    unfold finish
    dsimp only
    rw [if_neg n]
    dsimp only
    have a3' : (290 : ℝ) < ((constants ellipsoid.toUpper).2.1 : ℝ) := by exact_mod_cast a3
    refine ⟨by exact_mod_cast a1, by exact_mod_cast a2, by positivity, ?_, ?_, ?_⟩
    · exact one_div_lt_one_div_of_lt (by norm_num) a3'
    · rcases hx : (constants ellipsoid.toUpper).2.2.1 with _ | x
      · show (0 : ℝ) < 3986004418e5; norm_num
      · show (0 : ℝ) < (x : ℝ); exact_mod_cast a4 x hx
    · rcases hx : (constants ellipsoid.toUpper).2.2.2 with _ | x
      · show (0 : ℝ) < 7292115 / 10 ^ 11; norm_num
      · show (0 : ℝ) < (x : ℝ); exact_mod_cast a5 x hx
  · intro h units GM omega
    unfold datum
    dsimp only
    rw [if_neg (fun h' => h h'.1)]

/-- C38: an axis and a flattening given together take effect, with any ellipsoid name, and so do
a gravitational constant and an angular velocity. -/
theorem C38_user_defined (ellipsoid : String) (a flat GM omega : ℝ) :
    ∃ d, datum ellipsoid "MKS" (some a) (some flat) (some GM) (some omega) = .ok d ∧
      d.a = a ∧ d.flat = flat ∧ d.GM = GM ∧ d.omega = omega := by
  have m1 : "MKS".toUpper ∈ unitSystems := by decide +kernel
  have n : ¬ "MKS".toUpper = "CGS" := by decide +kernel
  unfold datum
  dsimp only
  rw [if_pos m1]
  refine ⟨_, rfl, ?_⟩
  unfold finish
  dsimp only
  rw [if_neg n]
  exact ⟨rfl, rfl, rfl, rfl⟩

/-- C38 is false of an axis or a flattening given alone: it is silently ignored. -/
theorem C38_alone_false (ellipsoid units : String) (a flat : ℝ) (GM omega : Option ℝ) :
    datum ellipsoid units (some a) none GM omega = datum ellipsoid units none none GM omega ∧
    datum ellipsoid units none (some flat) GM omega = datum ellipsoid units none none GM omega :=
  ⟨rfl, rfl⟩

/-- C38 is false of the gravity ratio `k`: whatever the gravity, the value reported is the
flattening with the opposite sign. -/
theorem C38_dk_false (d : Datum) (ha : 0 < d.a) (hg : d.gammaB ≠ 0) : d.dk = -d.flat := by
  unfold Datum.dk Datum.b
  field_simp
  ring

/-- The definition, `(b γb) / (a γa) - 1`, is positive for WGS84, so it is not what is
reported. -/
theorem C38_dk_defined : ∃ d, datum "WGS84" "MKS" none none none none = .ok d ∧
    d.dk < 0 ∧ 0 < d.b * d.gammaB / (d.a * d.gammaA) - 1 := by
  have u1 : "WGS84".toUpper = "WGS84" := by decide +kernel
  have c1 : constants "WGS84" = (6378137, 298257223563 / 10 ^ 9, none, none) := by decide +kernel
  obtain ⟨d, d1, -, d3, d4, -, -, -, -, d5, d6⟩ :=
    datum_named (by decide : "WGS84" ∈ ellipsoids) u1 none none
  refine ⟨d, d1, ?_⟩
  have hGM := d5 rfl (by rw [c1])
  have hom := d6 rfl (by rw [c1])
  rw [c1] at d3 d4
  have ha : d.a = 6378137 := by rw [d3]; norm_num
  have hf : d.flat = 1000000000 / 298257223563 := by rw [d4]; norm_num
  have hx := d.ecc2_sq (by rw [ha]; norm_num) (by rw [hf]; norm_num) (by rw [hf]; norm_num)
  rw [hf] at hx
  have hm : d.m = (7292115 / 10 ^ 11) ^ 2 * ((1 - 1000000000 / 298257223563) * 6378137 ^ 3) /
      3986004418e5 := by
    unfold Datum.m; rw [ha, hf, hGM, hom]
  have hB : 0 < d.gammaB := by
    unfold Datum.gammaB
    rw [hx, hm, ha, hGM]
    norm_num
  constructor
  · rw [C38_dk_false d (by rw [ha]; norm_num) hB.ne', hf]
    norm_num
  · unfold Datum.gammaB Datum.gammaA Datum.b
    rw [hx, hm, ha, hGM, hf]
    norm_num

end Verif.CRS
