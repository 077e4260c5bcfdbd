import Verif.Model.PoleTide
import Verif.Spec.PoleTide
import Verif.Props.SolidRequests
import Verif.Props.Spatial
import Verif.Props.Datum
import Mathlib.Analysis.Calculus.Deriv.Pow

/-!
# Pole tides: C41 and C58
-/

namespace Verif.PoleTide

open Verif Real Spec SolidEarth

/-! ### Angles -/

theorem radius_pos {X : Vec} (h : X ≠ 0) : 0 < radius X := by
  rw [radius, sqrt_pos]
  by_contra hn
  apply h
  have h0 := sq_nonneg (X 0)
  have h1 := sq_nonneg (X 1)
  have h2 := sq_nonneg (X 2)
  refine vec_ext ?_ ?_ ?_ <;> refine pow_eq_zero_iff (two_ne_zero) |>.1 ?_ <;>
    linarith

theorem radius_sq (X : Vec) : radius X ^ 2 = X 0 ^ 2 + X 1 ^ 2 + X 2 ^ 2 := sq_sqrt (by positivity)

theorem latitude_spec {X : Vec} (h : X ≠ 0) : ∃ lat, latitude X = some lat ∧
    sin lat = X 2 / radius X ∧ cos lat = sqrt (X 0 ^ 2 + X 1 ^ 2) / radius X := by
  have hr := radius_pos h
  have hsq := radius_sq X
  have hρ := sq_sqrt (by positivity : 0 ≤ X 0 ^ 2 + X 1 ^ 2)
  rw [latitude]
  by_cases h0 : sqrt (X 0 ^ 2 + X 1 ^ 2) = 0
  · rw [if_pos h0, h0]
    rw [h0] at hρ
    have hz : radius X ^ 2 = X 2 ^ 2 := by linarith
    rcases lt_trichotomy (X 2) 0 with h2 | h2 | h2
    · refine ⟨-(π / 2), by rw [if_neg h2.not_gt, if_pos h2], ?_, by simp⟩
      have : radius X = -X 2 := by nlinarith
      rw [sin_neg, sin_pi_div_two, this, div_neg, div_self h2.ne]
    · rw [h2] at hz
      nlinarith
    · refine ⟨π / 2, by rw [if_pos h2], ?_, by simp⟩
      have : radius X = X 2 := by nlinarith
      rw [sin_pi_div_two, this]
      field_simp
  · have hpos : 0 < sqrt (X 0 ^ 2 + X 1 ^ 2) := lt_of_le_of_ne (sqrt_nonneg _) (Ne.symm h0)
    refine ⟨_, by rw [if_neg h0], ?_, ?_⟩ <;>
    · have hs : sqrt (1 + (X 2 / sqrt (X 0 ^ 2 + X 1 ^ 2)) ^ 2) =
          radius X / sqrt (X 0 ^ 2 + X 1 ^ 2) := by
        rw [sqrt_eq_iff_mul_self_eq (by positivity) (by positivity)]
        field_simp
        linarith
      first
      | rw [sin_arctan, hs]; field_simp
      | rw [cos_arctan, hs]; field_simp

theorem longitude_spec (X : Vec) :
    sqrt (X 0 ^ 2 + X 1 ^ 2) * cos (Spatial.arctan2 (X 1) (X 0)) = X 0 ∧
    sqrt (X 0 ^ 2 + X 1 ^ 2) * sin (Spatial.arctan2 (X 1) (X 0)) = X 1 := by
  have e : sqrt (X 0 ^ 2 + X 1 ^ 2) = ‖(⟨X 0, X 1⟩ : ℂ)‖ := by
    rw [Complex.norm_def, Complex.normSq_mk, sq, sq]
  rw [e, Spatial.arctan2]
  exact ⟨Complex.norm_mul_cos_arg _, Complex.norm_mul_sin_arg _⟩

/-! ### The potential -/

theorem poleChange_eq (Omega m1 m2 : ℝ) (X : Vec) :
    poleChange Omega m1 m2 X = -Omega ^ 2 * X 2 * (m1 * X 0 + m2 * X 1) := by
  rw [poleChange]
  have e : (fun s : ℝ => centrifugal (Omega • ![s * m1, s * m2, 1]) X) = fun s =>
      1 / 2 * Omega ^ 2 * (X 0 ^ 2 + X 1 ^ 2) +
        s * (-Omega ^ 2 * X 2 * (m1 * X 0 + m2 * X 1)) +
        s ^ 2 * (1 / 2 * Omega ^ 2 * ((m1 ^ 2 + m2 ^ 2) * (X 0 ^ 2 + X 1 ^ 2 + X 2 ^ 2) -
          (m1 * X 0 + m2 * X 1) ^ 2)) := by
    funext s
    simp only [centrifugal, dotProduct, Fin.sum_univ_three, Pi.smul_apply, smul_eq_mul,
      Matrix.cons_val_zero, Matrix.cons_val_one, Matrix.cons_val]
    ring
  rw [e]
  have h := (((hasDerivAt_id (0 : ℝ)).mul_const (-Omega ^ 2 * X 2 * (m1 * X 0 + m2 * X 1))).const_add
    (1 / 2 * Omega ^ 2 * (X 0 ^ 2 + X 1 ^ 2))).add (((hasDerivAt_id (0 : ℝ)).pow 2).mul_const
    (1 / 2 * Omega ^ 2 * ((m1 ^ 2 + m2 ^ 2) * (X 0 ^ 2 + X 1 ^ 2 + X 2 ^ 2) -
          (m1 * X 0 + m2 * X 1) ^ 2)))
  have h' := h.deriv
  simp only [id, Nat.cast_ofNat, one_mul, ne_eq] at h'
  refine Eq.trans ?_ (h'.trans ?_)
  · rfl
  · simp

theorem grad_poleChange (Omega m1 m2 : ℝ) (X : Vec) : grad (poleChange Omega m1 m2) X =
    ![-Omega ^ 2 * X 2 * m1, -Omega ^ 2 * X 2 * m2, -Omega ^ 2 * (m1 * X 0 + m2 * X 1)] := by
  have key : ∀ (A B C : ℝ), deriv (fun s : ℝ => A + s * B + s ^ 2 * C) 0 = B := by
    intro A B C
    have h := (((hasDerivAt_id (0 : ℝ)).mul_const B).const_add A).add
      (((hasDerivAt_id (0 : ℝ)).pow 2).mul_const C)
    have h' := h.deriv
    simp only [id, Nat.cast_ofNat, one_mul, ne_eq] at h'
    refine Eq.trans ?_ (h'.trans ?_)
    · rfl
    · simp
  refine vec_ext ?_ ?_ ?_ <;> rw [grad] <;> simp only [poleChange_eq]
  · have e : (fun s : ℝ => -Omega ^ 2 * (X + s • (Pi.single (0 : Fin 3) (1 : ℝ) : Vec)) 2 *
        (m1 * (X + s • (Pi.single (0 : Fin 3) (1 : ℝ) : Vec)) 0 +
          m2 * (X + s • (Pi.single (0 : Fin 3) (1 : ℝ) : Vec)) 1)) = fun s =>
        (-Omega ^ 2 * X 2 * (m1 * X 0 + m2 * X 1)) + s * (-Omega ^ 2 * X 2 * m1) + s ^ 2 * 0 := by
      funext s
      simp [Pi.single_apply]
      ring
    rw [e, key]; rfl
  · have e : (fun s : ℝ => -Omega ^ 2 * (X + s • (Pi.single (1 : Fin 3) (1 : ℝ) : Vec)) 2 *
        (m1 * (X + s • (Pi.single (1 : Fin 3) (1 : ℝ) : Vec)) 0 +
          m2 * (X + s • (Pi.single (1 : Fin 3) (1 : ℝ) : Vec)) 1)) = fun s =>
        (-Omega ^ 2 * X 2 * (m1 * X 0 + m2 * X 1)) + s * (-Omega ^ 2 * X 2 * m2) + s ^ 2 * 0 := by
      funext s
      simp [Pi.single_apply]
      ring
    rw [e, key]; rfl
  · have e : (fun s : ℝ => -Omega ^ 2 * (X + s • (Pi.single (2 : Fin 3) (1 : ℝ) : Vec)) 2 *
        (m1 * (X + s • (Pi.single (2 : Fin 3) (1 : ℝ) : Vec)) 0 +
          m2 * (X + s • (Pi.single (2 : Fin 3) (1 : ℝ) : Vec)) 1)) = fun s =>
        (-Omega ^ 2 * X 2 * (m1 * X 0 + m2 * X 1)) +
          s * (-Omega ^ 2 * (m1 * X 0 + m2 * X 1)) + s ^ 2 * 0 := by
      funext s
      simp [Pi.single_apply]
      ring
    rw [e, key]; rfl

theorem length3_eq (X : Vec) : length3 X = radius X := by
  rw [length3, radius]
  congr 1
  simp only [dotProduct, Fin.sum_univ_three]
  ring

theorem elastic_pole (h l g Omega m1 m2 : ℝ) {X : Vec} (hX : X ≠ 0) :
    elastic h l g (poleChange Omega m1 m2) X =
      (-(h - 2 * l) * Omega ^ 2 * X 2 * (m1 * X 0 + m2 * X 1) / g / radius X) • X +
      (l * radius X / g * -Omega ^ 2) • ![X 2 * m1, X 2 * m2, m1 * X 0 + m2 * X 1] := by
  have hr := radius_pos hX
  rw [elastic, length3_eq, grad_poleChange, poleChange_eq]
  have hsq := radius_sq X
  generalize radius X = r at *
  have hd : dotProduct ![-Omega ^ 2 * X 2 * m1, -Omega ^ 2 * X 2 * m2,
      -Omega ^ 2 * (m1 * X 0 + m2 * X 1)] (r⁻¹ • X) =
      -(2 * Omega ^ 2 * X 2 * (m1 * X 0 + m2 * X 1)) * r⁻¹ := by
    simp only [dotProduct, Fin.sum_univ_three, Pi.smul_apply, smul_eq_mul, Matrix.cons_val_zero,
      Matrix.cons_val_one, Matrix.cons_val]
    ring
  rw [hd]
  refine vec_ext ?_ ?_ ?_ <;>
    simp only [Pi.add_apply, Pi.sub_apply, Pi.smul_apply, smul_eq_mul, Matrix.cons_val_zero,
      Matrix.cons_val_one, Matrix.cons_val] <;>
    field_simp <;> ring

/-- C41, the load pole tide.  For every station other than the centre of the Earth, on the axis or
off it, the displacement is the elastic response to the change of the centrifugal potential by the
offset of the pole from the secular pole (given in seconds of arc). -/
theorem C41_load (gamma omega h2 l2 : ℝ) (m : ℝ × ℝ) (X : Vec) (hX : X ≠ 0) :
    loadRow gamma omega h2 l2 m X =
      some (elastic h2 l2 gamma (poleChange omega (arcsec * m.1) (arcsec * m.2)) X) := by
  obtain ⟨lat, hlat, hs, hc⟩ := latitude_spec hX
  obtain ⟨h0, h1⟩ := longitude_spec X
  have hr := radius_pos hX
  have hsq := radius_sq X
  have hρ := sq_sqrt (by positivity : 0 ≤ X 0 ^ 2 + X 1 ^ 2)
  have ha : arcsec = atr := by rw [arcsec, atr]; ring
  rw [loadRow, hlat, Option.map_some, elastic_pole _ _ _ _ _ _ hX, ha]
  refine congrArg some ?_
  have c2 : cos (2 * (π / 2 - lat)) = 1 - 2 * cos lat ^ 2 := by
    rw [cos_two_mul, cos_pi_div_two_sub, sin_sq]; ring
  have s2 : sin (2 * (π / 2 - lat)) = 2 * cos lat * sin lat := by
    rw [sin_two_mul, cos_pi_div_two_sub, sin_pi_div_two_sub]
  have hcs := sin_sq_add_cos_sq (Spatial.arctan2 (X 1) (X 0))
  dsimp only
  rw [c2, s2, cos_pi_div_two_sub]
  simp only [columns, sin_pi_div_two_sub, cos_pi_div_two_sub, hs, hc]
  generalize sqrt (X 0 ^ 2 + X 1 ^ 2) = rho at *
  generalize sin (Spatial.arctan2 (X 1) (X 0)) = sl at *
  generalize cos (Spatial.arctan2 (X 1) (X 0)) = cl at *
  generalize radius X = r at *
  have hz : r ^ 2 = rho ^ 2 + X 2 ^ 2 := by linarith
  have hl : rho * (m.1 * cl + m.2 * sl) = m.1 * X 0 + m.2 * X 1 := by
    linear_combination m.1 * h0 + m.2 * h1
  refine vec_ext ?_ ?_ ?_ <;>
    simp only [Pi.add_apply, Pi.smul_apply, smul_eq_mul, Matrix.cons_val_zero,
      Matrix.cons_val_one, Matrix.cons_val, Matrix.of_apply, Matrix.cons_val']
  · rw [← h0, ← h1]
    have e : ∀ x : ℝ, x / (2 * gamma) = x * gamma⁻¹ / 2 := fun x => by
      rw [div_eq_mul_inv, mul_inv]; ring
    simp only [e, div_eq_mul_inv _ gamma]
    field_simp
    linear_combination (-atr * omega ^ 2 * gamma⁻¹ * r ^ 2 * l2 * X 2 * m.1) * hcs
  · rw [← h0, ← h1]
    have e : ∀ x : ℝ, x / (2 * gamma) = x * gamma⁻¹ / 2 := fun x => by
      rw [div_eq_mul_inv, mul_inv]; ring
    simp only [e, div_eq_mul_inv _ gamma]
    field_simp
    linear_combination (-atr * omega ^ 2 * gamma⁻¹ * r ^ 2 * l2 * X 2 * m.2) * hcs
  · rw [← h0, ← h1]
    have e : ∀ x : ℝ, x / (2 * gamma) = x * gamma⁻¹ / 2 := fun x => by
      rw [div_eq_mul_inv, mul_inv]; ring
    simp only [e, div_eq_mul_inv _ gamma]
    field_simp
    linear_combination (2 * atr * omega ^ 2 * gamma⁻¹ * l2 * rho * (m.1 * cl + m.2 * sl)) * hz

/-- C41: the components of the load pole tide at distance `r`, latitude `p` and longitude `l`, away
from the axis, in the form of the IERS Conventions: radial, along the colatitude `theta` (towards
the south) and along the longitude. -/
theorem C41_components (gamma omega h2 l2 : ℝ) (m : ℝ × ℝ) {r p : ℝ} (hr : 0 < r) (hp : 0 < cos p)
    (l : ℝ) :
    let theta := π / 2 - p
    let c := arcsec * (omega ^ 2 * r ^ 2) / gamma
    let Sr := -(h2 * c / 2) * sin (2 * theta) * (m.1 * cos l + m.2 * sin l)
    let Stheta := -(l2 * c) * cos (2 * theta) * (m.1 * cos l + m.2 * sin l)
    let Slambda := l2 * c * cos theta * (m.1 * sin l - m.2 * cos l)
    loadRow gamma omega h2 l2 m (point r p l) = some (local3 Sr (-Stheta) Slambda p l) := by
  have hX : point r p l ≠ 0 := by
    intro h
    have h0 := congrFun h 0
    have h1 := congrFun h 1
    rw [point_0] at h0
    rw [point_1] at h1
    simp only [Pi.zero_apply, mul_eq_zero, hr.ne', hp.ne', false_or] at h0 h1
    have := sin_sq_add_cos_sq l
    rw [h0, h1] at this
    norm_num at this
  dsimp only
  rw [C41_load _ _ _ _ _ _ hX, elastic_pole _ _ _ _ _ _ hX, radius_point hr]
  refine congrArg some ?_
  have c2 : cos (2 * (π / 2 - p)) = 1 - 2 * cos p ^ 2 := by
    rw [cos_two_mul, cos_pi_div_two_sub, sin_sq]; ring
  have s2 : sin (2 * (π / 2 - p)) = 2 * cos p * sin p := by
    rw [sin_two_mul, cos_pi_div_two_sub, sin_pi_div_two_sub]
  rw [c2, s2, cos_pi_div_two_sub]
  have hcs := sin_sq_add_cos_sq l
  have hp2 := sin_sq_add_cos_sq p
  simp only [div_eq_mul_inv _ gamma]
  refine vec_ext ?_ ?_ ?_ <;>
    simp only [Pi.add_apply, Pi.smul_apply, smul_eq_mul, Matrix.cons_val_zero,
      Matrix.cons_val_one, Matrix.cons_val, point_0, point_1, point_2, local3_0, local3_1,
      local3_2] <;>
    field_simp
  · linear_combination (arcsec * omega ^ 2 * gamma⁻¹ * l2 * sin p * m.1) * hcs
  · linear_combination (arcsec * omega ^ 2 * gamma⁻¹ * l2 * sin p * m.2) * hcs
  · linear_combination (2 * arcsec * omega ^ 2 * gamma⁻¹ * l2 * (m.1 * cos l + m.2 * sin l)) * hp2

/-- C41: with the default parameters and a distance from the centre between 6356 and 6379 km, the
coefficients are those of the IERS Conventions (2010), equation 7.26: 33, 9 and 9 mm for each second
of arc, to the precision given there. -/
theorem C41_millimetres (r : ℝ) (h1 : 6356e3 ≤ r) (h2 : r ≤ 6379e3) :
    let c := arcsec * (7.2921151467e-5 ^ 2 * r ^ 2) / 9.80665
    |0.6207 * c / 2 - 0.033| < 0.0005 ∧ |0.0836 * c - 0.009| < 0.0005 := by
  have hl := pi_gt_d4
  have hu := pi_lt_d4
  have hr1 : (6356e3 : ℝ) ^ 2 ≤ r ^ 2 := pow_le_pow_left₀ (by norm_num) h1 2
  have hr2 : r ^ 2 ≤ (6379e3 : ℝ) ^ 2 := pow_le_pow_left₀ (by linarith) h2 2
  have e1 : (3.1415 : ℝ) * (6356e3 : ℝ) ^ 2 ≤ π * r ^ 2 :=
    mul_le_mul hl.le hr1 (by norm_num) (by linarith)
  have e2 : π * r ^ 2 ≤ (3.1416 : ℝ) * (6379e3 : ℝ) ^ 2 :=
    mul_le_mul hu.le hr2 (by positivity) (by norm_num)
  have e : arcsec * (7.2921151467e-5 ^ 2 * r ^ 2) / 9.80665 =
      π * r ^ 2 * (7.2921151467e-5 ^ 2 / 648000 / 9.80665) := by rw [arcsec]; ring
  dsimp only
  rw [e]
  generalize π * r ^ 2 = x at *
  norm_num at e1 e2 ⊢
  constructor <;> rw [abs_lt] <;> constructor <;> linarith

/-- C41, linearity: for every station but the centre of the Earth the load pole tide is a linear
function of the offset of the pole, and so is the ocean pole tide for all coefficients. -/
theorem C41_linear :
    (∀ (gamma omega h2 l2 : ℝ) (X : Vec), X ≠ 0 → ∃ L : ℝ × ℝ →ₗ[ℝ] Vec, ∀ m,
      loadRow gamma omega h2 l2 m X = some (L m)) ∧
    (∀ (K : ℝ) (g2 : ℂ) (U : Fin 3 → ℂ), ∃ L : ℝ × ℝ →ₗ[ℝ] Vec, ∀ m, oceanRow K g2 m U = L m) := by
  constructor
  · intro gamma omega h2 l2 X hX
    refine ⟨⟨⟨fun m => elastic h2 l2 gamma (poleChange omega (arcsec * m.1) (arcsec * m.2)) X, ?_⟩,
      ?_⟩, fun m => C41_load _ _ _ _ _ _ hX⟩
    · intro m m'
      simp only [elastic_pole _ _ _ _ _ _ hX]
      refine vec_ext ?_ ?_ ?_ <;>
        simp only [Pi.add_apply, Pi.smul_apply, smul_eq_mul, Matrix.cons_val_zero,
          Matrix.cons_val_one, Matrix.cons_val, Prod.fst_add, Prod.snd_add] <;> ring
    · intro k m
      simp only [elastic_pole _ _ _ _ _ _ hX, RingHom.id_apply]
      refine vec_ext ?_ ?_ ?_ <;>
        simp only [Pi.add_apply, Pi.smul_apply, smul_eq_mul, Matrix.cons_val_zero,
          Matrix.cons_val_one, Matrix.cons_val, Prod.smul_fst, Prod.smul_snd] <;> ring
  · intro K g2 U
    refine ⟨⟨⟨fun m => oceanRow K g2 m U, ?_⟩, ?_⟩, fun m => rfl⟩
    · intro m m'
      funext i
      simp only [oceanRow, Pi.add_apply, Prod.fst_add, Prod.snd_add]
      ring
    · intro k m
      funext i
      simp only [oceanRow, Pi.smul_apply, smul_eq_mul, Prod.smul_fst, Prod.smul_snd,
        RingHom.id_apply]
      ring

/-- C41, rotations: turning the station and the offset of the pole together about the axis of the
Earth turns the load pole tide. -/
theorem C41_turn (gamma omega h2 l2 x : ℝ) (m : ℝ × ℝ) (X : Vec) (hX : X ≠ 0) :
    loadRow gamma omega h2 l2 (cos x * m.1 - sin x * m.2, sin x * m.1 + cos x * m.2) (turn x X) =
      (loadRow gamma omega h2 l2 m X).map (turn x) := by
  have hcs := sin_sq_add_cos_sq x
  have hrad : radius (turn x X) = radius X := by
    rw [radius, radius]
    congr 1
    simp only [turn, Matrix.cons_val_zero, Matrix.cons_val_one, Matrix.cons_val]
    linear_combination (X 0 ^ 2 + X 1 ^ 2) * hcs
  have hX' : turn x X ≠ 0 := by
    intro h
    have := radius_pos hX
    rw [← hrad, h] at this
    simp [radius] at this
  rw [C41_load _ _ _ _ _ _ hX, C41_load _ _ _ _ _ _ hX', elastic_pole _ _ _ _ _ _ hX,
    elastic_pole _ _ _ _ _ _ hX', hrad, Option.map_some]
  refine congrArg some ?_
  have hm : arcsec * (cos x * m.1 - sin x * m.2) * turn x X 0 +
      arcsec * (sin x * m.1 + cos x * m.2) * turn x X 1 =
      arcsec * m.1 * X 0 + arcsec * m.2 * X 1 := by
    simp only [turn, Matrix.cons_val_zero, Matrix.cons_val_one]
    linear_combination (arcsec * m.1 * X 0 + arcsec * m.2 * X 1) * hcs
  dsimp only
  rw [hm]
  have h2' : turn x X 2 = X 2 := rfl
  rw [h2']
  refine vec_ext ?_ ?_ ?_ <;>
    simp only [turn, Pi.add_apply, Pi.smul_apply, smul_eq_mul, Matrix.cons_val_zero,
      Matrix.cons_val_one, Matrix.cons_val] <;> ring

/-- C41, the ocean pole tide: `K Re(conj(m) γ u)` for each component `u` of the coefficients, where
`m = mx + i my` is the offset of the pole, `γ` the Love number differential, and `K` the factor of
the IERS Conventions (2010), equation 7.29 and after. -/
theorem C41_ocean (gamma a GM omega rho : ℝ) (g2 : ℂ) (m : ℝ × ℝ) (U : Fin 3 → ℂ) (i : Fin 3) :
    let Hp := sqrt (8 * π / 15) * (omega ^ 2 * a ^ 4 / GM)
    let K := 4 * π * 6.67430e-11 * a * rho * Hp / (3 * gamma)
    oceanRow (oceanFactor gamma a GM omega rho) g2 m U i =
      K * arcsec * (starRingEnd ℂ ⟨m.1, m.2⟩ * g2 * U i).re := by
  dsimp only
  rw [oceanRow, oceanFactor, arcsec, atr]
  simp only [Complex.mul_re, Complex.mul_im, Complex.conj_re, Complex.conj_im]
  ring

theorem rows_mem {α : Type} {n : ℕ} {l l' : List α} (h : rows n l = .ok l') :
    ∀ x ∈ l', x ∈ l := by
  unfold rows at h
  split at h
  · cases h; exact fun x hx => hx
  · split at h
    · cases h
      intro x hx
      rw [List.mem_singleton]
      exact List.eq_of_mem_replicate hx
    · cases h

theorem mem_zipWith {α β γ : Type} {f : α → β → γ} : ∀ {l : List α} {l' : List β} {c : γ},
    c ∈ List.zipWith f l l' → ∃ a ∈ l, ∃ b ∈ l', c = f a b
  | [], _, c, h => by simp at h
  | _ :: _, [], c, h => by simp at h
  | a :: l, b :: l', c, h => by
    rw [List.zipWith_cons_cons, List.mem_cons] at h
    rcases h with h | h
    · exact ⟨a, by simp, b, by simp, h⟩
    · obtain ⟨a', ha, b', hb, e⟩ := mem_zipWith h
      exact ⟨a', by simp [ha], b', by simp [hb], e⟩

theorem offset_eq (P : Poles) (convention : String) (t : ℝ × ℝ) : offset P convention t =
    ((P.motion (t.1 + t.2 + 48622)).1 - (P.mean convention (t.1 + t.2 + 2448622.5)).1,
      -((P.motion (t.1 + t.2 + 48622)).2 - (P.mean convention (t.1 + t.2 + 2448622.5)).2)) := by
  have e1 : t.1 + (2400000.5 + 48622) + t.2 = t.1 + t.2 + 2448622.5 := by ring
  have e2 : t.1 + t.2 + 2448622.5 - 2400000.5 = t.1 + t.2 + 48622 := by ring
  rw [offset, e1, e2]

/-- C41: whenever the pole is at the secular pole, there is no displacement: neither by the load
pole tide, at stations other than the centre of the Earth, nor by the ocean pole tide, where there
are coefficients. -/
theorem C41_zero (P : Poles) (convention : String) (omega h2 l2 K : ℝ) (g2 : ℂ)
    (ts : List (ℝ × ℝ)) (hts : ∀ t ∈ ts, P.motion (t.1 + t.2 + 48622) =
      P.mean convention (t.1 + t.2 + 2448622.5)) :
    (∀ (pts : List (Vec × ℝ)) d, (∀ x ∈ pts, x.1 ≠ 0) →
      loadPoleTide P convention omega h2 l2 ts pts = .ok d → ∀ v ∈ d, v = some 0) ∧
    (∀ (pts : List (Option (Fin 3 → ℂ))) d, (∀ u ∈ pts, u ≠ none) →
      oceanPoleTide P convention K g2 ts pts = .ok d → ∀ v ∈ d, v = some 0) := by
  have hoff : ∀ (n : ℕ) m, rows n (ts.map (offset P convention)) = .ok m → ∀ x ∈ m, x = 0 := by
    intro n m hm x hx
    obtain ⟨t, ht, rfl⟩ := List.mem_map.1 (rows_mem hm x hx)
    rw [offset_eq, hts t ht]
    simp
  constructor
  · intro pts d hpts hd v hv
    rw [loadPoleTide] at hd
    cases hm : rows (max ts.length pts.length) (ts.map (offset P convention)) with
    | error e => rw [hm, error_bind] at hd; cases hd
    | ok m =>
      rw [hm, ok_bind] at hd
      cases hX : rows (max ts.length pts.length) pts with
      | error e => rw [hX, error_bind] at hd; cases hd
      | ok X =>
        rw [hX, ok_bind] at hd
        cases hd
        obtain ⟨a, ha, b, hb, rfl⟩ := mem_zipWith hv
        obtain ⟨L, hL⟩ := C41_linear.1 b.2 omega h2 l2 b.1 (hpts b (rows_mem hX b hb))
        rw [hL, hoff _ _ hm a ha, map_zero]
  · intro pts d hpts hd v hv
    rw [oceanPoleTide] at hd
    cases hm : rows (max ts.length pts.length) (ts.map (offset P convention)) with
    | error e => rw [hm, error_bind] at hd; cases hd
    | ok m =>
      rw [hm, ok_bind] at hd
      cases hX : rows (max ts.length pts.length) pts with
      | error e => rw [hX, error_bind] at hd; cases hd
      | ok X =>
        rw [hX, ok_bind] at hd
        cases hd
        obtain ⟨a, ha, b, hb, rfl⟩ := mem_zipWith hv
        obtain ⟨u, rfl⟩ := Option.ne_none_iff_exists'.1 (hpts b (rows_mem hX b hb))
        obtain ⟨L, hL⟩ := C41_linear.2 K g2 u
        rw [Option.map_some, hL, hoff _ _ hm a ha, map_zero]

/-- The hypotheses of `C41_zero` can be met, with a displacement for every point: a pole at the
secular pole, two stations and one time. -/
example : ∃ d, loadPoleTide ⟨fun _ _ => (1, 2), fun _ => (1, 2)⟩ "2018" 1 1 1 [(0, 0)]
    [(![1, 0, 0], 9), (![0, 0, 1], 9)] = .ok d ∧ d.length = 2 :=
  ⟨_, rfl, rfl⟩

/-! ### Requests -/

theorem rows_one {α : Type} (n : ℕ) (x : α) : rows n [x] = .ok (List.replicate n x) := by
  unfold rows
  split
  · rename_i h
    rw [← h]; rfl
  · rfl

/-- The three kinds of request, for a function that treats points and times one by one. -/
theorem byType_pointwise {α : Type} (o : ℝ × ℝ → ℝ × ℝ) (f : ℝ × ℝ → α → Option Vec)
    (run : List (ℝ × ℝ) → List α → Except PyErr (List (Option Vec)))
    (hrun : ∀ ts pts, run ts pts = do
      let m ← rows (max ts.length pts.length) (ts.map o)
      let X ← rows (max ts.length pts.length) pts
      .ok (List.zipWith f m X))
    (pts : List (α × Option (Matrix (Fin 3) (Fin 3) ℝ))) (times : List (ℝ × ℝ)) (ny nx : ℕ) :
    (pts.length = times.length → byType run "drift" ny nx pts times =
      .ok (.drift (List.zipWith (fun q t => thirdOrNaN q.2 (f (o t) q.1)) pts times))) ∧
    (byType run "time series" ny nx pts times =
      .ok (.series (pts.map fun q => times.map fun t => thirdOrNaN q.2 (f (o t) q.1)))) ∧
    (pts.length = ny * nx → 0 < ny * nx → byType run "grid" ny nx pts times =
      .ok (.grid (times.map fun t => pts.map fun q => thirdOrNaN q.2 (f (o t) q.1)))) := by
  refine ⟨?_, ?_, ?_⟩
  · intro hl
    rw [byType, if_neg (by decide), if_pos rfl, hrun, rows_eq (by simp [hl]), ok_bind,
      rows_eq (by simp [hl]), ok_bind, ok_bind, rows_eq (by simp [hl]), ok_bind,
      rows_eq (by simp [hl]), ok_bind]
    refine congrArg _ (congrArg _ ?_)
    apply List.ext_getElem
    · simp [hl]
    · intro i h1 h2
      simp
  · rw [byType, if_neg (by decide), if_neg (by decide), if_pos rfl]
    rw [pyMap_ok_of_forall (g := fun q => times.map fun t => thirdOrNaN q.2 (f (o t) q.1))]
    · rw [ok_bind]
    · intro q _
      rw [hrun, rows_eq (by simp), ok_bind, rows_eq (by simp), ok_bind, ok_bind]
      refine congrArg _ ?_
      apply List.ext_getElem
      · simp
      · intro i h1 h2
        simp
  · intro hl h0
    have hmax : max 1 (ny * nx) = ny * nx := by omega
    rw [byType, if_pos rfl]
    rw [pyMap_ok_of_forall (g := fun t => pts.map fun q => thirdOrNaN q.2 (f (o t) q.1))]
    · rw [ok_bind]
    · intro t _
      rw [hrun, List.map_singleton, rows_one, ok_bind, rows_eq (by simp [hl, hmax]), ok_bind,
        ok_bind, rows_eq (by simp [hl, hmax]), ok_bind, reshape, if_pos (by simp [hl, hmax])]
      refine congrArg _ ?_
      apply List.ext_getElem
      · simp [hl, hmax]
      · intro i h1 h2
        simp

theorem requests {α : Type} (o : ℝ × ℝ → ℝ × ℝ) (f : ℝ × ℝ → α → Option Vec)
    (run : List (ℝ × ℝ) → List α → Except PyErr (List (Option Vec)))
    (hrun : ∀ ts pts, run ts pts = do
      let m ← rows (max ts.length pts.length) (ts.map o)
      let X ← rows (max ts.length pts.length) pts
      .ok (List.zipWith f m X))
    (pt : ℝ × ℝ → α × Option (Matrix (Fin 3) (Fin 3) ℝ)) (F : ℝ × ℝ → ℝ × ℝ → Option ℝ)
    (pts times : List (ℝ × ℝ)) (ny nx : ℕ)
    (hval : ∀ q ∈ pts, ∀ t, thirdOrNaN (pt q).2 (f (o t) (pt q).1) = F q t) :
    (pts.length = times.length → byType run "drift" ny nx (pts.map pt) times =
      .ok (.drift (List.zipWith F pts times))) ∧
    (byType run "time series" ny nx (pts.map pt) times =
      .ok (.series (pts.map fun q => times.map (F q)))) ∧
    (pts.length = ny * nx → 0 < ny * nx → byType run "grid" ny nx (pts.map pt) times =
      .ok (.grid (times.map fun t => pts.map fun q => F q t))) := by
  obtain ⟨c1, c2, c3⟩ := byType_pointwise o f run hrun (pts.map pt) times ny nx
  refine ⟨fun hl => ?_, ?_, fun hl h0 => ?_⟩
  · rw [c1 (by simpa using hl), List.zipWith_map_left]
    refine congrArg _ (congrArg _ ?_)
    apply List.ext_getElem
    · simp
    · intro i i1 i2
      simp only [List.getElem_zipWith]
      exact hval _ (List.getElem_mem _) _
  · rw [c2, List.map_map]
    refine congrArg _ (congrArg _ ?_)
    apply List.map_congr_left
    intro q hq
    apply List.map_congr_left
    intro t _
    exact hval q hq t
  · rw [c3 (by simpa using hl) h0]
    refine congrArg _ (congrArg _ ?_)
    apply List.map_congr_left
    intro t _
    rw [List.map_map]
    apply List.map_congr_left
    intro q hq
    exact hval q hq t

theorem lower_types : ∀ s ∈ ["grid", "drift", "time series"], String.toLower s = s := by
  decide +kernel

theorem place_facts (dm : CRS.Datum) (ha : 0 < dm.a) (hf0 : 0 ≤ dm.flat) (hf1 : dm.flat < 1)
    (q : ℝ × ℝ) (h1 : -90 ≤ q.2) (h2 : q.2 ≤ 90) : place dm q ≠ 0 ∧
    place dm q 0 = sqrt (place dm q 0 ^ 2 + place dm q 1 ^ 2) * cos (π / 180 * q.1) ∧
    place dm q 1 = sqrt (place dm q 0 ^ 2 + place dm q 1 ^ 2) * sin (π / 180 * q.1) := by
  have hN : 0 < Spatial.primeVertical dm.a dm.flat (q.2 * (π / 180)) := by
    rw [Spatial.primeVertical, Spatial.ecc1_sq ha hf0 (by linarith)]
    have := Spatial.radicand_pos hf1 hf0 (q.2 * (π / 180))
    positivity
  have hc : 0 ≤ cos (q.2 * (π / 180)) :=
    cos_nonneg_of_neg_pi_div_two_le_of_le (by nlinarith [pi_pos]) (by nlinarith [pi_pos])
  have e0 : place dm q 0 = Spatial.primeVertical dm.a dm.flat (q.2 * (π / 180)) *
      cos (q.2 * (π / 180)) * cos (π / 180 * q.1) := by
    have := Spatial.cos_wrapped q.1
    simp only [place, Spatial.toCartesian, Matrix.cons_val_zero, this, add_zero]
    rw [mul_comm q.1]
  have e1 : place dm q 1 = Spatial.primeVertical dm.a dm.flat (q.2 * (π / 180)) *
      cos (q.2 * (π / 180)) * sin (π / 180 * q.1) := by
    have := Spatial.sin_wrapped q.1
    simp only [place, Spatial.toCartesian, Matrix.cons_val_one, this, add_zero, Matrix.cons_val_zero]
    rw [mul_comm q.1]
  have e2 : place dm q 2 = Spatial.primeVertical dm.a dm.flat (q.2 * (π / 180)) *
      (1 - dm.flat) ^ 2 * sin (q.2 * (π / 180)) := by
    simp only [place, Spatial.toCartesian, Matrix.cons_val, add_zero,
      Spatial.ecc1_sq ha hf0 (by linarith : dm.flat ≤ 2)]
    ring
  have hcs := sin_sq_add_cos_sq (π / 180 * q.1)
  have hcs' := sin_sq_add_cos_sq (q.2 * (π / 180))
  have hrho : sqrt (place dm q 0 ^ 2 + place dm q 1 ^ 2) =
      Spatial.primeVertical dm.a dm.flat (q.2 * (π / 180)) * cos (q.2 * (π / 180)) := by
    rw [sqrt_eq_iff_mul_self_eq (by positivity) (by positivity), e0, e1]
    linear_combination (Spatial.primeVertical dm.a dm.flat (q.2 * (π / 180)) ^ 2 *
      cos (q.2 * (π / 180)) ^ 2) * hcs
  refine ⟨?_, by rw [hrho, ← e0], by rw [hrho, ← e1]⟩
  intro h0
  have z0 : place dm q 0 = 0 := congrFun h0 0
  have z1 : place dm q 1 = 0 := congrFun h0 1
  have z2 : place dm q 2 = 0 := congrFun h0 2
  rw [z0, z1] at hrho
  have hcz : cos (q.2 * (π / 180)) = 0 := by
    simp at hrho
    rcases hrho with h | h
    · exact absurd h hN.ne'
    · exact h
  rw [e2] at z2
  have hf : (0 : ℝ) < (1 - dm.flat) ^ 2 := by have : 0 < 1 - dm.flat := by linarith
                                              positivity
  have hsz : sin (q.2 * (π / 180)) = 0 := by
    rcases mul_eq_zero.1 z2 with h | h
    · exact absurd h (by positivity)
    · exact h
  rw [hcz, hsz] at hcs'
  norm_num at hcs'

/-- The angles of a location and the direction of the vertical. -/
theorem angles_spec (dm : CRS.Datum) (ha : 0 < dm.a) (hf0 : 0 ≤ dm.flat) (hf1 : dm.flat < 1)
    (q : ℝ × ℝ) (h1 : -90 ≤ q.2) (h2 : q.2 ≤ 90) : ∃ lat,
    latitude (place dm q) = some lat ∧ lat = arcsin (place dm q 2 / radius (place dm q)) ∧
    angles dm q = some (π / 2 - lat, π / 180 * q.1) ∧
    cos (π / 2 - lat) = place dm q 2 / radius (place dm q) ∧
    (![cos (π / 180 * q.1) * sin (π / 2 - lat), sin (π / 180 * q.1) * sin (π / 2 - lat),
      cos (π / 2 - lat)] : Vec) = (radius (place dm q))⁻¹ • place dm q := by
  obtain ⟨hX, hx, hy⟩ := place_facts dm ha hf0 hf1 q h1 h2
  obtain ⟨lat, hlat, hs, hc⟩ := latitude_spec hX
  have hcos : 0 ≤ cos lat := by
    rw [hc]; have := radius_pos hX; positivity
  have hran : -(π / 2) ≤ lat ∧ lat ≤ π / 2 := by
    rw [latitude] at hlat
    split at hlat
    · split at hlat
      · cases hlat; constructor <;> linarith [pi_pos]
      · split at hlat
        · cases hlat; constructor <;> linarith [pi_pos]
        · cases hlat
    · cases hlat
      exact ⟨(neg_pi_div_two_lt_arctan _).le, (arctan_lt_pi_div_two _).le⟩
  refine ⟨lat, hlat, ?_, ?_, by rw [cos_pi_div_two_sub, hs], ?_⟩
  · rw [← hs, arcsin_sin hran.1 hran.2]
  · rw [angles, hlat, Option.map_some]
    have : π / 180 * (90 - lat / (π / 180)) = π / 2 - lat := by
      field_simp; ring
    rw [this]
  · rw [sin_pi_div_two_sub, cos_pi_div_two_sub, hs, hc]
    refine vec_ext ?_ ?_ ?_ <;>
      simp only [Matrix.cons_val_zero, Matrix.cons_val_one, Matrix.cons_val, Pi.smul_apply,
        smul_eq_mul]
    · conv_rhs => rw [hx]
      ring
    · conv_rhs => rw [hy]
      ring
    · ring

theorem lptMatrix_up {th ph : ℝ} {v : Vec}
    (h : (![cos ph * sin th, sin ph * sin th, cos th] : Vec) = v) : lptMatrix th ph 2 = v := by
  rw [← h]
  refine vec_ext ?_ ?_ ?_ <;> simp [lptMatrix]

/-- The matrix of a load pole tide request is a rotation: its rows are orthonormal and right-handed. -/
theorem C41_rotation (th ph : ℝ) :
    lptMatrix th ph * (lptMatrix th ph).transpose = 1 ∧ (lptMatrix th ph).det = 1 := by
  have h1 := sin_sq_add_cos_sq th
  have h2 := sin_sq_add_cos_sq ph
  constructor
  · ext i j
    fin_cases i <;> fin_cases j <;>
      simp [lptMatrix, Matrix.mul_apply, Fin.sum_univ_three] <;>
      first
      | linear_combination cos th ^ 2 * h2 + h1
      | linear_combination sin th ^ 2 * h2 + h1
      | linear_combination sin th * cos th * h2
      | linear_combination h2
      | ring
  · rw [lptMatrix, Matrix.det_fin_three]
    simp
    nlinarith [h1, h2]

theorem third_elastic (h l g Omega m1 m2 : ℝ) {X : Vec} (hX : X ≠ 0)
    (R : Matrix (Fin 3) (Fin 3) ℝ) (hR : R 2 = (radius X)⁻¹ • X) :
    third R (elastic h l g (poleChange Omega m1 m2) X) = h * poleChange Omega m1 m2 X / g := by
  have hr := radius_pos hX
  have hsq := radius_sq X
  rw [elastic_pole _ _ _ _ _ _ hX, poleChange_eq, third, hR]
  generalize radius X = r at *
  simp only [Pi.add_apply, Pi.smul_apply, smul_eq_mul, Matrix.cons_val_zero,
      Matrix.cons_val_one, Matrix.cons_val, div_eq_mul_inv _ g]
  field_simp
  linear_combination (-g⁻¹ * Omega ^ 2 * X 2 * (m1 * X 0 + m2 * X 1) * (-(h - 2 * l))) * hsq

/-- The rotation matrix is orthogonal. -/
theorem columns_inv (th ph : ℝ) : (columns th ph)⁻¹ = (columns th ph).transpose := by
  apply Matrix.inv_eq_left_inv
  have hcs := sin_sq_add_cos_sq th
  have hcs' := sin_sq_add_cos_sq ph
  ext i j
  fin_cases i <;> fin_cases j <;>
    simp only [columns, Matrix.mul_apply, Fin.sum_univ_three, Matrix.one_apply,
      Matrix.transpose_apply, Matrix.of_apply, Matrix.cons_val', Matrix.cons_val_zero,
      Matrix.cons_val_one, Matrix.cons_val, Fin.zero_eta, Fin.mk_one, Fin.reduceFinMk, Fin.reduceEq,
      if_true, if_false, Matrix.empty_val', Matrix.cons_val_fin_one]
  · linear_combination cos th ^ 2 * hcs' + hcs
  · ring
  · linear_combination cos th * sin th * hcs'
  · ring
  · linear_combination hcs'
  · ring
  · linear_combination cos th * sin th * hcs'
  · ring
  · linear_combination sin th ^ 2 * hcs' + hcs

/-- The offset of the pole from the secular pole at a time given in days since 1992-01-01 with its
correction: along the meridians of Greenwich and of 90 degrees east. -/
noncomputable def poleOffset (P : Poles) (convention : String) (t : ℝ × ℝ) : ℝ × ℝ :=
  ((P.motion (t.1 + t.2 + 48622)).1 - (P.mean convention (t.1 + t.2 + 2448622.5)).1,
    (P.mean convention (t.1 + t.2 + 2448622.5)).2 - (P.motion (t.1 + t.2 + 48622)).2)

/-- `h2 V/γ` at a location and a time: `V` is the change of the centrifugal potential at the
location on the ellipsoid, `γ` the normal gravity of the ellipsoid at its geocentric colatitude. -/
noncomputable def loadValue (P : Poles) (convention : String) (dm : CRS.Datum) (q t : ℝ × ℝ) : ℝ :=
  let X := place dm q
  let m := poleOffset P convention t
  0.6207 * poleChange dm.omega (arcsec * m.1) (arcsec * m.2) X /
    dm.gamma0 (arccos (X 2 / length3 X))

theorem load_value (P : Poles) (convention : String) (dm : CRS.Datum) (ha : 0 < dm.a)
    (hf0 : 0 ≤ dm.flat) (hf1 : dm.flat < 1) (q : ℝ × ℝ) (b1 : -90 ≤ q.2) (b2 : q.2 ≤ 90)
    (t : ℝ × ℝ) :
    thirdOrNaN (lptPoint dm q).2
      (loadRow (lptPoint dm q).1.2 dm.omega 0.6207 0.0836 (offset P convention t)
        (lptPoint dm q).1.1) = some (loadValue P convention dm q t) := by
  obtain ⟨lat, hlat, harc, hang, hcos, hvec⟩ := angles_spec dm ha hf0 hf1 q b1 b2
  obtain ⟨hX, -⟩ := place_facts dm ha hf0 hf1 q b1 b2
  have hoff : offset P convention t = poleOffset P convention t := by
    rw [offset_eq, poleOffset, neg_sub]
  have hth : arccos (place dm q 2 / length3 (place dm q)) = π / 2 - lat := by
    rw [length3_eq, arccos, harc]
  have hpt : lptPoint dm q = ((place dm q, dm.gamma0 (π / 2 - lat)),
      some (lptMatrix (π / 2 - lat) (π / 180 * q.1))) := by
    rw [lptPoint, hang]; rfl
  rw [hpt]
  dsimp only
  rw [loadValue, hth, C41_load _ _ _ _ _ _ hX, hoff, thirdOrNaN, Option.bind_some, Option.map_some]
  exact congrArg some (third_elastic _ _ _ _ _ _ hX _ (lptMatrix_up hvec))

theorem load_pointwise (P : Poles) (convention : String) (omega h2 l2 : ℝ)
    (pt : ℝ × ℝ → (Vec × ℝ) × Option (Matrix (Fin 3) (Fin 3) ℝ)) (F : ℝ × ℝ → ℝ × ℝ → Option ℝ)
    (pts times : List (ℝ × ℝ)) (ny nx : ℕ)
    (hval : ∀ q ∈ pts, ∀ t, thirdOrNaN (pt q).2 (loadRow (pt q).1.2 omega h2 l2
      (offset P convention t) (pt q).1.1) = F q t) :
    (pts.length = times.length → byType (loadPoleTide P convention omega h2 l2) "drift"
        ny nx (pts.map pt) times = .ok (.drift (List.zipWith F pts times))) ∧
    (byType (loadPoleTide P convention omega h2 l2) "time series" ny nx (pts.map pt) times =
      .ok (.series (pts.map fun q => times.map (F q)))) ∧
    (pts.length = ny * nx → 0 < ny * nx →
      byType (loadPoleTide P convention omega h2 l2) "grid" ny nx (pts.map pt) times =
      .ok (.grid (times.map fun t => pts.map fun q => F q t))) :=
  requests (α := Vec × ℝ) (offset P convention) (fun m x => loadRow x.2 omega h2 l2 m x.1)
    (loadPoleTide P convention omega h2 l2) (fun ts pts => rfl) pt F pts times ny nx hval

theorem load_requests (P : Poles) (convention : String) (dm : CRS.Datum) (ha : 0 < dm.a)
    (hf0 : 0 ≤ dm.flat) (hf1 : dm.flat < 1) (pts times : List (ℝ × ℝ)) (ny nx : ℕ)
    (hpts : ∀ q ∈ pts, -90 ≤ q.2 ∧ q.2 ≤ 90) :
    (pts.length = times.length → byType (loadPoleTide P convention dm.omega 0.6207 0.0836) "drift"
        ny nx (pts.map (lptPoint dm)) times =
      .ok (.drift (List.zipWith (fun q t => some (loadValue P convention dm q t)) pts times))) ∧
    (byType (loadPoleTide P convention dm.omega 0.6207 0.0836) "time series" ny nx
        (pts.map (lptPoint dm)) times =
      .ok (.series (pts.map fun q => times.map fun t => some (loadValue P convention dm q t)))) ∧
    (pts.length = ny * nx → 0 < ny * nx →
      byType (loadPoleTide P convention dm.omega 0.6207 0.0836) "grid" ny nx
        (pts.map (lptPoint dm)) times =
      .ok (.grid (times.map fun t => pts.map fun q => some (loadValue P convention dm q t)))) :=
  load_pointwise P convention dm.omega 0.6207 0.0836 (lptPoint dm)
    (fun q t => some (loadValue P convention dm q t)) pts times ny nx
    (fun q hq t => load_value P convention dm ha hf0 hf1 q (hpts q hq).1 (hpts q hq).2 t)

/-- C58, load pole tides: a grid, a drift track and time series all return the same value
(`loadValue`) for a location and a time. -/
theorem C58_load (P : Poles) (ellipsoid convention : String)
    (he : ellipsoid.toUpper ∈ CRS.ellipsoids) (hc : convention ∈ conventions) :
    ∃ dm, CRS.datum ellipsoid "MKS" none none none none = .ok dm ∧
    ∀ (pts times : List (ℝ × ℝ)) (ny nx : ℕ), (∀ q ∈ pts, -90 ≤ q.2 ∧ q.2 ≤ 90) →
    let F := fun q t => some (loadValue P convention dm q t)
    (pts.length = times.length → lptDisplacements P "drift" ellipsoid convention ny nx pts times =
      .ok (.drift (List.zipWith F pts times))) ∧
    (lptDisplacements P "time series" ellipsoid convention ny nx pts times =
      .ok (.series (pts.map fun q => times.map (F q)))) ∧
    (pts.length = ny * nx → 0 < ny * nx →
      lptDisplacements P "grid" ellipsoid convention ny nx pts times =
      .ok (.grid (times.map fun t => pts.map fun q => F q t))) := by
  obtain ⟨dm, hdm, a1, -, f0, f1, -, -⟩ := (CRS.C38_names ellipsoid).1 he
  refine ⟨dm, hdm, ?_⟩
  intro pts times ny nx hpts
  have ha : 0 < dm.a := by linarith
  have red : ∀ type ∈ ["grid", "drift", "time series"],
      lptDisplacements P type ellipsoid convention ny nx pts times =
      byType (loadPoleTide P convention dm.omega 0.6207 0.0836) type ny nx (pts.map (lptPoint dm))
        times := by
    intro type ht
    rw [lptDisplacements, if_neg (not_not.2 he), if_neg (not_not.2 hc), lower_types _ ht,
      if_neg (not_not.2 ht), hdm, ok_bind]
  dsimp only
  rw [red _ (by simp), red _ (by simp), red _ (by simp)]
  exact load_requests P convention dm ha f0.le (by linarith) pts times ny nx hpts

/-- C58, ocean pole tides: a grid, a drift track and time series all return, for a location and a
time, `K Re(conj(m) γ u)`, where `u` is the radial coefficient at the longitude and geocentric
latitude of the location, and nothing where there is no coefficient. -/
theorem C58_ocean (P : Poles) (coef : ℝ → ℝ → Option (ℂ × ℂ × ℂ))
    (ellipsoid convention method : String)
    (he : ellipsoid.toUpper ∈ CRS.ellipsoids) (hc : convention ∈ conventions)
    (hm : method.toLower ∈ ["bilinear", "spline", "linear", "nearest"]) :
    ∃ dm, CRS.datum ellipsoid "MKS" none none none none = .ok dm ∧
    ∀ (pts times : List (ℝ × ℝ)) (ny nx : ℕ), (∀ q ∈ pts, -90 ≤ q.2 ∧ q.2 ≤ 90) →
    let Hp := sqrt (8 * π / 15) * (dm.omega ^ 2 * dm.a ^ 4 / dm.GM)
    let K := 4 * π * 6.67430e-11 * dm.a * 1025 * Hp / (3 * 9.7803278)
    let F : ℝ × ℝ → ℝ × ℝ → Option ℝ := fun q t =>
      let X := place dm q
      let m := poleOffset P convention t
      (coef q.1 (arcsin (X 2 / length3 X) * 180 / π)).map fun u =>
        K * arcsec * (starRingEnd ℂ ⟨m.1, m.2⟩ * ⟨0.6870, 0.0036⟩ * u.1).re
    (pts.length = times.length →
      optDisplacements P coef "drift" ellipsoid convention method ny nx pts times =
      .ok (.drift (List.zipWith F pts times))) ∧
    (optDisplacements P coef "time series" ellipsoid convention method ny nx pts times =
      .ok (.series (pts.map fun q => times.map (F q)))) ∧
    (pts.length = ny * nx → 0 < ny * nx →
      optDisplacements P coef "grid" ellipsoid convention method ny nx pts times =
      .ok (.grid (times.map fun t => pts.map fun q => F q t))) := by
  obtain ⟨dm, hdm, a1, -, f0, f1, -, -⟩ := (CRS.C38_names ellipsoid).1 he
  refine ⟨dm, hdm, ?_⟩
  intro pts times ny nx hpts
  have ha : 0 < dm.a := by linarith
  have red : ∀ type ∈ ["grid", "drift", "time series"],
      optDisplacements P coef type ellipsoid convention method ny nx pts times =
      byType (oceanPoleTide P convention (oceanFactor 9.7803278 dm.a dm.GM dm.omega 1025)
      ⟨0.6870, 0.0036⟩) type ny nx (pts.map (optPoint coef dm)) times := by
    intro type ht
    rw [optDisplacements, if_neg (not_not.2 he), if_neg (not_not.2 hc), if_neg (not_not.2 hm),
      lower_types _ ht, if_neg (not_not.2 ht), hdm, ok_bind]
  dsimp only
  rw [red _ (by simp), red _ (by simp), red _ (by simp)]
  refine requests (offset P convention) (fun m u => u.map
    (oceanRow (oceanFactor 9.7803278 dm.a dm.GM dm.omega 1025) ⟨0.6870, 0.0036⟩ m))
    (oceanPoleTide P convention (oceanFactor 9.7803278 dm.a dm.GM dm.omega 1025)
      ⟨0.6870, 0.0036⟩) (fun ts pts => rfl) (optPoint coef dm) _ pts times ny nx ?_
  intro q hq t
  obtain ⟨b1, b2⟩ := hpts q hq
  obtain ⟨lat, hlat, harc, hang, hcos, hvec⟩ := angles_spec dm ha f0.le (by linarith) q b1 b2
  have hoff : offset P convention t = poleOffset P convention t := by
    rw [offset_eq, poleOffset, neg_sub]
  have hlatd : lat / (π / 180) = arcsin (place dm q 2 / length3 (place dm q)) * 180 / π := by
    rw [length3_eq, ← harc]; field_simp
  simp only [optPoint, hang, hlat, Option.map_some, Option.bind_some, Option.getD_some, hlatd]
  cases coef q.1 (arcsin (place dm q 2 / length3 (place dm q)) * 180 / π) with
  | none => rfl
  | some u =>
    obtain ⟨ur, un, ue⟩ := u
    rw [Option.map_some, Option.map_some, Option.map_some, thirdOrNaN, Option.bind_some,
      Option.map_some, hoff]
    refine congrArg some ?_
    rw [columns_inv]
    simp only [third, C41_ocean]
    generalize poleOffset P convention t = m
    generalize π / 2 - lat = th
    generalize π / 180 * q.1 = ph
    have hcs := sin_sq_add_cos_sq th
    have hcs' := sin_sq_add_cos_sq ph
    simp only [columns, Matrix.transpose_apply, Matrix.cons_val_zero,
      Matrix.cons_val_one, Matrix.cons_val, Matrix.of_apply, Matrix.cons_val']
    generalize (4 * π * 6.67430e-11 * dm.a * 1025 * (sqrt (8 * π / 15) *
      (dm.omega ^ 2 * dm.a ^ 4 / dm.GM)) / (3 * 9.7803278)) * arcsec = k
    simp only [Complex.mul_re, Complex.mul_im, Complex.add_re, Complex.add_im, Complex.ofReal_re,
      Complex.ofReal_im, Complex.conj_re, Complex.conj_im]
    generalize m.1 * 0.6870 - -m.2 * 0.0036 = A
    generalize m.1 * 0.0036 + -m.2 * 0.6870 = B
    linear_combination (k * cos th * sin th * (A * un.re - B * un.im) +
      k * sin th ^ 2 * (A * ur.re - B * ur.im)) * hcs' + k * (A * ur.re - B * ur.im) * hcs

end Verif.PoleTide
