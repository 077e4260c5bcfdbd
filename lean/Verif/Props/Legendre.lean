import Verif.Model.Math
import Verif.Lemmas.Legendre
import Mathlib.Tactic.Linarith
/-!
Property C09: the tabulated and the recursive associated Legendre functions are the
mathematical ones.  Property C51: spherical harmonics.
-/
namespace Verif.Math
open Verif Real Verif.Spec Polynomial

theorem legendreP_two : legendreP 2 = C (1 / 2) * (3 * X ^ 2 - 1) := by
  have h := legendre_bonnet 0
  rw [legendreP_one, legendreP_zero] at h
  have h2 : (C (1 / 2) : ℝ[X]) * 2 = 1 := by rw [← C_two, ← C_mul]; norm_num
  push_cast at h
  linear_combination C (1 / 2) * h - legendreP 2 * h2

theorem legendreP_three : legendreP 3 = C (1 / 2) * (5 * X ^ 3 - 3 * X) := by
  have h := legendre_bonnet 1
  rw [legendreP_one, legendreP_two] at h
  have h2 : (C (1 / 2) : ℝ[X]) * 2 = 1 := by rw [← C_two, ← C_mul]; norm_num
  have h3 : (C (1 / 3) : ℝ[X]) * 3 = 1 := by
    rw [show (3 : ℝ[X]) = C 3 from rfl, ← C_mul]; norm_num
  push_cast at h
  linear_combination C (1 / 3) * h - legendreP 3 * h3 +
    C (1 / 2) * (5 * X ^ 3 - 3 * X) * h3 + C (1 / 3) * X * 2 * h2

/-- The tabulated value is the mathematical associated Legendre function. -/
theorem table_eq_assocP (l m : ℕ) (hl : l ≤ 3) (hm : m ≤ l) (x : ℝ) :
    legendreTable l m x = assocP l m x := by
  have hl' : l = 0 ∨ l = 1 ∨ l = 2 ∨ l = 3 := by omega
  unfold assocP
  rcases hl' with rfl | rfl | rfl | rfl
  · have : m = 0 := by omega
    subst this
    simp [legendreTable, legendreP_zero]
  · have : m = 0 ∨ m = 1 := by omega
    rcases this with rfl | rfl <;> simp [legendreTable, legendreP_one]
  · have : m = 0 ∨ m = 1 ∨ m = 2 := by omega
    rcases this with rfl | rfl | rfl <;> simp [legendreTable, legendreP_two] <;> norm_num <;> ring
  · have : m = 0 ∨ m = 1 ∨ m = 2 ∨ m = 3 := by omega
    rcases this with rfl | rfl | rfl | rfl <;>
      simp [legendreTable, legendreP_three] <;> norm_num <;> ring

/-- C09: for every admissible degree and order the library returns
`(-1)^m (1-x^2)^(m/2) d^m P_l/dx^m` with `P_l` given by Rodrigues' formula. -/
theorem C09_legendre_eq_rodrigues (l m : ℕ) (hl : l ≤ 3) (hm : m ≤ l) (x : ℝ) :
    legendre l x m = .ok ((-1) ^ m * assocP l m x) := by
  unfold legendre
  rw [if_neg (by simp; omega), if_neg (by simp; omega)]
  simp only [Int.toNat_natCast]
  rw [table_eq_assocP l m hl hm]

/-- C09: every other degree or order is refused. -/
theorem C09_legendre_refuses (l m : ℤ) (x : ℝ) :
    legendre l x m = .error .assertionError ↔ ¬ (0 ≤ m ∧ m ≤ l ∧ l ≤ 3) := by
  unfold legendre
  split_ifs with h1 h2
  · simp; omega
  · simp; omega
  · simp; omega

/-- The fully normalised associated Legendre function. -/
noncomputable def normP (l m : ℕ) (x : ℝ) : ℝ := fullNorm l m * assocP l m x

theorem sqrt_mul3 (a b c : ℝ) (ha : 0 ≤ a) (hb : 0 ≤ b) :
    sqrt a * sqrt b * sqrt c = sqrt (a * b * c) := by
  rw [sqrt_mul (mul_nonneg ha hb), sqrt_mul ha]

/-- The coefficient of the previous degree. -/
theorem norm_a (m d : ℕ) :
    let l : ℝ := ((m + d + 1 : ℕ) : ℝ)
    sqrt ((2 * l - 1) / ((l - m) * (l + m))) * sqrt (2 * l + 1) * fullNorm (m + d) m =
      fullNorm (m + d + 1) m * ((2 * l - 1) / (l - m)) := by
  intro l
  have hl : l = m + d + 1 := by simp only [l]; push_cast; ring
  have hm0 : (0 : ℝ) ≤ m := Nat.cast_nonneg _
  have hd0 : (0 : ℝ) ≤ d := Nat.cast_nonneg _
  have p1 : 0 < l - m := by rw [hl]; linarith
  have p2 : 0 < l + m := by rw [hl]; linarith
  have p3 : 0 < 2 * l - 1 := by rw [hl]; linarith
  have p4 : 0 < 2 * l + 1 := by linarith
  unfold fullNorm
  set δ : ℝ := if m = 0 then 1 else 2 with hδ
  have hq : (2 * l - 1) / (l - m) = sqrt (((2 * l - 1) / (l - m)) ^ 2) :=
    (sqrt_sq (by positivity)).symm
  have e1 : m + d - m = d := by omega
  have e2 : m + d + 1 - m = d + 1 := by omega
  have e3 : m + d + 1 + m = (m + d + m) + 1 := by omega
  rw [sqrt_mul3 _ _ _ (by positivity) p4.le, hq, ← sqrt_mul' _ (by positivity), e1, e2, e3,
    Nat.factorial_succ, Nat.factorial_succ]
  congr 1
  have f1 : ((m + d + m).factorial : ℝ) ≠ 0 := by exact_mod_cast Nat.factorial_ne_zero _
  have f2 : ((d + 1 : ℕ) : ℝ) = l - m := by rw [hl]; push_cast; ring
  have f3 : ((m + d + m + 1 : ℕ) : ℝ) = l + m := by rw [hl]; push_cast; ring
  have f4 : ((m + d : ℕ) : ℝ) = l - 1 := by rw [hl]; push_cast; ring
  rw [Nat.cast_mul, Nat.cast_mul, f2, f3, f4]
  show _ = δ * (2 * l + 1) * _ / _ * _
  field_simp
  ring

/-- The coefficient of the degree before the previous one. -/
theorem norm_b (m e : ℕ) :
    let l : ℝ := ((m + e + 2 : ℕ) : ℝ)
    sqrt ((l + m - 1) * (l - m - 1) / ((l - m) * (l + m) * (2 * l - 3))) * sqrt (2 * l + 1)
      * fullNorm (m + e) m = fullNorm (m + e + 2) m * ((l + m - 1) / (l - m)) := by
  intro l
  have hl : l = m + e + 2 := by simp only [l]; push_cast; ring
  have hm0 : (0 : ℝ) ≤ m := Nat.cast_nonneg _
  have hd0 : (0 : ℝ) ≤ e := Nat.cast_nonneg _
  have p1 : 0 < l - m := by rw [hl]; linarith
  have p2 : 0 < l + m := by rw [hl]; linarith
  have p3 : 0 < 2 * l - 3 := by rw [hl]; linarith
  have p4 : 0 < 2 * l + 1 := by linarith
  have p5 : 0 < l + m - 1 := by rw [hl]; linarith
  have p6 : 0 < l - m - 1 := by rw [hl]; linarith
  unfold fullNorm
  set δ : ℝ := if m = 0 then 1 else 2 with hδ
  have hq : (l + m - 1) / (l - m) = sqrt (((l + m - 1) / (l - m)) ^ 2) :=
    (sqrt_sq (by positivity)).symm
  have e1 : m + e - m = e := by omega
  have e2 : m + e + 2 - m = e + 1 + 1 := by omega
  have e3 : m + e + 2 + m = (m + e + m) + 1 + 1 := by omega
  rw [sqrt_mul3 _ _ _ (by positivity) p4.le, hq, ← sqrt_mul' _ (by positivity), e1, e2, e3,
    Nat.factorial_succ, Nat.factorial_succ, Nat.factorial_succ, Nat.factorial_succ]
  congr 1
  have f1 : ((m + e + m).factorial : ℝ) ≠ 0 := by exact_mod_cast Nat.factorial_ne_zero _
  have f2 : ((e + 1 + 1 : ℕ) : ℝ) = l - m := by rw [hl]; push_cast; ring
  have f2' : ((e + 1 : ℕ) : ℝ) = l - m - 1 := by rw [hl]; push_cast; ring
  have f3 : ((m + e + m + 1 + 1 : ℕ) : ℝ) = l + m := by rw [hl]; push_cast; ring
  have f3' : ((m + e + m + 1 : ℕ) : ℝ) = l + m - 1 := by rw [hl]; push_cast; ring
  have f4 : ((m + e : ℕ) : ℝ) = l - 2 := by rw [hl]; push_cast; ring
  simp only [Nat.cast_mul]
  rw [f2, f2', f3, f3', f4]
  have f5 : 2 * (l - 2) + 1 = 2 * l - 3 := by ring
  rw [f5]
  show _ = δ * (2 * l + 1) * _ / _ * _
  have p3' := p3.ne'
  have p3'' : l * 2 - 3 ≠ 0 := by rw [mul_comm]; exact p3'
  field_simp

/-- The sectorial coefficient. -/
theorem norm_c (l' : ℕ) :
    let l : ℝ := ((l' + 2 : ℕ) : ℝ)
    sqrt (2 * l + 1) * sqrt (1 / (2 * l)) * fullNorm (l' + 1) (l' + 1) =
      fullNorm (l' + 2) (l' + 2) * (2 * l - 1) := by
  intro l
  have hl : l = l' + 2 := by simp only [l]; push_cast; ring
  have h0 : (0 : ℝ) ≤ l' := Nat.cast_nonneg _
  have p4 : 0 < 2 * l + 1 := by rw [hl]; linarith
  have p3 : 0 < 2 * l - 1 := by rw [hl]; linarith
  have p2 : 0 < l := by rw [hl]; linarith
  unfold fullNorm
  have hq : (2 * l - 1) = sqrt ((2 * l - 1) ^ 2) := (sqrt_sq p3.le).symm
  have e3 : l' + 2 + (l' + 2) = (l' + 1 + (l' + 1)) + 1 + 1 := by omega
  rw [sqrt_mul3 _ _ _ p4.le (by positivity), hq, ← sqrt_mul' _ (by positivity), e3,
    Nat.factorial_succ, Nat.factorial_succ]
  congr 1
  have f1 : ((l' + 1 + (l' + 1)).factorial : ℝ) ≠ 0 := by exact_mod_cast Nat.factorial_ne_zero _
  have f2 : ((l' + 1 + (l' + 1) + 1 : ℕ) : ℝ) = 2 * l - 1 := by rw [hl]; push_cast; ring
  have f3 : ((l' + 1 + (l' + 1) + 1 + 1 : ℕ) : ℝ) = 2 * l := by rw [hl]; push_cast; ring
  have f4 : ((l' + 1 : ℕ) : ℝ) = l - 1 := by rw [hl]; push_cast; ring
  simp only [Nat.cast_mul]
  rw [f2, f3, f4]
  simp
  rw [← hl]
  field_simp
  ring

/-- C09: the array filled by the general-degree recursion holds the fully normalised
associated Legendre functions, for every degree and order. -/
theorem assocRow_eq (x : ℝ) : ∀ l m, assocRow x l m = normP l m x
  | 0, m => by
    unfold assocRow normP assocP
    by_cases h : m = 0
    · subst h; simp [legendreP_zero, fullNorm]
    · rw [if_neg h, legendre_above 0 m (by omega)]; simp
  | 1, m => by
    unfold assocRow normP assocP
    have hm : m = 0 ∨ m = 1 ∨ 1 < m := by omega
    rcases hm with rfl | rfl | hm
    · simp [legendreP_one, fullNorm]; norm_num
    · simp [legendreP_one, fullNorm]; norm_num [Nat.factorial]
    · rw [if_neg (by omega), if_neg (by omega), legendre_above 1 m hm]; simp
  | l' + 2, m => by
    have ih1 := assocRow_eq x (l' + 1)
    have ih0 := assocRow_eq x l'
    unfold assocRow
    rcases Nat.lt_trichotomy m (l' + 2) with hm | hm | hm
    · rw [if_pos hm, ih1, ih0]
      obtain ⟨d, hd⟩ : ∃ d, l' + 1 = m + d := ⟨l' + 1 - m, by omega⟩
      have hl2 : l' + 2 = m + d + 1 := by omega
      have hr := congrArg (Polynomial.eval x) (legendre_rec l' m)
      simp only [eval_add, eval_sub, eval_mul, eval_natCast, eval_X, eval_ofNat, eval_one] at hr
      have ha := norm_a m d
      have hlm : (((m + d + 1 : ℕ) : ℝ) - m) ≠ 0 := by push_cast; intro h; have : (d : ℝ) ≥ 0 := Nat.cast_nonneg _; linarith
      have hl : (l' : ℝ) = ((m + d + 1 : ℕ) : ℝ) - 2 := by rw [← hl2]; push_cast; ring
      unfold normP assocP
      simp only at ha
      cases d with
      | zero =>
        have hz : derivative^[m] (legendreP l') = 0 := legendre_above l' m (by omega)
        rw [hz] at hr ⊢
        rw [hl] at hr
        rw [hl2] at hr ⊢
        rw [hd]
        rw [hd] at hr
        simp only [eval_zero, mul_zero, sub_zero] at hr ⊢
        generalize hA : sqrt ((2 * ((m + 0 + 1 : ℕ) : ℝ) - 1) / ((((m + 0 + 1 : ℕ) : ℝ) - m) * (((m + 0 + 1 : ℕ) : ℝ) + m))) = A at *
        generalize hB : sqrt (2 * ((m + 0 + 1 : ℕ) : ℝ) + 1) = B at *
        generalize fullNorm (m + 0) m = N1 at *
        generalize fullNorm (m + 0 + 1) m = N0 at *
        generalize ((m + 0 + 1 : ℕ) : ℝ) = L at *
        generalize eval x (derivative^[m] (legendreP (m + 0))) = p1 at *
        generalize eval x (derivative^[m] (legendreP (m + 0 + 1))) = p0 at *
        generalize sqrt (1 - x ^ 2) ^ m = U at *
        have hp : p0 = (2 * L - 1) / (L - m) * x * p1 := by
          field_simp
          linear_combination hr
        rw [hp]
        linear_combination x * U * p1 * ha
      | succ e =>
        have hb := norm_b m e
        simp only at hb
        have hl0 : l' = m + e := by omega
        rw [hl] at hr
        have e1 : m + (e + 1) + 1 = m + e + 2 := by omega
        have e2 : m + (e + 1) = m + e + 1 := by omega
        rw [hl2] at hr ⊢
        rw [hd]
        rw [hd] at hr
        rw [hl0] at hr ⊢
        rw [e1] at hr ha hlm ⊢
        rw [e2] at hr ha ⊢
        generalize sqrt ((2 * ((m + e + 2 : ℕ) : ℝ) - 1) / ((((m + e + 2 : ℕ) : ℝ) - m) * (((m + e + 2 : ℕ) : ℝ) + m))) = A at *
        generalize sqrt ((((m + e + 2 : ℕ) : ℝ) + m - 1) * (((m + e + 2 : ℕ) : ℝ) - m - 1) / ((((m + e + 2 : ℕ) : ℝ) - m) * (((m + e + 2 : ℕ) : ℝ) + m) * (2 * ((m + e + 2 : ℕ) : ℝ) - 3))) = A2 at *
        generalize sqrt (2 * ((m + e + 2 : ℕ) : ℝ) + 1) = B at *
        generalize fullNorm (m + e) m = N2 at *
        generalize fullNorm (m + e + 1) m = N1 at *
        generalize fullNorm (m + e + 2) m = N0 at *
        generalize ((m + e + 2 : ℕ) : ℝ) = L at *
        generalize eval x (derivative^[m] (legendreP (m + e))) = p2 at *
        generalize eval x (derivative^[m] (legendreP (m + e + 1))) = p1 at *
        generalize eval x (derivative^[m] (legendreP (m + e + 2))) = p0 at *
        generalize sqrt (1 - x ^ 2) ^ m = U at *
        have hp : p0 = (2 * L - 1) / (L - m) * x * p1 - (L + m - 1) / (L - m) * p2 := by
          field_simp
          linear_combination hr
        rw [hp]
        linear_combination x * U * p1 * ha - U * p2 * hb
    · subst hm
      rw [if_neg (lt_irrefl _), if_pos rfl, ih1]
      have hr := congrArg (Polynomial.eval x) (legendre_top (l' + 1)).2
      simp only [eval_add, eval_mul, eval_natCast, eval_ofNat, eval_one] at hr
      have hc := norm_c l'
      unfold normP assocP
      simp only at hc ⊢
      have hl : (((l' + 1 : ℕ)) : ℝ) = ((l' + 2 : ℕ) : ℝ) - 1 := by push_cast; ring
      rw [hl] at hr
      have e1 : l' + 1 + 1 = l' + 2 := rfl
      rw [e1] at hr
      rw [hr, pow_succ (sqrt (1 - x ^ 2)) (l' + 1)]
      linear_combination sqrt (1 - x ^ 2) ^ (l' + 1) * sqrt (1 - x ^ 2) *
        eval x (derivative^[l' + 1] (legendreP (l' + 1))) * hc
    · rw [if_neg (by omega), if_neg (by omega)]
      unfold normP assocP
      rw [legendre_above (l' + 2) m hm]
      simp

/-- C09: `assoc_legendre(lmax, x)[l, m]` is the fully normalised associated Legendre function
of degree `l` and order `m` for every `lmax ≥ 1` and every entry of the array. -/
theorem C09_assoc_legendre_eq_partial (lmax l m : ℕ) (x : ℝ) (h1 : 1 ≤ lmax) (hl : l ≤ lmax)
    (hm : m ≤ lmax) :
    assocLegendre lmax x l m = .ok (fullNorm l m * assocP l m x) := by
  unfold assocLegendre
  rw [if_neg (by omega), if_pos ⟨hl, hm⟩, assocRow_eq]
  rfl

/-- C09 is false for `lmax = 0`: the routine raises instead of returning `P_00 = 1`. -/
theorem C09_assoc_legendre_zero_false (x : ℝ) :
    assocLegendre 0 x 0 0 = .error .indexError ∧ fullNorm 0 0 * assocP 0 0 x = 1 := by
  refine ⟨rfl, ?_⟩
  simp [fullNorm, assocP, legendreP_zero]

example : legendre 2 0.5 1 = .ok ((-1) ^ 1 * assocP 2 1 0.5) :=
  C09_legendre_eq_rodrigues 2 1 (by norm_num) (by norm_num) 0.5

example : assocLegendre 60 0.3 47 12 = .ok (fullNorm 47 12 * assocP 47 12 0.3) :=
  C09_assoc_legendre_eq_partial 60 47 12 0.3 (by norm_num) (by norm_num) (by norm_num)

/-- The orthonormal complex spherical harmonic with the Condon-Shortley phase. -/
noncomputable def specYlm (l m : ℕ) (theta phi : ℝ) : ℂ :=
  ((sqrt ((2 * l + 1) / (4 * π)) * (sqrt (((l - m).factorial : ℝ) / ((l + m).factorial : ℝ)) *
    ((-1) ^ m * assocP l m (cos theta))) : ℝ) : ℂ) * Complex.exp (Complex.I * m * phi)

/-- C51 is false: the library's spherical harmonic of degree 0 is not constant; at the pole it
is zero although `Y_00 = 1/sqrt(4π)`. -/
theorem C51_sph_harm_false :
    sphHarm 0 0 0 0 = .ok 0 ∧ specYlm 0 0 0 0 ≠ 0 := by
  constructor
  · have h := C09_legendre_eq_rodrigues 0 0 (by norm_num) (by norm_num) (cos 0)
    unfold sphHarm
    simp only [Nat.cast_zero] at h
    rw [h]
    simp
  · have : sqrt π ≠ 0 := (sqrt_pos.mpr pi_pos).ne'
    simp [specYlm, assocP, legendreP_zero, this]

/-- C51: what the library returns is the spherical harmonic times `sin(theta)`, for every
admissible degree and order. -/
theorem C51_sph_harm_partial (l m : ℕ) (hl : l ≤ 3) (hm : m ≤ l) (theta phi : ℝ) :
    sphHarm l theta phi m = .ok ((sin theta : ℂ) * specYlm l m theta phi) := by
  unfold sphHarm
  rw [C09_legendre_eq_rodrigues l m hl hm]
  have e1 : ((l : ℤ) - m).toNat = l - m := by omega
  have e2 : ((l : ℤ) + m).toNat = l + m := by omega
  simp only [e1, e2, specYlm]
  congr 1
  push_cast
  ring

end Verif.Math
