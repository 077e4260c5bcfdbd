import Verif.Spec.Legendre
import Mathlib.Tactic.Ring
import Mathlib.Tactic.LinearCombination
import Mathlib.Tactic.FieldSimp
/-! Helper lemmas for C09: recurrences for Legendre polynomials from Rodrigues' formula. -/
namespace Verif.Spec
open Polynomial

theorem iter_succ' (p : ℝ[X]) (n : ℕ) :
    derivative^[n + 1] p = derivative (derivative^[n] p) := Function.iterate_succ_apply' _ _ _

theorem iter_succ (p : ℝ[X]) (n : ℕ) :
    derivative^[n + 1] p = derivative^[n] (derivative p) := Function.iterate_succ_apply _ _ _

theorem C_two : (C 2 : ℝ[X]) = 2 := rfl

/-- Leibniz rule for multiplication by `X`. -/
theorem iter_X_mul (p : ℝ[X]) (n : ℕ) :
    derivative^[n + 1] (X * p) = X * derivative^[n + 1] p + (n + 1 : ℝ[X]) * derivative^[n] p := by
  induction n with
  | zero => simp; ring
  | succ n ih =>
    rw [iter_succ', ih]
    simp only [derivative_add, derivative_mul, derivative_X, one_mul, derivative_natCast,
      derivative_one, add_zero, zero_mul, zero_add, ← iter_succ']
    push_cast; ring

/-- `d^k/dx^k (x^2-1)^l`. -/
noncomputable def rod (k l : ℕ) : ℝ[X] := derivative^[k] ((X ^ 2 - 1) ^ l)

theorem rod_step (k l : ℕ) :
    rod (k + 1) (l + 1) = (2 * (l + 1) : ℝ[X]) * derivative^[k] (X * (X ^ 2 - 1) ^ l) := by
  unfold rod
  rw [iter_succ]
  have h : derivative ((X ^ 2 - 1 : ℝ[X]) ^ (l + 1)) =
      C (2 * (l + 1) : ℝ) * (X * (X ^ 2 - 1) ^ l) := by
    rw [derivative_pow_succ]
    simp only [derivative_sub, derivative_X_pow, derivative_one, sub_zero]
    simp
    ring
  rw [h, iterate_derivative_C_mul]
  simp [C_two]

theorem rod_A (l : ℕ) : rod (l + 2) (l + 1) =
    (2 * (l + 1) : ℝ[X]) * (X * rod (l + 1) l + (l + 1 : ℝ[X]) * rod l l) := by
  rw [rod_step, iter_X_mul]; rfl

theorem rod_C (l : ℕ) : rod (l + 1) (l + 1) =
    2 * ((X ^ 2 - 1) * rod (l + 1) l + (l + 1 : ℝ[X]) * X * rod l l) := by
  have h1 := rod_step l l
  have h2 : rod (l + 1) (l + 1) =
      X * (X * rod (l + 1) l + (l + 1 : ℝ[X]) * rod l l)
        + (l + 1 : ℝ[X]) * derivative^[l] (X * (X ^ 2 - 1) ^ l) - rod (l + 1) l := by
    have e : (X ^ 2 - 1 : ℝ[X]) ^ (l + 1) = X * (X * (X ^ 2 - 1) ^ l) - (X ^ 2 - 1) ^ l := by ring
    conv_lhs => unfold rod
    rw [e, iterate_derivative_sub, iter_X_mul, iter_X_mul]
    rfl
  linear_combination 2 * h2 - h1

theorem legendreP_eq (l : ℕ) :
    legendreP l = C (1 / (2 ^ l * (l.factorial : ℝ))) * rod l l := rfl

theorem coef_succ (l : ℕ) : (1 / (2 ^ l * (l.factorial : ℝ))) =
    (1 / (2 ^ (l + 1) * ((l + 1).factorial : ℝ))) * (2 * (l + 1)) := by
  rw [Nat.factorial_succ]; push_cast
  have : (l.factorial : ℝ) ≠ 0 := by exact_mod_cast l.factorial_ne_zero
  have : (l + 1 : ℝ) ≠ 0 := by exact_mod_cast l.succ_ne_zero
  field_simp
  ring

theorem derivative_rod (k l : ℕ) : derivative (rod k l) = rod (k + 1) l := by
  unfold rod; rw [← iter_succ']

theorem C_coef (l : ℕ) : (C (1 / (2 ^ l * (l.factorial : ℝ))) : ℝ[X]) =
    C (1 / (2 ^ (l + 1) * ((l + 1).factorial : ℝ))) * (2 * (l + 1)) := by
  rw [coef_succ]; simp [C_two]

/-- `P_{l+1}' = x P_l' + (l+1) P_l`. -/
theorem legendre_A (l : ℕ) : derivative (legendreP (l + 1)) =
    X * derivative (legendreP l) + (l + 1 : ℝ[X]) * legendreP l := by
  rw [legendreP_eq, legendreP_eq, derivative_C_mul, derivative_C_mul, derivative_rod,
    derivative_rod, rod_A, C_coef l]
  ring

/-- `(l+1) P_{l+1} = (x^2-1) P_l' + (l+1) x P_l`. -/
theorem legendre_C (l : ℕ) : (l + 1 : ℝ[X]) * legendreP (l + 1) =
    (X ^ 2 - 1) * derivative (legendreP l) + (l + 1 : ℝ[X]) * X * legendreP l := by
  rw [legendreP_eq, legendreP_eq, derivative_C_mul, derivative_rod, rod_C, C_coef l]
  ring

/-- `(n+1) P_{n+1} = x P_{n+1}' - P_n'`. -/
theorem legendre_B (n : ℕ) : (n + 1 : ℝ[X]) * legendreP (n + 1) =
    X * derivative (legendreP (n + 1)) - derivative (legendreP n) := by
  linear_combination legendre_C n - X * legendre_A n

/-- `P_{n+2}' - P_n' = (2n+3) P_{n+1}`. -/
theorem legendre_E (n : ℕ) : derivative (legendreP (n + 2)) - derivative (legendreP n) =
    (2 * n + 3 : ℝ[X]) * legendreP (n + 1) := by
  have h := legendre_A (n + 1)
  push_cast at h
  linear_combination h - legendre_B n

/-- Bonnet's recurrence `(n+2) P_{n+2} = (2n+3) x P_{n+1} - (n+1) P_n`. -/
theorem legendre_bonnet (n : ℕ) : (n + 2 : ℝ[X]) * legendreP (n + 2) =
    (2 * n + 3 : ℝ[X]) * X * legendreP (n + 1) - (n + 1 : ℝ[X]) * legendreP n := by
  have h := legendre_C (n + 1)
  push_cast at h
  linear_combination h - X * legendre_B n - legendre_A n

theorem iter_nat_mul (c : ℕ) (p : ℝ[X]) (m : ℕ) :
    derivative^[m] ((c : ℝ[X]) * p) = (c : ℝ[X]) * derivative^[m] p :=
  iterate_derivative_natCast_mul

/-- The recurrence in degree for the `m`-th derivative. -/
theorem legendre_rec (n m : ℕ) :
    (n + 2 : ℝ[X]) * derivative^[m] (legendreP (n + 2)) =
      (2 * n + 3 : ℝ[X]) * X * derivative^[m] (legendreP (n + 1))
        - (n + 1 + m : ℝ[X]) * derivative^[m] (legendreP n)
        + (m : ℝ[X]) * derivative^[m] (legendreP (n + 2)) := by
  have b := legendre_bonnet n
  have e1 : (n + 2 : ℝ[X]) * legendreP (n + 2) = ((n + 2 : ℕ) : ℝ[X]) * legendreP (n + 2) := by
    push_cast; ring
  have e2 : (2 * n + 3 : ℝ[X]) * X * legendreP (n + 1) - (n + 1 : ℝ[X]) * legendreP n =
      ((2 * n + 3 : ℕ) : ℝ[X]) * (X * legendreP (n + 1)) - ((n + 1 : ℕ) : ℝ[X]) * legendreP n := by
    push_cast; ring
  rw [e1, e2] at b
  have hb := congrArg (fun p => derivative^[m] p) b
  simp only [iterate_derivative_sub, iter_nat_mul] at hb
  cases m with
  | zero => push_cast at hb ⊢; simp only [Function.iterate_zero, id] at hb ⊢; linear_combination hb
  | succ m =>
    rw [iter_X_mul] at hb
    have e := legendre_E n
    have e3 : (2 * n + 3 : ℝ[X]) * legendreP (n + 1) =
        ((2 * n + 3 : ℕ) : ℝ[X]) * legendreP (n + 1) := by push_cast; ring
    rw [e3] at e
    have he := congrArg (fun p => derivative^[m] p) e
    simp only [iterate_derivative_sub, iter_nat_mul, ← iter_succ] at he
    push_cast at hb he ⊢
    linear_combination hb - (m + 1 : ℝ[X]) * he

theorem legendreP_zero : legendreP 0 = 1 := by simp [legendreP]

theorem legendreP_one : legendreP 1 = X := by
  simp [legendreP]
  have h : (C 2⁻¹ : ℝ[X]) * (1 + 1) = 1 := by
    have e : (1 + 1 : ℝ[X]) = C 2 := by rw [C_two]; norm_num
    rw [e, ← C_mul]; norm_num
  rw [← mul_assoc, h, one_mul]

/-- The derivatives of order above the degree vanish, and the derivative of order `l` obeys
`d^{l+1} P_{l+1} = (2l+1) d^l P_l`. -/
theorem legendre_top (l : ℕ) : derivative^[l + 1] (legendreP l) = 0 ∧
    derivative^[l + 1] (legendreP (l + 1)) = (2 * l + 1 : ℝ[X]) * derivative^[l] (legendreP l) := by
  have step : ∀ l, derivative^[l + 1] (legendreP (l + 1)) =
      derivative^[l] (X * derivative (legendreP l)) +
        ((l + 1 : ℕ) : ℝ[X]) * derivative^[l] (legendreP l) := by
    intro l
    rw [iter_succ, legendre_A, iterate_map_add]
    congr 1
    have : (l + 1 : ℝ[X]) * legendreP l = ((l + 1 : ℕ) : ℝ[X]) * legendreP l := by push_cast; ring
    rw [this, iter_nat_mul]
  have hz : ∀ l, derivative^[l + 1] (legendreP l) = 0 := by
    intro l
    induction l with
    | zero => simp [legendreP_zero]
    | succ l ih =>
      rw [iter_succ', step, derivative_add, derivative_natCast_mul,
        ← iter_succ', iter_X_mul, ← iter_succ,
        ← iter_succ', ← iter_succ]
      have h2 : derivative^[l + 1 + 1] (legendreP l) = 0 := by
        rw [iter_succ', ih, derivative_zero]
      rw [h2, ih]
      simp
  refine ⟨hz l, ?_⟩
  rw [step]
  cases l with
  | zero => simp [legendreP_zero]
  | succ l =>
    rw [iter_X_mul, ← iter_succ, ← iter_succ]
    rw [hz]
    push_cast; ring

/-- Orders above the degree vanish. -/
theorem legendre_above (l m : ℕ) (h : l < m) : derivative^[m] (legendreP l) = 0 := by
  obtain ⟨d, rfl⟩ := Nat.exists_eq_add_of_lt h
  have : l + d + 1 = d + (l + 1) := by omega
  rw [this, Function.iterate_add_apply, (legendre_top l).1]
  simp

end Verif.Spec
