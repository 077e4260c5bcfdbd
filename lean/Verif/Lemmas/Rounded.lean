import Verif.Spec.Arithmetic
import Mathlib.Tactic.Linarith
import Mathlib.Tactic.Positivity
import Mathlib.Tactic.NormNum
/-!
Errors of rounded results.
-/
namespace Verif.Rounded
open Verif Verif.Spec

/-- `x'` is a rounded value for `x`, which is at most `M`, with an error of at most `(a - 1) M`. -/
structure Rel (a M x' x : ℝ) : Prop where
  one : 1 ≤ a
  le : |x| ≤ M
  err : |x' - x| ≤ (a - 1) * M

theorem Rel.nonneg {a M x' x : ℝ} (h : Rel a M x' x) : 0 ≤ M := (abs_nonneg x).trans h.le

theorem Rel.abs_le {a M x' x : ℝ} (h : Rel a M x' x) : |x'| ≤ a * M := by
  have h1 : |x'| ≤ |x' - x| + |x| := by
    have := abs_add_le (x' - x) x
    rwa [sub_add_cancel] at this
  have := h.err
  have := h.le
  linarith

theorem Rel.mono {a b M x' x : ℝ} (h : Rel a M x' x) (hab : a ≤ b) : Rel b M x' x :=
  ⟨h.one.trans hab, h.le, h.err.trans (mul_le_mul_of_nonneg_right (by linarith) h.nonneg)⟩

theorem Rel.rd {A : Arith} {u a M x' x : ℝ} (hA : Standard A u) (h : Rel a M x' x) :
    Rel (a * (1 + u)) M (A.rd x') x := by
  have hu := hA.nonneg
  refine ⟨by nlinarith [h.one], h.le, ?_⟩
  have h1 : |A.rd x' - x| ≤ |A.rd x' - x'| + |x' - x| := abs_sub_le _ _ _
  have h2 := hA.rd x'
  have h3 := mul_le_mul_of_nonneg_left h.abs_le hu
  have := h.err
  nlinarith

theorem Rel.mul {a b M N x' x y' y : ℝ} (h : Rel a M x' x) (g : Rel b N y' y) :
    Rel (a * b) (M * N) (x' * y') (x * y) := by
  have hM := h.nonneg
  have hN := g.nonneg
  have ha := h.one
  have hb := g.one
  refine ⟨by nlinarith, ?_, ?_⟩
  · rw [abs_mul]
    exact mul_le_mul h.le g.le (abs_nonneg _) hM
  · have e : x' * y' - x * y = x' * (y' - y) + (x' - x) * y := by ring
    rw [e]
    refine (abs_add_le _ _).trans ?_
    rw [abs_mul, abs_mul]
    have h1 : |x'| * |y' - y| ≤ a * M * ((b - 1) * N) :=
      mul_le_mul h.abs_le g.err (abs_nonneg _) (by nlinarith)
    have h2 : |x' - x| * |y| ≤ (a - 1) * M * N :=
      mul_le_mul h.err g.le (abs_nonneg _) (by nlinarith)
    nlinarith

theorem Rel.sub {a M N x' x y' y : ℝ} (h : Rel a M x' x) (g : Rel a N y' y) :
    Rel a (M + N) (x' - y') (x - y) := by
  refine ⟨h.one, ?_, ?_⟩
  · have := abs_sub x y
    have := h.le
    have := g.le
    linarith
  · have e : x' - y' - (x - y) = (x' - x) - (y' - y) := by ring
    rw [e]
    have := abs_sub (x' - x) (y' - y)
    have := h.err
    have := g.err
    linarith

theorem Rel.add {a M N x' x y' y : ℝ} (h : Rel a M x' x) (g : Rel a N y' y) :
    Rel a (M + N) (x' + y') (x + y) := by
  refine ⟨h.one, ?_, ?_⟩
  · have := abs_add_le x y
    have := h.le
    have := g.le
    linarith
  · have e : x' + y' - (x + y) = (x' - x) + (y' - y) := by ring
    rw [e]
    have := abs_add_le (x' - x) (y' - y)
    have := h.err
    have := g.err
    linarith

theorem Rel.self (x : ℝ) : Rel 1 |x| x x := ⟨le_refl _, le_refl _, by simp⟩

end Verif.Rounded
