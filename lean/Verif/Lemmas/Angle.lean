import Verif.Spec.Angle
import Verif.Props.Angles
import Mathlib.Tactic.NormNum
import Mathlib.Tactic.Linarith
import Mathlib.Tactic.Positivity
/-!
Angles up to whole turns and small errors.
-/
namespace Verif.Spec.Angle
open Verif Real Verif.Math

theorem normal (x c : ℝ) (hc : 0 < c) : ∃ k : ℤ, normalizeAngle x c = x - k * c := by
  obtain ⟨-, -, n, hn⟩ := C07_normalize_range_congruent x c hc
  exact ⟨n, by linarith⟩

theorem Within.normalize {c ε x y : ℝ} (hc : 0 < c) (h : Within c ε x y) :
    Within c ε (normalizeAngle x c) (normalizeAngle y c) := by
  obtain ⟨k, hk⟩ := h
  obtain ⟨m, hm⟩ := normal x c hc
  obtain ⟨n, hn⟩ := normal y c hc
  refine ⟨k - m + n, ?_⟩
  rw [hm, hn]
  push_cast
  convert hk using 2
  ring

theorem Within.mul {c ε x y : ℝ} (r : ℝ) (hr : 0 ≤ r) (h : Within c ε x y) :
    Within (r * c) (r * ε) (r * x) (r * y) := by
  obtain ⟨k, hk⟩ := h
  refine ⟨k, ?_⟩
  have : r * x - r * y - k * (r * c) = r * (x - y - k * c) := by ring
  rw [this, abs_mul, abs_of_nonneg hr]
  exact mul_le_mul_of_nonneg_left hk hr

theorem Within.symm {c ε x y : ℝ} (h : Within c ε x y) : Within c ε y x := by
  obtain ⟨k, hk⟩ := h
  refine ⟨-k, ?_⟩
  rw [← abs_neg]
  push_cast
  convert hk using 2
  ring

theorem Within.add {c ε δ x y z w : ℝ} (h : Within c ε x y) (g : Within c δ z w) :
    Within c (ε + δ) (x + z) (y + w) := by
  obtain ⟨k, hk⟩ := h
  obtain ⟨m, hm⟩ := g
  refine ⟨k + m, ?_⟩
  have : x + z - (y + w) - ((k + m : ℤ) : ℝ) * c = (x - y - k * c) + (z - w - m * c) := by push_cast; ring
  rw [this]
  exact (abs_add_le _ _).trans (add_le_add hk hm)

theorem Within.sub {c ε δ x y z w : ℝ} (h : Within c ε x y) (g : Within c δ z w) :
    Within c (ε + δ) (x - z) (y - w) := by
  obtain ⟨k, hk⟩ := h
  obtain ⟨m, hm⟩ := g
  refine ⟨k - m, ?_⟩
  have : x - z - (y - w) - ((k - m : ℤ) : ℝ) * c = (x - y - k * c) - (z - w - m * c) := by push_cast; ring
  rw [this]
  exact (abs_sub _ _).trans (add_le_add hk hm)

theorem Within.trans {c ε δ x y z : ℝ} (h : Within c ε x y) (g : Within c δ y z) : Within c (ε + δ) x z := by
  obtain ⟨k, hk⟩ := h
  obtain ⟨m, hm⟩ := g
  refine ⟨k + m, ?_⟩
  have : x - z - ((k + m : ℤ) : ℝ) * c = (x - y - k * c) + (y - z - m * c) := by push_cast; ring
  rw [this]
  exact (abs_add_le _ _).trans (add_le_add hk hm)

theorem Within.le {c ε δ x y : ℝ} (h : Within c ε x y) (hd : ε ≤ δ) : Within c δ x y :=
  h.imp fun _ hk => hk.trans hd

theorem within_normal (x c : ℝ) (hc : 0 < c) : Within c 0 (normalizeAngle x c) x := by
  obtain ⟨k, hk⟩ := normal x c hc
  refine ⟨-k, ?_⟩
  rw [hk]
  push_cast
  rw [show x - k * c - x - -(k : ℝ) * c = 0 by ring, abs_zero]

theorem Within.radians {ε x y : ℝ} (h : Within 360 ε x y) :
    Within (2 * π) (π / 180 * ε) (π / 180 * x) (π / 180 * y) := by
  have := h.mul (π / 180) (by positivity)
  rwa [show π / 180 * 360 = 2 * π by ring] at this

theorem Within.rfl' {c x : ℝ} : Within c 0 x x := ⟨0, by simp⟩

theorem Within.neg {c ε x y : ℝ} (h : Within c ε x y) : Within c ε (-x) (-y) := by
  obtain ⟨k, hk⟩ := h
  refine ⟨-k, ?_⟩
  rw [← abs_neg]
  push_cast
  convert hk using 2
  ring

theorem Within.mulInt {c ε x y : ℝ} (n : ℤ) (h : Within c ε x y) : Within c (|(n : ℝ)| * ε) (x * n) (y * n) := by
  obtain ⟨k, hk⟩ := h
  refine ⟨k * n, ?_⟩
  have : x * n - y * n - ((k * n : ℤ) : ℝ) * c = n * (x - y - k * c) := by push_cast; ring
  rw [this, abs_mul]
  exact mul_le_mul_of_nonneg_left hk (abs_nonneg _)

end Verif.Spec.Angle
