import Verif.Model.Num
import Mathlib.Tactic.Linarith
import Mathlib.Tactic.FieldSimp
import Mathlib.Tactic.Ring
/-! Helper lemmas about floor division, remainder and rounding. -/
namespace Verif.Num

variable {K : Type*} [Field K] [LinearOrder K] [IsStrictOrderedRing K] [FloorRing K]

theorem fmod_nonneg {x y : K} (hy : 0 < y) : 0 ≤ fmod x y := by
  unfold fmod
  have h := Int.floor_le (x / y)
  have : y * (⌊x / y⌋ : K) ≤ y * (x / y) := mul_le_mul_of_nonneg_left h hy.le
  rw [mul_div_cancel₀ _ hy.ne'] at this
  linarith

theorem fmod_lt {x y : K} (hy : 0 < y) : fmod x y < y := by
  unfold fmod
  have h := Int.lt_floor_add_one (x / y)
  have : y * (x / y) < y * ((⌊x / y⌋ : K) + 1) := mul_lt_mul_of_pos_left h hy
  rw [mul_div_cancel₀ _ hy.ne'] at this
  linarith

/-- A number congruent to `x` and within one period is the remainder. -/
theorem fmod_unique {x y r : K} (hy : 0 < y) (h0 : 0 ≤ r) (h1 : r < y) (n : Int)
    (h : x = r + y * n) : fmod x y = r := by
  have : ⌊x / y⌋ = n := by
    rw [Int.floor_eq_iff]
    subst h
    constructor
    · rw [le_div_iff₀ hy]; linarith [mul_comm (n : K) y]
    · rw [div_lt_iff₀ hy]; nlinarith
  unfold fmod
  rw [this, h]; ring

theorem fmod_add_mul {x y : K} (hy : 0 < y) (n : Int) : fmod (x + y * n) y = fmod x y := by
  refine fmod_unique hy (fmod_nonneg hy) (fmod_lt hy) (n + ⌊x / y⌋) ?_
  unfold fmod; push_cast; ring

theorem abs_sub_round_le (x : K) : |x - (round x : K)| ≤ 1 / 2 := by
  have h1 := Int.floor_le x
  have h2 := Int.lt_floor_add_one x
  unfold round
  rw [abs_le]
  split_ifs <;> push_cast <;> constructor <;> linarith

end Verif.Num
