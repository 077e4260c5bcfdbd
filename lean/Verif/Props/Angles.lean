import Verif.Model.Math
import Verif.Lemmas.Num
import Mathlib.Tactic.Linarith
import Mathlib.Tactic.FieldSimp
/-!
Properties C07 (angle normalisation), C08 (aliasing) and C52 (polynomial evaluation).
-/
namespace Verif.Math
open Verif Real

/-- C07: the result is in `[0, circle)` and differs from the input by whole revolutions. -/
theorem C07_normalize_range_congruent (theta circle : ℝ) (hc : 0 < circle) :
    0 ≤ normalizeAngle theta circle ∧ normalizeAngle theta circle < circle ∧
    ∃ n : ℤ, theta - normalizeAngle theta circle = n * circle :=
  ⟨Num.fmod_nonneg hc, Num.fmod_lt hc, ⌊theta / circle⌋, by
    unfold normalizeAngle Num.fmod; ring⟩

/-- C07: it is the only such number. -/
theorem C07_normalize_unique (theta circle r : ℝ) (hc : 0 < circle) (h0 : 0 ≤ r)
    (h1 : r < circle) (h : ∃ n : ℤ, theta - r = n * circle) :
    normalizeAngle theta circle = r := by
  obtain ⟨n, hn⟩ := h
  exact Num.fmod_unique hc h0 h1 n (by linarith [mul_comm (n : ℝ) circle])

/-- C07: normalising twice is the same as once. -/
theorem C07_normalize_idempotent (theta circle : ℝ) (hc : 0 < circle) :
    normalizeAngle (normalizeAngle theta circle) circle = normalizeAngle theta circle :=
  C07_normalize_unique _ _ _ hc (Num.fmod_nonneg hc) (Num.fmod_lt hc) ⟨0, by simp⟩

/-- C07: adding whole revolutions beforehand changes nothing. -/
theorem C07_normalize_periodic (theta circle : ℝ) (hc : 0 < circle) (n : ℤ) :
    normalizeAngle (theta + n * circle) circle = normalizeAngle theta circle := by
  rw [mul_comm]; exact Num.fmod_add_mul hc n

/-- The normal form of -30 degrees is 330 degrees. -/
example : normalizeAngle (-30) 360 = 330 :=
  C07_normalize_unique _ _ _ (by norm_num) (by norm_num) (by norm_num) ⟨-1, by norm_num⟩

/-- C08: the aliased frequency is between zero and the Nyquist frequency. -/
theorem C08_aliasing_range (f fs : ℝ) (hs : 0 < fs) :
    0 ≤ aliasing f fs ∧ aliasing f fs ≤ fs / 2 := by
  refine ⟨abs_nonneg _, ?_⟩
  unfold aliasing
  have h := Num.abs_sub_round_le (f / fs)
  have e : f - fs * (Num.round (f / fs) : ℝ) = fs * (f / fs - (Num.round (f / fs) : ℝ)) := by
    rw [mul_sub, mul_div_cancel₀ _ hs.ne']
  rw [e, abs_mul, abs_of_pos hs]
  calc fs * |f / fs - (Num.round (f / fs) : ℝ)| ≤ fs * (1 / 2) :=
        mul_le_mul_of_nonneg_left h hs.le
    _ = fs / 2 := by ring

/-- The aliased frequency is `± f` up to a multiple of the sampling frequency. -/
theorem aliasing_congr (f fs : ℝ) :
    ∃ n : ℤ, aliasing f fs = f - fs * n ∨ aliasing f fs = -(f - fs * n) :=
  ⟨Num.round (f / fs), abs_choice _⟩

/-- Two numbers in `[0, fs/2]` that agree up to sign and multiples of `fs` are equal. -/
theorem eq_of_congr_nyquist (a b fs : ℝ) (hs : 0 < fs) (ha : 0 ≤ a) (ha' : a ≤ fs / 2)
    (hb : 0 ≤ b) (hb' : b ≤ fs / 2) (n : ℤ) (h : a = b + fs * n ∨ a = -b + fs * n) : a = b := by
  have hn : n = 0 ∨ n = 1 ∨ n ≤ -1 ∨ 2 ≤ n := by omega
  rcases hn with hn | hn | hn | hn
  · subst hn
    rcases h with h | h
    · simpa using h
    · have : a = -b := by simpa using h
      linarith
  · subst hn
    push_cast at h
    rcases h with h | h <;> linarith
  · have hn' : (n : ℝ) ≤ -1 := by exact_mod_cast hn
    have : fs * (n : ℝ) ≤ fs * (-1) := mul_le_mul_of_nonneg_left hn' hs.le
    rcases h with h | h <;> linarith
  · have hn' : (2 : ℝ) ≤ n := by exact_mod_cast hn
    have : fs * 2 ≤ fs * (n : ℝ) := mul_le_mul_of_nonneg_left hn' hs.le
    rcases h with h | h <;> linarith

/-- C08: adding multiples of the sampling frequency does not change the aliased frequency. -/
theorem C08_aliasing_periodic (f fs : ℝ) (hs : 0 < fs) (k : ℤ) :
    aliasing (f + k * fs) fs = aliasing f fs := by
  obtain ⟨h0, h1⟩ := C08_aliasing_range f fs hs
  obtain ⟨g0, g1⟩ := C08_aliasing_range (f + k * fs) fs hs
  obtain ⟨n, hn⟩ := aliasing_congr f fs
  obtain ⟨m, hm⟩ := aliasing_congr (f + k * fs) fs
  rcases hn with hn | hn <;> rcases hm with hm | hm
  · exact eq_of_congr_nyquist _ _ fs hs g0 g1 h0 h1 (n + k - m)
      (Or.inl (by rw [hn, hm]; push_cast; ring))
  · exact eq_of_congr_nyquist _ _ fs hs g0 g1 h0 h1 (m - k - n)
      (Or.inr (by rw [hn, hm]; push_cast; ring))
  · exact eq_of_congr_nyquist _ _ fs hs g0 g1 h0 h1 (n + k - m)
      (Or.inr (by rw [hn, hm]; push_cast; ring))
  · exact eq_of_congr_nyquist _ _ fs hs g0 g1 h0 h1 (m - k - n)
      (Or.inl (by rw [hn, hm]; push_cast; ring))

/-- C08: sampled every `1/fs`, the signal and its alias are indistinguishable, up to the sign
of the phase. -/
theorem C08_alias_indistinguishable (f fs : ℝ) (hs : 0 < fs) :
    ∃ σ : ℝ, (σ = 1 ∨ σ = -1) ∧ ∀ (j : ℤ) (phase : ℝ),
      cos (2 * π * f * (j / fs) + phase) =
        cos (2 * π * aliasing f fs * (j / fs) + σ * phase) := by
  obtain ⟨n, hn⟩ := aliasing_congr f fs
  rcases hn with hn | hn
  · refine ⟨1, Or.inl rfl, fun j phase => ?_⟩
    rw [hn]
    have e : 2 * π * f * (j / fs) + phase =
        2 * π * (f - fs * n) * (j / fs) + 1 * phase + ((n * j : ℤ) : ℝ) * (2 * π) := by
      push_cast; field_simp; ring
    rw [e, cos_add_int_mul_two_pi]
  · refine ⟨-1, Or.inr rfl, fun j phase => ?_⟩
    rw [hn, ← cos_neg (2 * π * -(f - fs * n) * (j / fs) + -1 * phase)]
    have e : 2 * π * f * (j / fs) + phase =
        -(2 * π * -(f - fs * n) * (j / fs) + -1 * phase) + ((n * j : ℤ) : ℝ) * (2 * π) := by
      push_cast; field_simp; ring
    rw [e, cos_add_int_mul_two_pi]

/-- C08: two signals with the same aliased frequency cannot be told apart by sampling. -/
theorem C08_same_alias_same_samples (f g fs : ℝ) (hs : 0 < fs)
    (h : aliasing f fs = aliasing g fs) :
    ∃ σ : ℝ, (σ = 1 ∨ σ = -1) ∧ ∀ (j : ℤ) (phase : ℝ),
      cos (2 * π * f * (j / fs) + phase) = cos (2 * π * g * (j / fs) + σ * phase) := by
  obtain ⟨s, hs1, h1⟩ := C08_alias_indistinguishable f fs hs
  obtain ⟨t, ht1, h2⟩ := C08_alias_indistinguishable g fs hs
  have ht : t * t = 1 := by rcases ht1 with r | r <;> rw [r] <;> norm_num
  refine ⟨s * t, ?_, fun j phase => ?_⟩
  · rcases hs1 with r | r <;> rcases ht1 with q | q <;> rw [r, q] <;> norm_num
  · rw [h1, h2, h]
    congr 2
    calc s * phase = (t * t) * (s * phase) := by rw [ht, one_mul]
      _ = t * (s * t * phase) := by ring

/-- A 3 Hz and a 7 Hz signal sampled at 10 Hz have the same alias. -/
example : aliasing 7 10 = aliasing 3 10 := by
  have h1 : ⌊(7 : ℝ) / 10⌋ = 0 := by rw [Int.floor_eq_iff]; norm_num
  have h2 : ⌊(3 : ℝ) / 10⌋ = 0 := by rw [Int.floor_eq_iff]; norm_num
  unfold aliasing Num.round
  rw [h1, h2]
  norm_num

/-- Evaluation of a polynomial by Horner's rule, lowest coefficient first. -/
def horner : List ℝ → ℝ → ℝ
  | [], _ => 0
  | c :: cs, t => c + t * horner cs t

/-- C52: the sum of powers computed by the library is the value of the polynomial as given by
Horner's rule, for any number of coefficients. -/
theorem C52_polynomial_sum_eq_horner (cs : List ℝ) (t : ℝ) :
    polynomialSum cs t = horner cs t := by
  have key : ∀ (cs : List ℝ) (k : Nat),
      ((cs.zipIdx k).map (fun ci => ci.1 * t ^ ci.2)).sum = t ^ k * horner cs t := by
    intro cs
    induction cs with
    | nil => intro k; simp [horner]
    | cons c cs ih =>
      intro k
      simp only [List.zipIdx_cons, List.map_cons, List.sum_cons, ih, horner]
      ring
  simpa [polynomialSum] using key cs 0

example : polynomialSum [1, 2, 3] 2 = 17 := by
  rw [C52_polynomial_sum_eq_horner]; norm_num [horner]

end Verif.Math
