import Verif.Model.Geodetic
import Mathlib.Tactic.LinearCombination
import Mathlib.Tactic.FieldSimp

/-!
# The quartic equation behind the closed-form geodetic conversion

`zhuT` is the only root greater than `l` of m / (t + l)² + n / (t - l)² = 1.
-/

namespace Verif.Spatial

open Real

theorem cube_root {x : ℝ} (hx : 0 ≤ x) : (x ^ ((1 : ℝ) / 3)) ^ 3 = x := by
  have h := rpow_inv_natCast_pow hx (three_ne_zero)
  rw [one_div]
  exact_mod_cast h

theorem cube_inj {x y : ℝ} (hx : 0 ≤ x) (hy : 0 ≤ y) (h : x ^ 3 = y ^ 3) : x = y :=
  (pow_left_inj₀ hx hy (three_ne_zero)).1 h

theorem sign_mul_abs' (x : ℝ) : Real.sign x * |x| = x := by
  rcases lt_trichotomy x 0 with h | h | h
  · rw [Real.sign_of_neg h, abs_of_neg h]; ring
  · rw [h]; simp
  · rw [Real.sign_of_pos h, abs_of_pos h]; ring

/-- The sum of the two cube roots. -/
theorem zhu_sum {l m n : ℝ} (hm : 0 ≤ m) (hn : 0 ≤ n) (hg : 4 * l ^ 2 < m + n) :
    ∃ S, zhuB l m n = zhuI l m n / 3 - S ∧ (m + n - 4 * l ^ 2) / 3 ≤ S ∧
      S ^ 3 = 2 * zhuQ l m n + 3 * ((m + n - 4 * l ^ 2) / 6) ^ 2 * S ∧
      (n * l = 0 → S = (m + n - 4 * l ^ 2) / 3) := by
  set g := (m + n - 4 * l ^ 2) / 6 with hgd
  have hg0 : 0 < g := by rw [hgd]; linarith
  set r := m * n * l ^ 2 with hr
  have hr0 : 0 ≤ r := by positivity
  have hq : zhuQ l m n = g ^ 3 + r := by unfold zhuQ; rw [hgd, hr]; ring
  have hDd : zhuD l m n = sqrt ((2 * zhuQ l m n - r) * r) := by
    unfold zhuD; rw [hr]; congr 1; ring
  have hrad : 0 ≤ (2 * zhuQ l m n - r) * r := by
    rw [hq]; exact mul_nonneg (by linarith [pow_pos hg0 3]) hr0
  have hD0 : 0 ≤ zhuD l m n := by rw [hDd]; exact sqrt_nonneg _
  have hD2 : zhuD l m n ^ 2 = (2 * zhuQ l m n - r) * r := by rw [hDd]; exact sq_sqrt hrad
  set q := zhuQ l m n
  set D := zhuD l m n
  have hq0 : 0 ≤ q := by rw [hq]; positivity
  have hle : D ≤ q := by
    refine le_of_sq_le_sq ?_ hq0
    rw [hD2, hq]
    nlinarith [sq_nonneg (g ^ 3)]
  have hA := cube_root (show 0 ≤ q + D by linarith)
  have hB := cube_root (show 0 ≤ q - D by linarith)
  have hA0 : 0 ≤ (q + D) ^ ((1 : ℝ) / 3) := rpow_nonneg (by linarith) _
  have hB0 : 0 ≤ (q - D) ^ ((1 : ℝ) / 3) := rpow_nonneg (by linarith) _
  have hBd : zhuB l m n = zhuI l m n / 3 - (q + D) ^ ((1 : ℝ) / 3) - (q - D) ^ ((1 : ℝ) / 3) := rfl
  rw [hBd]
  generalize (q + D) ^ ((1 : ℝ) / 3) = A at *
  generalize (q - D) ^ ((1 : ℝ) / 3) = B at *
  have hAB : A * B = g ^ 2 := by
    refine cube_inj (by positivity) (by positivity) ?_
    rw [mul_pow, hA, hB]
    have : (q + D) * (q - D) = q ^ 2 - D ^ 2 := by ring
    rw [this, hD2, hq]
    ring
  have h2g : 2 * g ≤ A + B := by
    refine le_of_sq_le_sq ?_ (by linarith)
    nlinarith [sq_nonneg (A - B)]
  refine ⟨A + B, by ring, by rw [hgd] at h2g; linarith, ?_, ?_⟩
  · linear_combination hA + hB + 3 * (A + B) * hAB
  · intro hnl
    have hr' : r = 0 := by rw [hr, show m * n * l ^ 2 = m * l * (n * l) by ring, hnl]; ring
    have hD' : D = 0 := by
      rw [hDd, hr', mul_zero, sqrt_zero]
    have hA' : A = g := cube_inj hA0 hg0.le (by rw [hA, hD', hq, hr']; ring)
    have hB' : B = g := cube_inj hB0 hg0.le (by rw [hB, hD', hq, hr']; ring)
    rw [hA', hB', hgd]; ring

/-- The resolvent cubic and the signs of the radicands. -/
theorem zhu_resolvent {l m n : ℝ} (hm : 0 ≤ m) (hn : 0 ≤ n) (hg : 4 * l ^ 2 < m + n) :
    2 * (zhuB l m n ^ 2 - zhuK l m n) * (zhuB l m n - zhuI l m n) = l ^ 2 * (m - n) ^ 2 ∧
      (zhuB l m n + zhuI l m n) ^ 2 ≤ 4 * (zhuB l m n ^ 2 - zhuK l m n) ∧
      zhuI l m n ≤ zhuB l m n ∧ (m = n → zhuB l m n = zhuI l m n) := by
  obtain ⟨S, hB, h2, h3, -⟩ := zhu_sum hm hn hg
  have hp : ∀ X, X = (2 * l ^ 2 + m + n) / 3 →
      X ^ 3 - 3 * ((m + n - 4 * l ^ 2) / 6) ^ 2 * X - 2 * zhuQ l m n = l ^ 2 * (m - n) ^ 2 / 2 := by
    rintro X rfl; unfold zhuQ; ring
  set X := (2 * l ^ 2 + m + n) / 3 with hX
  have hpX := hp X hX
  set g := (m + n - 4 * l ^ 2) / 6 with hgd
  have hg0 : 0 < g := by rw [hgd]; linarith
  have hS2 : 2 * g ≤ S := by rw [hgd]; linarith
  have hX0 : 0 ≤ X := by rw [hX]; positivity
  have hfac : (X - S) * (S ^ 2 + S * X + X ^ 2 - 3 * g ^ 2) = l ^ 2 * (m - n) ^ 2 / 2 := by
    linear_combination hpX - h3
  have hpos : 0 < S ^ 2 + S * X + X ^ 2 - 3 * g ^ 2 := by
    have : 0 ≤ S * X := mul_nonneg (by linarith) hX0
    nlinarith [sq_nonneg X]
  have hBI : zhuB l m n - zhuI l m n = X - S := by
    rw [hB, hX]; unfold zhuI; ring
  refine ⟨?_, ?_, ?_, ?_⟩
  · rw [hB]
    rw [hgd] at h3
    unfold zhuQ at h3
    unfold zhuI zhuK
    linear_combination (-2 : ℝ) * h3
  · have e : 4 * (zhuB l m n ^ 2 - zhuK l m n) - (zhuB l m n + zhuI l m n) ^ 2 =
        3 * (S ^ 2 - 4 * g ^ 2) := by
      rw [hB, hgd]; unfold zhuI zhuK; ring
    have : 0 ≤ S ^ 2 - 4 * g ^ 2 := by nlinarith
    linarith
  · have : 0 ≤ X - S := by
      by_contra h
      push Not at h
      have h5 : 0 ≤ l ^ 2 * (m - n) ^ 2 / 2 := by positivity
      rw [← hfac] at h5
      nlinarith [mul_pos (neg_pos.2 h) hpos]
    linarith
  · intro hmn
    rw [hmn, sub_self] at hfac
    have : X - S = 0 := by
      rcases mul_eq_zero.1 (show (X - S) * (S ^ 2 + S * X + X ^ 2 - 3 * g ^ 2) = 0 by
        rw [hfac]; ring) with h | h
      · exact h
      · exact absurd h hpos.ne'
    linarith

/-- The root. -/
theorem zhu_root {l m n : ℝ} (hl : 0 ≤ l) (hm : 0 < m) (hn : 0 ≤ n) (hg : 4 * l ^ 2 < m + n) :
    l < zhuT l m n ∧ (zhuT l m n ^ 2 - l ^ 2) ^ 2 =
      m * (zhuT l m n - l) ^ 2 + n * (zhuT l m n + l) ^ 2 := by
  obtain ⟨r1, r2, r3, r4⟩ := zhu_resolvent hm.le hn hg
  obtain ⟨S, hBS, -, -, hS⟩ := zhu_sum hm.le hn hg
  have hc0 := sqrt_nonneg (zhuB l m n ^ 2 - zhuK l m n)
  have hc2 := sq_sqrt (show 0 ≤ zhuB l m n ^ 2 - zhuK l m n by
    nlinarith [sq_nonneg (zhuB l m n + zhuI l m n)])
  have ha0 := sqrt_nonneg ((zhuB l m n - zhuI l m n) / 2)
  have ha2 := sq_sqrt (show 0 ≤ (zhuB l m n - zhuI l m n) / 2 by linarith)
  have hT : zhuT l m n = sqrt (sqrt (zhuB l m n ^ 2 - zhuK l m n) - (zhuB l m n + zhuI l m n) / 2) -
    Real.sign (m - n) * sqrt ((zhuB l m n - zhuI l m n) / 2) := rfl
  set β := zhuB l m n with hβ
  set i := zhuI l m n with hi
  set k := zhuK l m n with hk
  set c := sqrt (β ^ 2 - k) with hc
  set α := sqrt ((β - i) / 2) with hα
  have habs : |(β + i) / 2| ≤ c := by
    refine abs_le_of_sq_le_sq ?_ hc0
    rw [hc2]; nlinarith
  have hs0 := sqrt_nonneg (c - (β + i) / 2)
  have hs2 := sq_sqrt (show 0 ≤ c - (β + i) / 2 by linarith [le_abs_self ((β + i) / 2)])
  set s := sqrt (c - (β + i) / 2)
  set a' := Real.sign (m - n) * α with ha'
  have hca : 2 * c * α = l * |m - n| := by
    have h1 : (2 * c * α) ^ 2 = (l * |m - n|) ^ 2 := by
      rw [mul_pow l, sq_abs, ← r1]
      rw [show (2 * c * α) ^ 2 = 4 * c ^ 2 * α ^ 2 by ring, hc2, ha2]; ring
    exact (pow_left_inj₀ (by positivity) (by positivity) two_ne_zero).1 h1
  have hca' : 2 * c * a' = l * (m - n) := by
    rw [ha', show 2 * c * (Real.sign (m - n) * α) = Real.sign (m - n) * (2 * c * α) by ring, hca,
      show Real.sign (m - n) * (l * |m - n|) = l * (Real.sign (m - n) * |m - n|) by ring,
      sign_mul_abs']
  have ha'2 : a' ^ 2 = (β - i) / 2 := by
    rw [← ha2, ha', mul_pow]
    rcases lt_trichotomy (m - n) 0 with h | h | h
    · rw [Real.sign_of_neg h]; ring
    · have : α = 0 := by rw [hα, r4 (by linarith), sub_self, zero_div, sqrt_zero]
      rw [this]; ring
    · rw [Real.sign_of_pos h]; ring
  have hi' : i = -(2 * l ^ 2 + m + n) / 2 := rfl
  have hk' : k = (l ^ 2 - m - n) * l ^ 2 := rfl
  have hquart : ∀ t, (t ^ 2 - l ^ 2) ^ 2 - m * (t - l) ^ 2 - n * (t + l) ^ 2 =
      ((t + a') ^ 2 - s ^ 2) * ((t - a') ^ 2 + (c + (β + i) / 2)) := by
    intro t
    have e1 : (t + a') ^ 2 - s ^ 2 = t ^ 2 + 2 * a' * t + β - c := by
      rw [hs2]; linear_combination ha'2
    have e2 : (t - a') ^ 2 + (c + (β + i) / 2) = t ^ 2 - 2 * a' * t + β + c := by
      linear_combination ha'2
    rw [e1, e2]
    have e3 : (t ^ 2 + 2 * a' * t + β - c) * (t ^ 2 - 2 * a' * t + β + c) =
        t ^ 4 + 2 * β * t ^ 2 + β ^ 2 - 4 * a' ^ 2 * t ^ 2 + 2 * t * (2 * c * a') - c ^ 2 := by ring
    rw [e3, hca', hc2, ha'2, hi', hk']
    ring
  have hlt : l < s - a' := by
    by_cases hnl : n * l = 0
    · have hS' := hS hnl
      rw [hS'] at hBS
      have hβ' : β = l ^ 2 - (m + n) / 2 := by rw [hBS, hi']; ring
      have hα' : α = l := by
        rw [hα, hβ', hi', show (l ^ 2 - (m + n) / 2 - -(2 * l ^ 2 + m + n) / 2) / 2 = l ^ 2 by ring]
        exact sqrt_sq hl
      have hc' : c = (m + n) / 2 := by
        rw [hc, hβ', hk', show (l ^ 2 - (m + n) / 2) ^ 2 - (l ^ 2 - m - n) * l ^ 2 =
          ((m + n) / 2) ^ 2 by ring]
        exact sqrt_sq (by positivity)
      have hs' : s ^ 2 = m + n := by rw [hs2, hc', hβ', hi']; ring
      rcases hl.eq_or_lt with h0 | h0
      · rw [← h0] at hα' ⊢
        rw [ha', hα', mul_zero, sub_zero]
        exact (abs_lt.1 (abs_lt_of_sq_lt_sq (show (0 : ℝ) ^ 2 < s ^ 2 by rw [hs']; linarith) hs0)).2
      · have hn0 : n = 0 := by
          rcases mul_eq_zero.1 hnl with h | h
          · exact h
          · exact absurd h h0.ne'
        rw [ha', hα', hn0, sub_zero, Real.sign_of_pos hm, one_mul]
        rw [hn0] at hs' hg
        have h2 := (abs_lt.1 (abs_lt_of_sq_lt_sq
          (show (2 * l) ^ 2 < s ^ 2 by rw [hs']; linarith) hs0)).2
        linarith
    · have hpos : 0 < n * l := lt_of_le_of_ne (by positivity) (Ne.symm hnl)
      have hn' : 0 < n := by
        rcases hn.eq_or_lt with h | h
        · rw [← h] at hnl; simp at hnl
        · exact h
      have hl' : 0 < l := by
        rcases hl.eq_or_lt with h | h
        · rw [← h] at hnl; simp at hnl
        · exact h
      have hq := hquart l
      have hneg : (l ^ 2 - l ^ 2) ^ 2 - m * (l - l) ^ 2 - n * (l + l) ^ 2 < 0 := by
        have h1 : 0 < n * (l + l) ^ 2 := by positivity
        have h2 : (l ^ 2 - l ^ 2) ^ 2 - m * (l - l) ^ 2 - n * (l + l) ^ 2 = -(n * (l + l) ^ 2) := by
          ring
        linarith
      have hQ2 : 0 ≤ (l - a') ^ 2 + (c + (β + i) / 2) := by
        have h1 := neg_abs_le ((β + i) / 2)
        have h2 := sq_nonneg (l - a')
        linarith
      rw [hq] at hneg
      have h1 : (l + a') ^ 2 - s ^ 2 < 0 := by
        by_contra h
        push Not at h
        have := mul_nonneg h hQ2
        linarith
      have h2 := (abs_lt.1 (abs_lt_of_sq_lt_sq (show (l + a') ^ 2 < s ^ 2 by linarith) hs0)).2
      linarith
  rw [hT]
  refine ⟨hlt, ?_⟩
  have h := hquart (s - a')
  rw [show (s - a' + a') ^ 2 - s ^ 2 = 0 by ring, zero_mul] at h
  linarith

/-- The root is the only one greater than `l`. -/
theorem zhu_unique {l m n t : ℝ} (hl : 0 ≤ l) (hm : 0 < m) (hn : 0 ≤ n) (hg : 4 * l ^ 2 < m + n)
    (ht : l < t) (he : (t ^ 2 - l ^ 2) ^ 2 = m * (t - l) ^ 2 + n * (t + l) ^ 2) :
    zhuT l m n = t := by
  obtain ⟨h1, h2⟩ := zhu_root hl hm hn hg
  have key : ∀ u v, l < u → u < v → (u ^ 2 - l ^ 2) ^ 2 = m * (u - l) ^ 2 + n * (u + l) ^ 2 →
      (v ^ 2 - l ^ 2) ^ 2 = m * (v - l) ^ 2 + n * (v + l) ^ 2 → False := by
    intro u v hu huv eu ev
    have f : ∀ x, l < x → (x ^ 2 - l ^ 2) ^ 2 = m * (x - l) ^ 2 + n * (x + l) ^ 2 →
        m / (x + l) ^ 2 + n / (x - l) ^ 2 = 1 := by
      intro x hx e
      have a1 : 0 < x + l := by linarith
      have a2 : 0 < x - l := by linarith
      field_simp
      linear_combination -e
    have e1 := f u hu eu
    have e2 := f v (by linarith) ev
    have l1 : m / (v + l) ^ 2 < m / (u + l) ^ 2 :=
      div_lt_div_of_pos_left hm (by have : 0 < u + l := by linarith
                                    positivity) (by nlinarith)
    have l2 : n / (v - l) ^ 2 ≤ n / (u - l) ^ 2 :=
      div_le_div_of_nonneg_left hn (by have : 0 < u - l := by linarith
                                       positivity) (by nlinarith)
    linarith
  rcases lt_trichotomy (zhuT l m n) t with h | h | h
  · exact (key _ _ h1 h h2 he).elim
  · exact h
  · exact (key _ _ ht h he h2).elim

end Verif.Spatial
