import Verif.Props.Rounded
import Verif.Lemmas.Num
import Mathlib.Data.Int.Log
/-!
# C114: arithmetic with 53 binary digits
-/
namespace Verif.Rounded
open Verif Verif.Spec Verif.Predict

/-- The distance of the numbers with 53 binary digits around `x`. -/
noncomputable def ulp (x : ℝ) : ℝ := 2 ^ (Int.log 2 |x| - 52)

/-- The closest number with 53 binary digits, halves to even. -/
noncomputable def nearest (x : ℝ) : ℝ := (Num.round (x / ulp x) : ℝ) * ulp x

/-- Arithmetic with 53 binary digits and unlimited exponents, functions that are rounded correctly
and sums from left to right. -/
noncomputable def binary : Arith where
  rd := nearest
  cos x := nearest (Real.cos x)
  sin x := nearest (Real.sin x)
  pow t i := nearest (t ^ i)
  sum l := l.foldl (fun s x => nearest (s + x)) 0
  dot a c := (List.zipWith (fun (x : ℝ) (y : ℤ) => nearest (x * (y : ℝ))) a c).foldl
    (fun s x => nearest (s + x)) 0
  pi := nearest Real.pi

theorem nearest_error (x : ℝ) : |nearest x - x| ≤ 1 / 2 ^ 53 * |x| := by
  by_cases hx : x = 0
  · subst hx
    simp [nearest, Num.round]
  have hx0 : 0 < |x| := abs_pos.mpr hx
  have hp : 0 < ulp x := zpow_pos (by norm_num) _
  have h1 := Num.abs_sub_round_le (x / ulp x)
  have h2 : (2 : ℝ) ^ Int.log 2 |x| ≤ |x| := by
    have := Int.zpow_log_le_self (b := 2) (by norm_num) hx0
    exact_mod_cast this
  have h3 : ulp x = 2 ^ Int.log 2 |x| / 2 ^ 52 := by
    rw [ulp, zpow_sub₀ (by norm_num)]
    norm_cast
  have e : nearest x - x = -((x / ulp x - (Num.round (x / ulp x) : ℝ)) * ulp x) := by
    rw [nearest, sub_mul, div_mul_cancel₀ _ hp.ne']
    ring
  rw [e, abs_neg, abs_mul, abs_of_pos hp]
  have h4 := mul_le_mul_of_nonneg_right h1 hp.le
  refine h4.trans ?_
  rw [h3]
  have : (2 : ℝ) ^ Int.log 2 |x| / 2 ^ 52 ≤ |x| / 2 ^ 52 :=
    div_le_div_of_nonneg_right h2 (by positivity)
  linarith

theorem Rel.nearest {a M x' x : ℝ} (h : Rel a M x' x) :
    Rel (a * (1 + 1 / 2 ^ 53)) M (nearest x') x := by
  refine ⟨by nlinarith [h.one], h.le, ?_⟩
  have h1 : |Rounded.nearest x' - x| ≤ |Rounded.nearest x' - x'| + |x' - x| := abs_sub_le _ _ _
  have h2 := nearest_error x'
  have h3 := h.abs_le
  have := h.err
  nlinarith

/-- Sums from left to right of numbers that are rounded themselves. -/
theorem foldl_rel {a : ℝ} (ha : 1 ≤ a) : ∀ (l' l : List ℝ),
    List.Forall₂ (fun x' x => Rel a |x| x' x) l' l → ∀ (b M s' s : ℝ), a ≤ b → Rel b M s' s →
      Rel (b * (1 + 1 / 2 ^ 53) ^ l.length) (M + (l.map abs).sum)
        (l'.foldl (fun s x => nearest (s + x)) s') (s + l.sum)
  | _, _, .nil, b, M, s', s, _, h => by simpa using h
  | _, _, .cons (a := x') (b := x) (l₁ := l') (l₂ := l) hx hl, b, M, s', s, hab, h => by
    have h1 := (h.add (hx.mono hab)).nearest
    have hb : 1 ≤ b := ha.trans hab
    have h2 := foldl_rel ha l' l hl _ _ _ _ (by nlinarith) h1
    rw [List.foldl_cons, List.sum_cons, List.map_cons, List.sum_cons, List.length_cons]
    rw [show b * (1 + 1 / 2 ^ 53) ^ (l.length + 1)
      = b * (1 + 1 / 2 ^ 53) * (1 + 1 / 2 ^ 53) ^ l.length by rw [pow_succ]; ring,
      ← add_assoc, ← add_assoc]
    exact h2

/-- Arithmetic with 53 binary digits is standard. -/
theorem C114_binary : Standard binary (1 / 2 ^ 53) where
  nonneg := by positivity
  small := by norm_num
  rd := nearest_error
  cos x := by
    have h1 := nearest_error (Real.cos x)
    have h2 := Real.abs_cos_le_one x
    show |nearest (Real.cos x) - Real.cos x| ≤ _
    norm_num at h1 ⊢
    linarith
  sin x := by
    have h1 := nearest_error (Real.sin x)
    have h2 := Real.abs_sin_le_one x
    show |nearest (Real.sin x) - Real.sin x| ≤ _
    norm_num at h1 ⊢
    linarith
  pow t i := by
    have h1 := nearest_error (t ^ i)
    have h2 := abs_nonneg (t ^ i)
    show |nearest (t ^ i) - t ^ i| ≤ _
    linarith
  sum l := by
    have h := foldl_rel (le_refl 1) l l
      (by induction l with | nil => exact .nil | cons x l ih => exact .cons (Rel.self x) ih)
      1 0 0 0 (le_refl 1) ⟨le_refl 1, by simp, by simp⟩
    have h1 := h.err
    rw [one_mul, zero_add, zero_add] at h1
    exact h1
  dot a c := by
    have h := foldl_rel (a := 1 + 1 / 2 ^ 53) (by norm_num)
      (List.zipWith (fun (x : ℝ) (y : ℤ) => nearest (x * (y : ℝ))) a c)
      (List.zipWith (fun (x : ℝ) (y : ℤ) => x * (y : ℝ)) a c)
      (by
        induction a generalizing c with
        | nil => exact .nil
        | cons x a ih =>
          cases c with
          | nil => exact .nil
          | cons y c =>
            refine .cons ?_ (ih c)
            have := (Rel.self (x * (y : ℝ))).nearest
            rwa [one_mul] at this)
      (1 + 1 / 2 ^ 53) 0 0 0 (le_refl _) ⟨by norm_num, by simp, by simp⟩
    have h1 := h.err
    have e : ((List.zipWith (fun (x : ℝ) (y : ℤ) => x * (y : ℝ)) a c).map abs).sum = absDot a c := by
      unfold absDot
      congr 1
      rw [List.map_zipWith]
      congr 1
      funext x y
      exact abs_mul _ _
    rw [zero_add, zero_add, e] at h1
    refine h1.trans (mul_le_mul_of_nonneg_right ?_ ?_)
    · rw [List.length_zipWith, ← pow_succ']
      exact sub_le_sub_right (pow_le_pow_right₀ (by norm_num)
        (Nat.succ_le_succ (min_le_left _ _))) 1
    · rw [← e]
      exact List.sum_nonneg fun x hx => by
        obtain ⟨y, _, rfl⟩ := List.mem_map.mp hx
        exact abs_nonneg y
  pi := by
    have h := nearest_error Real.pi
    rwa [abs_of_pos Real.pi_pos] at h

/-- With 53 binary digits and nodal corrections with seven digits the predictions at one time are
those of exact arithmetic up to a millionth of the sum of the amplitudes. -/
theorem C114_double_partial (nodal : ℝ → ℝ → String → ℝ × ℝ) (corr : String) (names : List String)
    (hnames : ∀ c ∈ names, (Coef.table.lookup c).isSome = true) (hn : names.length ≤ 1000000)
    (t : ℝ × ℝ) (hc : List (List MC)) (ht : Near1992 t)
    (hN : NodalNear nodal corr t names (1 / 10000000))
    (hrow : ∀ row ∈ hc, row.length = names.length) :
    ∃ r' r, map binary (env binary nodal) t.1 t.2 hc names corr = .ok r' ∧
      Predict.map (Astro.predictEnv corr) t.1 t.2 hc names corr = .ok r ∧
      r'.length = hc.length ∧ r.length = hc.length ∧
      ∀ (i : ℕ) row h' h, hc[i]? = some row → r'[i]? = some h' → r[i]? = some h →
        |h'.1 - h.1| ≤ 1 / 1000000 *
          amplitudes (waves (Astro.predictEnv corr) corr t names row) ∧ h'.2 = h.2 := by
  obtain ⟨r', r, h1, h2, h3, h4, h5⟩ := (C114_predictions_partial binary _ _ C114_binary
    (by norm_num) (by norm_num) nodal corr names hnames hn).1 t hc ht hN hrow
  refine ⟨r', r, h1, h2, h3, h4, fun i row h' h e1 e2 e3 => ?_⟩
  obtain ⟨h6, h7⟩ := h5 i row h' h e1 e2 e3
  refine ⟨h6.trans (mul_le_mul_of_nonneg_right (by norm_num) ?_), h7⟩
  refine List.sum_nonneg fun x hx => ?_
  obtain ⟨w, _, rfl⟩ := List.mem_map.mp hx
  positivity

/-- There are such nodal corrections for all corrections, times and constituents: the exact ones
with the angles reduced to a turn. -/
theorem nodalNear_exact (corr : String) : ∃ nodal, ∀ (t : ℝ × ℝ) (names : List String) (d : ℝ),
    0 ≤ d → NodalNear nodal corr t names d := by
  have hp := Real.pi_pos
  have h3 := Real.pi_lt_d2
  refine ⟨fun t δ c => (((Astro.predictEnv corr).args t δ c).pu
    - 2 * Real.pi * ⌊((Astro.predictEnv corr).args t δ c).pu / (2 * Real.pi)⌋,
    ((Astro.predictEnv corr).args t δ c).pf), fun t names d hd => ⟨?_, ?_, ?_⟩⟩
  · intro c _
    dsimp only
    rw [sub_self, abs_zero]
    positivity
  · intro c _
    refine ⟨-⌊((Astro.predictEnv corr).args t.1 t.2 c).pu / (2 * Real.pi)⌋, ?_⟩
    dsimp only
    push_cast
    ring_nf
    simpa using hd
  · intro c _
    dsimp only
    generalize ((Astro.predictEnv corr).args t.1 t.2 c).pu = x
    have h1 := Int.floor_le (x / (2 * Real.pi))
    have h2 := Int.lt_floor_add_one (x / (2 * Real.pi))
    rw [le_div_iff₀ (by positivity)] at h1
    rw [div_lt_iff₀ (by positivity)] at h2
    exact abs_le.mpr ⟨by linarith, by linarith⟩

/-- The hypotheses hold, e.g. for two semidiurnal tides on the first day of 2026. -/
example : ∃ nodal, Near1992 (12419, 0.0008) ∧
    NodalNear nodal "GOT" (12419, 0.0008) ["m2", "s2"] (1 / 10000000) ∧
    ∀ c ∈ ["m2", "s2"], (Coef.table.lookup c).isSome = true := by
  obtain ⟨nodal, h⟩ := nodalNear_exact "GOT"
  exact ⟨nodal, ⟨by norm_num [abs_of_pos], by norm_num [abs_of_pos]⟩, h _ _ _ (by norm_num),
    by decide +kernel⟩

/-! ### The remainder -/

/-- C114 (missing: below `y`).  A rounded remainder is not negative and exceeds `y` by rounding
only. -/
theorem C114_angle_partial (A : Arith) (u : ℝ) (hA : Standard A u) (x y : ℝ) (hy : 0 < y) :
    0 ≤ npmod A x y ∧ npmod A x y ≤ (1 + u) * y := by
  have hu := hA.nonneg
  have hs : u ≤ 1 := hA.small.trans (by norm_num)
  have hxy : x = y * (x / y) := by field_simp
  have hm : |x - y * (truncate (x / y) : ℝ)| < y ∧
      (0 ≤ x / y → 0 ≤ x - y * (truncate (x / y) : ℝ)) := by
    have e : x - y * (truncate (x / y) : ℝ) = y * (x / y - truncate (x / y)) := by
      rw [mul_sub, ← hxy]
    rw [e, abs_mul, abs_of_pos hy]
    have h1 : |x / y - truncate (x / y)| < 1 ∧ (0 ≤ x / y → 0 ≤ x / y - truncate (x / y)) := by
      unfold truncate
      split
      · have h1 := Int.floor_le (x / y)
        have h2 := Int.lt_floor_add_one (x / y)
        exact ⟨abs_lt.mpr ⟨by linarith, by linarith⟩, fun _ => by linarith⟩
      · next h =>
        have h1 := Int.le_ceil (x / y)
        have h2 := Int.ceil_lt_add_one (x / y)
        exact ⟨abs_lt.mpr ⟨by linarith, by linarith⟩, fun h0 => absurd h0 h⟩
    exact ⟨by nlinarith [h1.1], fun h0 => mul_nonneg hy.le (h1.2 h0)⟩
  unfold npmod
  dsimp only
  generalize x - y * (truncate (x / y) : ℝ) = m at *
  obtain ⟨m1, m2⟩ := abs_lt.mp hm.1
  split
  · next h =>
    have h1 : m < 0 := by
      by_contra h0
      apply h.2
      simp only [eq_iff_iff]
      exact ⟨fun h' => absurd h' (not_lt.mpr hy.le), fun h' => absurd h' h0⟩
    have h2 := hA.rd (m + y)
    rw [abs_of_pos (by linarith : 0 < m + y)] at h2
    obtain ⟨h3, h4⟩ := abs_le.mp h2
    exact ⟨by nlinarith, by nlinarith⟩
  · next h =>
    have h1 : 0 ≤ m := by
      by_contra h0
      apply h
      refine ⟨by linarith, ?_⟩
      simp only [ne_eq, eq_iff_iff]
      exact fun h' => absurd (h'.mpr (not_le.mp h0)) (not_lt.mpr hy.le)
    exact ⟨h1, by nlinarith⟩

/-- The longitude of a point just below zero becomes 360 degrees and not a number below it. -/
theorem C114_circle_false : ¬ ∀ x : ℝ, npmod binary x 360 < 360 := by
  intro h
  have h1 := h (-(1 / 2 ^ 60))
  have ht : truncate (-(1 / 2 ^ 60) / 360) = 0 := by
    rw [truncate, if_neg (by norm_num)]
    rw [Int.ceil_eq_iff]
    norm_num
  have hl : Int.log 2 |(-(1 / 2 ^ 60) + 360 : ℝ)| = 8 := by
    rw [abs_of_pos (by norm_num)]
    apply le_antisymm
    · have := (Int.lt_zpow_iff_log_lt (R := ℝ) (b := 2) (by norm_num) (x := 9)
        (r := -(1 / 2 ^ 60) + 360) (by norm_num)).mp (by norm_num)
      omega
    · exact (Int.zpow_le_iff_le_log (R := ℝ) (b := 2) (by norm_num) (x := 8)
        (r := -(1 / 2 ^ 60) + 360) (by norm_num)).mp (by norm_num)
  have hn : nearest (-(1 / 2 ^ 60) + 360) = 360 := by
    have hu : ulp (-(1 / 2 ^ 60) + 360) = 1 / 2 ^ 44 := by
      rw [ulp, hl]
      norm_num
    have hf : ⌊((-(1 / 2 ^ 60) + 360) / (1 / 2 ^ 44) : ℝ)⌋ = 360 * 2 ^ 44 - 1 := by
      rw [Int.floor_eq_iff]
      norm_num
    rw [nearest, hu, Num.round, hf, if_neg (by norm_num), if_pos (by norm_num)]
    norm_num
  have e : npmod binary (-(1 / 2 ^ 60)) 360 = 360 := by
    unfold npmod
    rw [ht]
    dsimp only
    rw [if_pos ⟨by norm_num, by norm_num⟩, Int.cast_zero, mul_zero, sub_zero]
    exact hn
  rw [e] at h1
  exact lt_irrefl _ h1

end Verif.Rounded
