import Verif.Props.Love
import Verif.Props.Infer

/-!
# C65: admittances at the actual frequencies of the pivots
-/

namespace Verif.Infer

open Verif Verif.Predict Verif.Astro Real

/-- `pyTMD.arguments.frequency` for one constituent (zero if there is none). -/
noncomputable def freqOf (corrections c : String) : ℝ :=
  match frequency corrections [c] with
  | .ok [w] => w
  | _ => 0

theorem freqOf_eq {corrections c : String} {r : List ℤ} (hs : c ≠ "s1")
    (h : Coef.table.lookup c = some r) :
    freqOf corrections c = π * (dotQ (ratesQ corrections) r : ℝ) / 15552000 := by
  have hr : row corrections c = .ok r := by
    unfold row Coef.lookup
    rw [if_neg (by simp [hs]), h]
  unfold freqOf
  rw [Love.frequency_one hr]

/-- Degrees per day. -/
theorem freqOf_day {corrections c : String} {r : List ℤ} (hs : c ≠ "s1")
    (h : Coef.table.lookup c = some r) (a b : ℚ)
    (hq : (a ≤ dotQ ratesOtis r ∧ dotQ ratesOtis r ≤ b) ∧
      (a ≤ dotQ ratesAstro5 r ∧ dotQ ratesAstro5 r ≤ b)) :
    ∃ q : ℝ, (a : ℝ) ≤ q ∧ q ≤ b ∧ freqOf corrections c = π * q / 15552000 := by
  refine ⟨_, ?_, ?_, freqOf_eq hs h⟩
  · rw [Rat.cast_le]
    rcases ratesQ_cases corrections with e | e <;> rw [e]
    · exact hq.1.1
    · exact hq.2.1
  · rw [Rat.cast_le]
    rcases ratesQ_cases corrections with e | e <;> rw [e]
    · exact hq.1.2
    · exact hq.2.2

theorem day_q1 (corrections : String) : ∃ q : ℝ, ((321.5678 : ℚ) : ℝ) ≤ q ∧ q ≤ (321.568 : ℚ) ∧
    freqOf corrections "q1" = π * q / 15552000 :=
  freqOf_day (r := [1, -2, 0, 1, 0, 0, -1]) (by decide) (by decide +kernel) _ _ (by decide +kernel)
theorem day_o1 (corrections : String) : ∃ q : ℝ, ((334.6328 : ℚ) : ℝ) ≤ q ∧ q ≤ (334.633 : ℚ) ∧
    freqOf corrections "o1" = π * q / 15552000 :=
  freqOf_day (r := [1, -1, 0, 0, 0, 0, -1]) (by decide) (by decide +kernel) _ _ (by decide +kernel)
theorem day_k1 (corrections : String) : ∃ q : ℝ, ((360.9856 : ℚ) : ℝ) ≤ q ∧ q ≤ (360.9857 : ℚ) ∧
    freqOf corrections "k1" = π * q / 15552000 :=
  freqOf_day (r := [1, 1, 0, 0, 0, 0, 1]) (by decide) (by decide +kernel) _ _ (by decide +kernel)
theorem day_n2 (corrections : String) : ∃ q : ℝ, ((682.5535 : ℚ) : ℝ) ≤ q ∧ q ≤ (682.5536 : ℚ) ∧
    freqOf corrections "n2" = π * q / 15552000 :=
  freqOf_day (r := [2, -1, 0, 1, 0, 0, 0]) (by decide) (by decide +kernel) _ _ (by decide +kernel)
theorem day_m2 (corrections : String) : ∃ q : ℝ, ((695.6185 : ℚ) : ℝ) ≤ q ∧ q ≤ (695.6186 : ℚ) ∧
    freqOf corrections "m2" = π * q / 15552000 :=
  freqOf_day (r := [2, 0, 0, 0, 0, 0, 0]) (by decide) (by decide +kernel) _ _ (by decide +kernel)
theorem day_s2 (corrections : String) : ∃ q : ℝ, ((720 : ℚ) : ℝ) ≤ q ∧ q ≤ (720 : ℚ) ∧
    freqOf corrections "s2" = π * q / 15552000 :=
  freqOf_day (r := [2, 2, -2, 0, 0, 0, 0]) (by decide) (by decide +kernel) _ _ (by decide +kernel)
theorem day_node (corrections : String) : ∃ q : ℝ, ((-1 : ℚ) : ℝ) ≤ q ∧ q ≤ (0 : ℚ) ∧
    freqOf corrections "node" = π * q / 15552000 :=
  freqOf_day (r := [0, 0, 0, 0, 1, 0, 2]) (by decide) (by decide +kernel) _ _ (by decide +kernel)
theorem day_mm (corrections : String) : ∃ q : ℝ, ((13 : ℚ) : ℝ) ≤ q ∧ q ≤ (14 : ℚ) ∧
    freqOf corrections "mm" = π * q / 15552000 :=
  freqOf_day (r := [0, 1, 0, -1, 0, 0, 0]) (by decide) (by decide +kernel) _ _ (by decide +kernel)
theorem day_mf (corrections : String) : ∃ q : ℝ, ((26 : ℚ) : ℝ) ≤ q ∧ q ≤ (27 : ℚ) ∧
    freqOf corrections "mf" = π * q / 15552000 :=
  freqOf_day (r := [0, 2, 0, 0, 0, 0, 0]) (by decide) (by decide +kernel) _ _ (by decide +kernel)

theorem scaled_lt {p q : ℝ} (h : p < q) : π * p / 15552000 < π * q / 15552000 := by
  have := mul_lt_mul_of_pos_left h pi_pos
  linarith

/-- C65: the frequencies of the pivots of each band are in increasing order, for every type of
corrections: no band is degenerate. -/
theorem C65_order (corrections : String) :
    freqOf corrections "q1" < freqOf corrections "o1" ∧
      freqOf corrections "o1" < freqOf corrections "k1" ∧
      freqOf corrections "n2" < freqOf corrections "m2" ∧
      freqOf corrections "m2" < freqOf corrections "s2" ∧
      freqOf corrections "node" < freqOf corrections "mm" ∧
      freqOf corrections "mm" < freqOf corrections "mf" := by
  obtain ⟨q1, a1, b1, e1⟩ := day_q1 corrections
  obtain ⟨q2, a2, b2, e2⟩ := day_o1 corrections
  obtain ⟨q3, a3, b3, e3⟩ := day_k1 corrections
  obtain ⟨q4, a4, b4, e4⟩ := day_n2 corrections
  obtain ⟨q5, a5, b5, e5⟩ := day_m2 corrections
  obtain ⟨q6, a6, b6, e6⟩ := day_s2 corrections
  obtain ⟨q7, a7, b7, e7⟩ := day_node corrections
  obtain ⟨q8, a8, b8, e8⟩ := day_mm corrections
  obtain ⟨q9, a9, b9, e9⟩ := day_mf corrections
  rw [e1, e2, e3, e4, e5, e6, e7, e8, e9]
  norm_num at a1 a2 a3 a4 a5 a6 a7 a8 a9 b1 b2 b3 b4 b5 b6 b7 b8 b9
  refine ⟨scaled_lt ?_, scaled_lt ?_, scaled_lt ?_, scaled_lt ?_, scaled_lt ?_, scaled_lt ?_⟩ <;>
    linarith

/-- The weights of the three pivots in the Munk-Cartwright interpolation at frequency `w`. -/
noncomputable def weight (A : List (ℝ × ℝ × ℝ)) (w : ℝ) (pr : ℝ × ℝ × ℝ → ℝ) : ℝ :=
  pr (A.getD 0 (0, 0, 0)) + Real.cos (2 * w * 86400) * pr (A.getD 1 (0, 0, 0)) +
    Real.sin (2 * w * 86400) * pr (A.getD 2 (0, 0, 0))

theorem munk_weights (A : List (ℝ × ℝ × ℝ)) (w : ℝ) (z0 z1 z2 : MC) :
    (munk A w z0 z1 z2).re = weight A w (·.1) * z0.re + weight A w (·.2.1) * z1.re +
        weight A w (·.2.2) * z2.re ∧
      (munk A w z0 z1 z2).im = weight A w (·.1) * z0.im + weight A w (·.2.1) * z1.im +
        weight A w (·.2.2) * z2.im := by
  unfold munk weight
  simp only [add, smul, unmask]
  constructor <;> ring

/-- C65: where the three pivots have the same admittance, the Munk-Cartwright interpolation gives
that admittance at every frequency, in both bands. -/
theorem C65_constant (w : ℝ) (z : MC) :
    ((munk semiMatrix w z z z).re = z.re ∧ (munk semiMatrix w z z z).im = z.im) ∧
      ((munk diurnalMatrix w z z z).re = z.re ∧ (munk diurnalMatrix w z z z).im = z.im) := by
  obtain ⟨a1, a2⟩ := munk_weights semiMatrix w z z z
  obtain ⟨b1, b2⟩ := munk_weights diurnalMatrix w z z z
  rw [a1, a2, b1, b2]
  unfold weight semiMatrix diurnalMatrix
  simp only [List.getD_cons_zero, List.getD_cons_succ]
  refine ⟨⟨?_, ?_⟩, ?_, ?_⟩ <;> ring

/-- Sine and cosine near a small rational. -/
theorem trig_near {x a : ℝ} (hx : |x - a| ≤ 2e-5) (ha : |a| ≤ 1) :
    |sin x - (a - a ^ 3 / 6)| ≤ 2e-5 + |a| ^ 5 / 100 ∧
      |cos x - (1 - a ^ 2 / 2)| ≤ 2e-5 + |a| ^ 4 * (5 / 96) := by
  constructor
  · have h1 := (abs_sin_sub_sin_le x a).trans hx
    have h2 := Real.sin_bound ha
    have e : sin x - (a - a ^ 3 / 6) = (sin x - sin a) + (sin a - (a - a ^ 3 / 6)) := by ring
    rw [e]
    exact (abs_add_le _ _).trans (add_le_add h1 h2)
  · have h1 := (abs_cos_sub_cos_le x a).trans hx
    have h2 := Real.cos_bound ha
    have e : cos x - (1 - a ^ 2 / 2) = (cos x - cos a) + (cos a - (1 - a ^ 2 / 2)) := by ring
    rw [e]
    exact (abs_add_le _ _).trans (add_le_add h1 h2)

/-- The remainder of an angle of `q` degrees per day at two days from a base angle. -/
theorem near_of {q b a : ℝ}
    (h2 : 90 * (|a| - 2e-5) ≤ 3.141592 * |q - b|) (h3 : 3.141593 * |q - b| ≤ 90 * (|a| + 2e-5))
    (hs : 0 ≤ (q - b) * a) (hne : a ≠ 0) : |π * (q - b) / 90 - a| ≤ 2e-5 := by
  have p1 := pi_gt_d6
  have p2 := pi_lt_d6
  rcases lt_or_gt_of_ne hne with ha | ha
  · have hq : q - b ≤ 0 := by by_contra h; push Not at h; nlinarith
    rw [abs_of_nonpos hq, abs_of_neg ha] at *
    exact abs_le.2 ⟨by nlinarith, by nlinarith⟩
  · have hq : 0 ≤ q - b := by by_contra h; push Not at h; nlinarith
    rw [abs_of_nonneg hq, abs_of_pos ha] at *
    exact abs_le.2 ⟨by nlinarith, by nlinarith⟩

/-- The three weights at a pivot are those of that pivot, to 0.003. -/
def Selects (A : List (ℝ × ℝ × ℝ)) (w : ℝ) (i : ℕ) : Prop :=
  |weight A w (·.1) - (if i = 0 then 1 else 0)| ≤ 0.003 ∧
    |weight A w (·.2.1) - (if i = 1 then 1 else 0)| ≤ 0.003 ∧
    |weight A w (·.2.2) - (if i = 2 then 1 else 0)| ≤ 0.003

theorem selects_of {A : List (ℝ × ℝ × ℝ)} {w c s : ℝ} {i : ℕ} {e : ℝ}
    (hc : |Real.cos (2 * w * 86400) - c| ≤ e) (hs : |Real.sin (2 * w * 86400) - s| ≤ e)
    (h : ∀ pr ∈ [((fun x : ℝ × ℝ × ℝ => x.1), (0 : ℕ)), ((fun x => x.2.1), 1), ((fun x => x.2.2), 2)],
      |pr.1 (A.getD 0 (0, 0, 0)) + c * pr.1 (A.getD 1 (0, 0, 0)) + s * pr.1 (A.getD 2 (0, 0, 0)) -
        (if i = pr.2 then 1 else 0)| +
        e * (|pr.1 (A.getD 1 (0, 0, 0))| + |pr.1 (A.getD 2 (0, 0, 0))|) ≤ 0.003) :
    Selects A w i := by
  have key : ∀ pr ∈ [((fun x : ℝ × ℝ × ℝ => x.1), (0 : ℕ)), ((fun x => x.2.1), 1),
      ((fun x => x.2.2), 2)], |weight A w pr.1 - (if i = pr.2 then 1 else 0)| ≤ 0.003 := by
    intro pr hp
    have h' := h pr hp
    generalize hf : (if i = pr.2 then (1 : ℝ) else 0) = t at h' ⊢
    unfold weight
    generalize pr.1 (A.getD 0 (0, 0, 0)) = p0 at *
    generalize pr.1 (A.getD 1 (0, 0, 0)) = p1 at *
    generalize pr.1 (A.getD 2 (0, 0, 0)) = p2 at *
    generalize Real.cos (2 * w * 86400) = C at *
    generalize Real.sin (2 * w * 86400) = S at *
    have e1 : p0 + C * p1 + S * p2 - t = (p0 + c * p1 + s * p2 - t) + ((C - c) * p1 + (S - s) * p2) := by
      ring
    rw [e1]
    refine (abs_add_le _ _).trans (le_trans ?_ h')
    refine add_le_add_right ((abs_add_le _ _).trans ?_) _
    rw [abs_mul, abs_mul, mul_add]
    exact add_le_add (mul_le_mul_of_nonneg_right hc (abs_nonneg _))
      (mul_le_mul_of_nonneg_right hs (abs_nonneg _))
  exact ⟨key (fun x => x.1, 0) (by simp), key (fun x => x.2.1, 1) (by simp),
    key (fun x => x.2.2, 2) (by simp)⟩

/-- An angle of `q` degrees per day, base angle and remainder. -/
theorem angle_split {w q : ℝ} (b : ℝ) (h : w = π * q / 15552000) :
    2 * w * 86400 = π * b / 90 + π * (q - b) / 90 := by rw [h]; ring

theorem selects_threequarter {A : List (ℝ × ℝ × ℝ)} {w q a : ℝ} {i : ℕ} (k : ℕ) {e : ℝ}
    (h : w = π * q / 15552000) (hn : |π * (q - (135 + 180 * k)) / 90 - a| ≤ 2e-5) (ha : |a| ≤ 1)
    (he1 : 2e-5 + |a| ^ 5 / 100 ≤ e) (he2 : 2e-5 + |a| ^ 4 * (5 / 96) ≤ e)
    (H : ∀ pr ∈ [((fun x : ℝ × ℝ × ℝ => x.1), (0 : ℕ)), ((fun x => x.2.1), 1), ((fun x => x.2.2), 2)],
      |pr.1 (A.getD 0 (0, 0, 0)) + (a - a ^ 3 / 6) * pr.1 (A.getD 1 (0, 0, 0)) +
        (-(1 - a ^ 2 / 2)) * pr.1 (A.getD 2 (0, 0, 0)) - (if i = pr.2 then 1 else 0)| +
        e * (|pr.1 (A.getD 1 (0, 0, 0))| + |pr.1 (A.getD 2 (0, 0, 0))|) ≤ 0.003) :
    Selects A w i := by
  obtain ⟨t1, t2⟩ := trig_near hn ha
  have e1 := angle_split (135 + 180 * (k : ℝ)) h
  generalize π * (q - (135 + 180 * k)) / 90 = x at *
  have e2 : 2 * w * 86400 = x + 3 * (π / 2) + k * (2 * π) := by rw [e1]; ring
  have c1 : Real.cos (2 * w * 86400) = sin x := by
    rw [e2, cos_add_nat_mul_two_pi, show x + 3 * (π / 2) = (x + π / 2) + π by ring, cos_add_pi,
      cos_add_pi_div_two, neg_neg]
  have c2 : Real.sin (2 * w * 86400) = -cos x := by
    rw [e2, sin_add_nat_mul_two_pi, show x + 3 * (π / 2) = (x + π / 2) + π by ring, sin_add_pi,
      sin_add_pi_div_two]
  refine selects_of (c := a - a ^ 3 / 6) (s := -(1 - a ^ 2 / 2)) (e := e) ?_ ?_ H
  · rw [c1]; exact t1.trans he1
  · rw [c2, show -cos x - -(1 - a ^ 2 / 2) = -(cos x - (1 - a ^ 2 / 2)) by ring, abs_neg]
    exact t2.trans he2

theorem sqrt_half : |√2 / 2 - 0.70711| ≤ 1e-5 := by
  have h1 : 1.41421 < √2 := by
    rw [Real.lt_sqrt (by norm_num)]; norm_num
  have h2 : √2 < 1.41422 := by
    rw [Real.sqrt_lt' (by norm_num)]; norm_num
  exact abs_le.2 ⟨by linarith, by linarith⟩

theorem selects_seveneighths {A : List (ℝ × ℝ × ℝ)} {w q a : ℝ} {i : ℕ} (k : ℕ) {e : ℝ}
    (h : w = π * q / 15552000) (hn : |π * (q - (157.5 + 180 * k)) / 90 - a| ≤ 2e-5) (ha : |a| ≤ 1)
    (he : 2e-5 + (2e-5 + |a| ^ 5 / 100) + (2e-5 + |a| ^ 4 * (5 / 96)) ≤ e)
    (H : ∀ pr ∈ [((fun x : ℝ × ℝ × ℝ => x.1), (0 : ℕ)), ((fun x => x.2.1), 1), ((fun x => x.2.2), 2)],
      |pr.1 (A.getD 0 (0, 0, 0)) +
        (0.70711 * ((1 - a ^ 2 / 2) + (a - a ^ 3 / 6))) * pr.1 (A.getD 1 (0, 0, 0)) +
        (0.70711 * ((a - a ^ 3 / 6) - (1 - a ^ 2 / 2))) * pr.1 (A.getD 2 (0, 0, 0)) -
        (if i = pr.2 then 1 else 0)| +
        e * (|pr.1 (A.getD 1 (0, 0, 0))| + |pr.1 (A.getD 2 (0, 0, 0))|) ≤ 0.003) :
    Selects A w i := by
  obtain ⟨t1, t2⟩ := trig_near hn ha
  have e1 := angle_split (157.5 + 180 * (k : ℝ)) h
  generalize π * (q - (157.5 + 180 * k)) / 90 = x at *
  have e2 : 2 * w * 86400 = (x + -(π / 4)) + (k + 1 : ℕ) * (2 * π) := by
    rw [e1]; push_cast; ring
  have c1 : Real.cos (2 * w * 86400) = √2 / 2 * (cos x + sin x) := by
    rw [e2, cos_add_nat_mul_two_pi, cos_add, cos_neg, sin_neg, cos_pi_div_four, sin_pi_div_four]; ring
  have c2 : Real.sin (2 * w * 86400) = √2 / 2 * (sin x - cos x) := by
    rw [e2, sin_add_nat_mul_two_pi, sin_add, cos_neg, sin_neg, cos_pi_div_four, sin_pi_div_four]; ring
  have hsq := sqrt_half
  have near : ∀ y z d : ℝ, |y - z| ≤ d → |y| ≤ 2 → |√2 / 2 * y - 0.70711 * z| ≤ 2e-5 + d := by
    intro y z d hy hy2
    have e : √2 / 2 * y - 0.70711 * z = (√2 / 2 - 0.70711) * y + 0.70711 * (y - z) := by ring
    rw [e]
    refine (abs_add_le _ _).trans ?_
    rw [abs_mul, abs_mul, abs_of_pos (by norm_num : (0 : ℝ) < 0.70711)]
    have g1 : |√2 / 2 - 0.70711| * |y| ≤ 1e-5 * 2 :=
      mul_le_mul hsq hy2 (abs_nonneg _) (by norm_num)
    have g2 : 0.70711 * |y - z| ≤ |y - z| := by linarith [abs_nonneg (y - z)]
    linarith
  have hc := abs_cos_le_one x
  have hs := abs_sin_le_one x
  refine selects_of (c := 0.70711 * ((1 - a ^ 2 / 2) + (a - a ^ 3 / 6)))
    (s := 0.70711 * ((a - a ^ 3 / 6) - (1 - a ^ 2 / 2))) (e := e) ?_ ?_ H
  · rw [c1]
    refine (near _ _ ((2e-5 + |a| ^ 5 / 100) + (2e-5 + |a| ^ 4 * (5 / 96))) ?_
      ((abs_add_le _ _).trans (by linarith))).trans (by linarith)
    rw [show cos x + sin x - ((1 - a ^ 2 / 2) + (a - a ^ 3 / 6)) =
      (sin x - (a - a ^ 3 / 6)) + (cos x - (1 - a ^ 2 / 2)) by ring]
    exact (abs_add_le _ _).trans (add_le_add t1 t2)
  · rw [c2]
    refine (near _ _ ((2e-5 + |a| ^ 5 / 100) + (2e-5 + |a| ^ 4 * (5 / 96))) ?_
      ((abs_sub _ _).trans (by linarith))).trans (by linarith)
    rw [show sin x - cos x - ((a - a ^ 3 / 6) - (1 - a ^ 2 / 2)) =
      (sin x - (a - a ^ 3 / 6)) - (cos x - (1 - a ^ 2 / 2)) by ring]
    exact (abs_sub _ _).trans (add_le_add t1 t2)

theorem selects_whole {A : List (ℝ × ℝ × ℝ)} {w q a : ℝ} {i : ℕ} (k : ℕ) {e : ℝ}
    (h : w = π * q / 15552000) (hn : |π * (q - 180 * k) / 90 - a| ≤ 2e-5) (ha : |a| ≤ 1)
    (he1 : 2e-5 + |a| ^ 5 / 100 ≤ e) (he2 : 2e-5 + |a| ^ 4 * (5 / 96) ≤ e)
    (H : ∀ pr ∈ [((fun x : ℝ × ℝ × ℝ => x.1), (0 : ℕ)), ((fun x => x.2.1), 1), ((fun x => x.2.2), 2)],
      |pr.1 (A.getD 0 (0, 0, 0)) + (1 - a ^ 2 / 2) * pr.1 (A.getD 1 (0, 0, 0)) +
        (a - a ^ 3 / 6) * pr.1 (A.getD 2 (0, 0, 0)) - (if i = pr.2 then 1 else 0)| +
        e * (|pr.1 (A.getD 1 (0, 0, 0))| + |pr.1 (A.getD 2 (0, 0, 0))|) ≤ 0.003) :
    Selects A w i := by
  obtain ⟨t1, t2⟩ := trig_near hn ha
  have e1 := angle_split (180 * (k : ℝ)) h
  generalize π * (q - 180 * k) / 90 = x at *
  have e2 : 2 * w * 86400 = x + k * (2 * π) := by rw [e1]; ring
  refine selects_of (c := 1 - a ^ 2 / 2) (s := a - a ^ 3 / 6) (e := e) ?_ ?_ H
  · rw [e2, cos_add_nat_mul_two_pi]; exact t2.trans he2
  · rw [e2, sin_add_nat_mul_two_pi]; exact t1.trans he1

theorem selects_q1 (corrections : String) : Selects diurnalMatrix (freqOf corrections "q1") 0 := by
  obtain ⟨q, a1, b1, e1⟩ := day_q1 corrections
  norm_num at a1 b1
  refine selects_threequarter (a := 0.22926) (e := 0.0002) 1 e1 ?_ (by norm_num [abs_le])
    (by norm_num [abs_of_pos]) (by norm_num [abs_of_pos]) ?_
  · have h : q - (135 + 180 * ((1 : ℕ) : ℝ)) = |q - (135 + 180 * ((1 : ℕ) : ℝ))| := by
      rw [abs_of_nonneg]; push_cast; linarith
    refine near_of ?_ ?_ ?_ (by norm_num)
    · rw [← h]; norm_num [abs_of_pos]; linarith
    · rw [← h]; norm_num [abs_of_pos]; linarith
    · push_cast; norm_num; linarith
  · intro pr hp
    simp only [List.mem_cons, List.not_mem_nil, or_false] at hp
    rcases hp with rfl | rfl | rfl <;> simp [diurnalMatrix] <;> norm_num [abs_of_pos, abs_of_neg]

theorem selects_o1 (corrections : String) : Selects diurnalMatrix (freqOf corrections "o1") 1 := by
  obtain ⟨q, a1, b1, e1⟩ := day_o1 corrections
  norm_num at a1 b1
  refine selects_seveneighths (a := -0.10008) (e := 0.0001) 1 e1 ?_ (by norm_num [abs_le])
    (by norm_num [abs_of_neg, abs_of_pos]) ?_
  · have h : -(q - (157.5 + 180 * ((1 : ℕ) : ℝ))) = |q - (157.5 + 180 * ((1 : ℕ) : ℝ))| := by
      rw [abs_of_nonpos]; push_cast; linarith
    refine near_of ?_ ?_ ?_ (by norm_num)
    · rw [← h]; norm_num [abs_of_pos, abs_of_neg]; linarith
    · rw [← h]; norm_num [abs_of_pos, abs_of_neg]; linarith
    · push_cast; norm_num; linarith
  · intro pr hp
    simp only [List.mem_cons, List.not_mem_nil, or_false] at hp
    rcases hp with rfl | rfl | rfl <;> simp [diurnalMatrix] <;> norm_num [abs_of_pos, abs_of_neg]

theorem selects_k1 (corrections : String) : Selects diurnalMatrix (freqOf corrections "k1") 2 := by
  obtain ⟨q, a1, b1, e1⟩ := day_k1 corrections
  norm_num at a1 b1
  refine selects_whole (a := 0.03441) (e := 0.0001) 2 e1 ?_ (by norm_num [abs_le])
    (by norm_num [abs_of_pos]) (by norm_num [abs_of_pos]) ?_
  · have h : q - 180 * ((2 : ℕ) : ℝ) = |q - 180 * ((2 : ℕ) : ℝ)| := by
      rw [abs_of_nonneg]; push_cast; linarith
    refine near_of ?_ ?_ ?_ (by norm_num)
    · rw [← h]; norm_num [abs_of_pos, abs_of_neg]; linarith
    · rw [← h]; norm_num [abs_of_pos, abs_of_neg]; linarith
    · push_cast; norm_num; linarith
  · intro pr hp
    simp only [List.mem_cons, List.not_mem_nil, or_false] at hp
    rcases hp with rfl | rfl | rfl <;> simp [diurnalMatrix] <;> norm_num [abs_of_pos, abs_of_neg]

theorem selects_n2 (corrections : String) : Selects semiMatrix (freqOf corrections "n2") 0 := by
  obtain ⟨q, a1, b1, e1⟩ := day_n2 corrections
  norm_num at a1 b1
  refine selects_threequarter (a := 0.26367) (e := 0.0003) 3 e1 ?_ (by norm_num [abs_le])
    (by norm_num [abs_of_pos]) (by norm_num [abs_of_pos]) ?_
  · have h : q - (135 + 180 * ((3 : ℕ) : ℝ)) = |q - (135 + 180 * ((3 : ℕ) : ℝ))| := by
      rw [abs_of_nonneg]; push_cast; linarith
    refine near_of ?_ ?_ ?_ (by norm_num)
    · rw [← h]; norm_num [abs_of_pos, abs_of_neg]; linarith
    · rw [← h]; norm_num [abs_of_pos, abs_of_neg]; linarith
    · push_cast; norm_num; linarith
  · intro pr hp
    simp only [List.mem_cons, List.not_mem_nil, or_false] at hp
    rcases hp with rfl | rfl | rfl <;> simp [semiMatrix] <;> norm_num [abs_of_pos, abs_of_neg]

theorem selects_m2 (corrections : String) : Selects semiMatrix (freqOf corrections "m2") 1 := by
  obtain ⟨q, a1, b1, e1⟩ := day_m2 corrections
  norm_num at a1 b1
  refine selects_seveneighths (a := -0.06568) (e := 0.0001) 3 e1 ?_ (by norm_num [abs_le])
    (by norm_num [abs_of_neg, abs_of_pos]) ?_
  · have h : -(q - (157.5 + 180 * ((3 : ℕ) : ℝ))) = |q - (157.5 + 180 * ((3 : ℕ) : ℝ))| := by
      rw [abs_of_nonpos]; push_cast; linarith
    refine near_of ?_ ?_ ?_ (by norm_num)
    · rw [← h]; norm_num [abs_of_pos, abs_of_neg]; linarith
    · rw [← h]; norm_num [abs_of_pos, abs_of_neg]; linarith
    · push_cast; norm_num; linarith
  · intro pr hp
    simp only [List.mem_cons, List.not_mem_nil, or_false] at hp
    rcases hp with rfl | rfl | rfl <;> simp [semiMatrix] <;> norm_num [abs_of_pos, abs_of_neg]

theorem selects_s2 (corrections : String) : Selects semiMatrix (freqOf corrections "s2") 2 := by
  obtain ⟨q, a1, b1, e1⟩ := day_s2 corrections
  norm_num at a1 b1
  have hq : q = 720 := le_antisymm b1 a1
  refine selects_whole (a := 0) (e := 0.0001) 4 e1 ?_ (by norm_num) (by norm_num) (by norm_num) ?_
  · rw [hq]; norm_num
  · intro pr hp
    simp only [List.mem_cons, List.not_mem_nil, or_false] at hp
    rcases hp with rfl | rfl | rfl <;> simp [semiMatrix] <;> norm_num [abs_of_pos, abs_of_neg]

/-- Two admittances agree to 0.003 of the sum of the absolute values of the pivots, in both parts. -/
def Near (m z : MC) (z0 z1 z2 : MC) : Prop :=
  |m.re - z.re| ≤ 0.003 * (|z0.re| + |z1.re| + |z2.re|) ∧
    |m.im - z.im| ≤ 0.003 * (|z0.im| + |z1.im| + |z2.im|)

theorem near_real {a b c x y z p q r : ℝ} (ha : |a - p| ≤ 0.003) (hb : |b - q| ≤ 0.003)
    (hc : |c - r| ≤ 0.003) : |a * x + b * y + c * z - (p * x + q * y + r * z)| ≤
      0.003 * (|x| + |y| + |z|) := by
  have e : a * x + b * y + c * z - (p * x + q * y + r * z) =
      (a - p) * x + (b - q) * y + (c - r) * z := by ring
  rw [e]
  refine (abs_add_three _ _ _).trans ?_
  rw [abs_mul, abs_mul, abs_mul]
  have h1 := mul_le_mul_of_nonneg_right ha (abs_nonneg x)
  have h2 := mul_le_mul_of_nonneg_right hb (abs_nonneg y)
  have h3 := mul_le_mul_of_nonneg_right hc (abs_nonneg z)
  linarith

theorem near_of_selects {A : List (ℝ × ℝ × ℝ)} {w : ℝ} (z0 z1 z2 : MC) :
    (Selects A w 0 → Near (munk A w z0 z1 z2) z0 z0 z1 z2) ∧
      (Selects A w 1 → Near (munk A w z0 z1 z2) z1 z0 z1 z2) ∧
      (Selects A w 2 → Near (munk A w z0 z1 z2) z2 z0 z1 z2) := by
  obtain ⟨m1, m2⟩ := munk_weights A w z0 z1 z2
  refine ⟨fun h => ?_, fun h => ?_, fun h => ?_⟩ <;> obtain ⟨a, b, c⟩ := h <;> unfold Near <;>
    rw [m1, m2] <;> norm_num at a b c <;> constructor
  · have := near_real (x := z0.re) (y := z1.re) (z := z2.re) (by norm_num; exact a) (q := 0)
      (by norm_num; exact b) (r := 0) (by norm_num; exact c)
    simpa using this
  · have := near_real (x := z0.im) (y := z1.im) (z := z2.im) (by norm_num; exact a) (q := 0)
      (by norm_num; exact b) (r := 0) (by norm_num; exact c)
    simpa using this
  · have := near_real (x := z0.re) (y := z1.re) (z := z2.re) (p := 0) (by norm_num; exact a)
      (by norm_num; exact b) (r := 0) (by norm_num; exact c)
    simpa using this
  · have := near_real (x := z0.im) (y := z1.im) (z := z2.im) (p := 0) (by norm_num; exact a)
      (by norm_num; exact b) (r := 0) (by norm_num; exact c)
    simpa using this
  · have := near_real (x := z0.re) (y := z1.re) (z := z2.re) (p := 0) (by norm_num; exact a) (q := 0)
      (by norm_num; exact b) (by norm_num; exact c)
    simpa using this
  · have := near_real (x := z0.im) (y := z1.im) (z := z2.im) (p := 0) (by norm_num; exact a) (q := 0)
      (by norm_num; exact b) (by norm_num; exact c)
    simpa using this

/-- C65: the Munk-Cartwright admittance at the frequency of a pivot is the admittance of that pivot
to 0.3 per cent of the pivots, in both bands and for every type of corrections. -/
theorem C65_munk (corrections : String) (z0 z1 z2 : MC) :
    Near (munk semiMatrix (freqOf corrections "n2") z0 z1 z2) z0 z0 z1 z2 ∧
      Near (munk semiMatrix (freqOf corrections "m2") z0 z1 z2) z1 z0 z1 z2 ∧
      Near (munk semiMatrix (freqOf corrections "s2") z0 z1 z2) z2 z0 z1 z2 ∧
      Near (munk diurnalMatrix (freqOf corrections "q1") z0 z1 z2) z0 z0 z1 z2 ∧
      Near (munk diurnalMatrix (freqOf corrections "o1") z0 z1 z2) z1 z0 z1 z2 ∧
      Near (munk diurnalMatrix (freqOf corrections "k1") z0 z1 z2) z2 z0 z1 z2 :=
  ⟨(near_of_selects z0 z1 z2).1 (selects_n2 corrections),
    (near_of_selects z0 z1 z2).2.1 (selects_m2 corrections),
    (near_of_selects z0 z1 z2).2.2 (selects_s2 corrections),
    (near_of_selects z0 z1 z2).1 (selects_q1 corrections),
    (near_of_selects z0 z1 z2).2.1 (selects_o1 corrections),
    (near_of_selects z0 z1 z2).2.2 (selects_k1 corrections)⟩

/-- C65: the linear interpolation at the frequency of a pivot is the admittance of that pivot, in
every band and for every type of corrections. -/
theorem C65_linear (corrections : String) (z0 z1 z2 : MC) :
    ∀ b ∈ [("q1", "o1", "k1"), ("n2", "m2", "s2"), ("node", "mm", "mf")],
      let o0 := freqOf corrections b.1
      let o1 := freqOf corrections b.2.1
      let o2 := freqOf corrections b.2.2
      admittance o0 o1 o2 z0 z1 z2 o0 = ⟨z0.re, z0.im⟩ ∧
        admittance o0 o1 o2 z0 z1 z2 o1 = ⟨z1.re, z1.im⟩ ∧
        admittance o0 o1 o2 z0 z1 z2 o2 = ⟨z2.re, z2.im⟩ := by
  obtain ⟨h1, h2, h3, h4, h5, h6⟩ := C65_order corrections
  intro b hb
  simp only [List.mem_cons, List.not_mem_nil, or_false] at hb
  rcases hb with rfl | rfl | rfl
  · exact C26_pivots _ _ _ _ _ _ h1 h2
  · exact C26_pivots _ _ _ _ _ _ h3 h4
  · exact C26_pivots _ _ _ _ _ _ h5 h6

end Verif.Infer
