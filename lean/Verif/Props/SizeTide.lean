import Verif.Props.Continuous

/-!
# C108, predicted tides: no tide is larger than its constituents at their largest
-/

namespace Verif.Predict

open Verif Real Nodal Astro Coef

/-- The largest value of the nodal factor of a constituent. -/
def greatest (c : String) : ℚ := ((Spec.nodalRanges.lookup c).getD (0, 0)).2

theorem factor_le (corrections : String) (t δ : ℝ) (c : String) (hc : c ∈ Spec.nodalRanges.map (·.1)) :
    |((predictEnv corrections).args t δ c).pf| ≤ (greatest c : ℝ) := by
  have hg : ∀ q ∈ Spec.nodalRanges, greatest q.1 = q.2.2 ∧ 0 ≤ q.2.1 ∧ q.2.1 ≤ q.2.2 := by decide +kernel
  obtain ⟨⟨c, lo, hi⟩, hm, rfl⟩ := List.mem_map.1 hc
  obtain ⟨g, l0, lh⟩ := hg _ hm
  dsimp only at g l0 lh ⊢
  rw [g]
  have hlo : (0 : ℝ) ≤ lo := by exact_mod_cast l0
  have hlh : (lo : ℝ) ≤ hi := by exact_mod_cast lh
  rcases args_eq corrections t δ c with ⟨r, -, e⟩ | ⟨-, e⟩
  · have e' : (predictEnv corrections).args t δ c = _ := e
    rw [e']
    dsimp only
    obtain ⟨u, f, h1, h2, h3⟩ := C66_range (Cfg.ofKwargs corrections "perth5")
      (meanLongitudes (modeOf corrections) (t + 48622 + δ)).n
      (meanLongitudes (modeOf corrections) (t + 48622 + δ)).p 2 le_rfl c lo hi hm
    have h4 := nodal_eq (Cfg.ofKwargs corrections "perth5")
      (meanLongitudes (modeOf corrections) (t + 48622 + δ)).n
      (meanLongitudes (modeOf corrections) (t + 48622 + δ)).p 0 [c]
    rw [h4] at h1
    simp only [List.map_cons, List.map_nil, Option.some.injEq, List.cons.injEq, and_true] at h1
    rw [h1]
    rw [abs_of_nonneg (hlo.trans h2)]
    exact h3
  · have e' : (predictEnv corrections).args t δ c = _ := e
    rw [e']
    simpa using hlo.trans hlh

theorem prediction_le (corrections : String) (t : ℝ × ℝ) : ∀ (names : List String) (row : List MC),
    (∀ c ∈ names, c ∈ Spec.nodalRanges.map (·.1)) →
    |(prediction (predictEnv corrections) corrections t names row).1| ≤
      (List.zipWith (fun c z => (greatest c : ℝ) * ‖(⟨z.re, z.im⟩ : ℂ)‖) names row).sum
  | [], row, _ => by simp [prediction, waves, Spec.tide]
  | c :: names, [], _ => by simp [prediction, waves, Spec.tide]
  | c :: names, z :: row, h => by
    have ih := prediction_le corrections t names row fun c hc => h c (by simp [hc])
    simp only [prediction, Spec.tide, waves, List.zipWith_cons_cons, List.map_cons, List.sum_cons] at ih ⊢
    refine (abs_add_le _ _).trans (add_le_add ?_ ih)
    refine (abs_height_le _).trans ?_
    exact mul_le_mul_of_nonneg_right (factor_le corrections t.1 t.2 c (h c (by simp))) (norm_nonneg _)

/-- C108.  A predicted tide - of a grid, of a drift track or of time series - is never larger than the
sum over its constituents of amplitude times largest nodal factor, for all times and every type of
corrections. -/
theorem C108_tide (corrections : String) (names : List String)
    (hn : ∀ c ∈ names, c ∈ Spec.nodalRanges.map (·.1)) :
    (∀ (t δ : ℝ) (hc : List (List MC)), (∀ row ∈ hc, row.length = names.length) →
      ∃ x, map (predictEnv corrections) t δ hc names corrections = .ok x ∧
        List.Forall₂ (fun (row : List MC) (v : MR) => |v.1| ≤
          (List.zipWith (fun c z => (greatest c : ℝ) * ‖(⟨z.re, z.im⟩ : ℂ)‖) names row).sum) hc x) ∧
    (∀ (ts : List (ℝ × ℝ)) (hc : List (List MC)), hc.length = ts.length →
      (∀ row ∈ hc, row.length = names.length) →
      ∃ x, drift (predictEnv corrections) ts hc names corrections = .ok x ∧
        List.Forall₂ (fun (row : List MC) (v : MR) => |v.1| ≤
          (List.zipWith (fun c z => (greatest c : ℝ) * ‖(⟨z.re, z.im⟩ : ℂ)‖) names row).sum) hc x) ∧
    (∀ (ts : List (ℝ × ℝ)) (row : List MC), row.length = names.length →
      ∃ x, timeSeries (predictEnv corrections) ts [row] names corrections = .ok x ∧ x.length = ts.length ∧
        ∀ v ∈ x, |v.1| ≤
          (List.zipWith (fun c z => (greatest c : ℝ) * ‖(⟨z.re, z.im⟩ : ℂ)‖) names row).sum) := by
  have hk : ∀ c ∈ names, (predictEnv corrections).known c = true := by
    have : ∀ q ∈ Spec.nodalRanges, (Coef.table.lookup q.1).isSome = true := by decide +kernel
    intro c hc
    obtain ⟨q, hq, rfl⟩ := List.mem_map.1 (hn c hc)
    exact this q hq
  refine ⟨?_, ?_, ?_⟩
  · intro t δ hc hrow
    refine ⟨_, C21_map_value (predictEnv corrections) corrections t δ hc names hk hrow, ?_⟩
    rw [List.forall₂_map_right_iff]
    exact List.forall₂_same.2 fun row _ => prediction_le corrections (t, δ) names row hn
  · intro ts hc hlen hrow
    refine ⟨_, C21_drift_value (predictEnv corrections) corrections ts hc names hk hlen hrow, ?_⟩
    rw [List.forall₂_map_right_iff]
    clear hrow
    induction hc generalizing ts with
    | nil => cases ts <;> simp_all
    | cons row hc ih =>
      cases ts with
      | nil => simp at hlen
      | cons t ts =>
        rw [List.zip_cons_cons]
        exact .cons (prediction_le corrections t names row hn) (ih ts (by simpa using hlen))
  · intro ts row hrow
    refine ⟨_, C21_series_value (predictEnv corrections) corrections ts row [] names hk hrow, by simp, ?_⟩
    intro v hv
    obtain ⟨t, -, rfl⟩ := List.mem_map.1 hv
    exact prediction_le corrections t names row hn

/-- The eight major constituents have such ranges. -/
example : ∀ c ∈ ["q1", "o1", "p1", "k1", "n2", "m2", "s2", "k2"], c ∈ Spec.nodalRanges.map (·.1) := by
  decide +kernel

/-- A tide of the two principal constituents of one metre never exceeds 2.05 metres. -/
example (corrections : String) (ts : List (ℝ × ℝ)) (m s : ℂ) (hm : ‖m‖ = 1) (hs : ‖s‖ = 1) :
    ∃ x, timeSeries (predictEnv corrections) ts [[⟨m.re, m.im, false⟩, ⟨s.re, s.im, false⟩]] ["m2", "s2"]
      corrections = .ok x ∧ x.length = ts.length ∧ ∀ v ∈ x, |v.1| ≤ 2.05 := by
  obtain ⟨x, hx, hl, hb⟩ := (C108_tide corrections ["m2", "s2"] (by decide +kernel)).2.2 ts
    [⟨m.re, m.im, false⟩, ⟨s.re, s.im, false⟩] rfl
  refine ⟨x, hx, hl, fun v hv => (hb v hv).trans (le_of_eq ?_)⟩
  have g1 : greatest "m2" = 1.04 := by decide +kernel
  have g2 : greatest "s2" = 1.01 := by decide +kernel
  simp only [List.zipWith_cons_cons, List.zipWith_nil_left, List.sum_cons, List.sum_nil, g1, g2, Complex.eta, hm, hs]
  norm_num

end Verif.Predict
