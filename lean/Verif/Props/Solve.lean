import Verif.Props.Predict
/-!
C24: harmonic analysis of a predicted series gives back the constants.
-/
namespace Verif.Predict
open Verif

/-- The parameters that describe an offset and harmonic constants. -/
noncomputable def params (offset : ℝ) (row : List MC) : List ℝ :=
  offset :: row.flatMap (fun z => [z.re, z.im])

theorem dot_cons (a b : ℝ) (r p : List ℝ) : dot (a :: r) (b :: p) = a * b + dot r p := by
  simp [dot]

theorem dot_design (env : Env) (corr : String) (t : ℝ × ℝ) (names : List String) (offset : ℝ)
    (row : List MC) (h : row.length = names.length) :
    dot (designRow env corr t names) (params offset row)
      = offset + (prediction env corr t names row).1 := by
  rw [designRow, params, dot_cons, one_mul]
  congr 1
  simp only [prediction, Spec.tide, waves]
  induction names generalizing row with
  | nil => simp [dot]
  | cons c cs ih =>
    cases row with
    | nil => simp at h
    | cons z row =>
      have := ih row (by simpa using h)
      simp only [List.flatMap_cons, List.cons_append, List.nil_append, dot_cons,
        List.zipWith_cons_cons, List.map_cons, List.sum_cons, height_eq, this]
      ring

theorem misfit_nonneg_zero (M : List (List ℝ)) (ht p : List ℝ) :
    0 ≤ misfit M ht p ∧ (misfit M ht p ≤ 0 → ∀ q ∈ M.zip ht, dot q.1 p = q.2) := by
  unfold misfit
  induction M generalizing ht with
  | nil => simp
  | cons r M ih =>
    cases ht with
    | nil => simp
    | cons h ht =>
      obtain ⟨h0, h1⟩ := ih ht
      simp only [List.zipWith_cons_cons, List.sum_cons, List.zip_cons_cons, List.mem_cons]
      have hs := sq_nonneg (dot r p - h)
      refine ⟨by linarith, ?_⟩
      rintro hle q (rfl | hq)
      · have : (dot r p - h) ^ 2 = 0 := by linarith
        have := pow_eq_zero_iff (two_ne_zero) |>.mp this
        simp only
        linarith
      · exact h1 (by linarith) q hq

theorem misfit_exact (M : List (List ℝ)) (p : List ℝ) :
    misfit M (M.map (fun r => dot r p)) p = 0 := by
  unfold misfit
  induction M with
  | nil => rfl
  | cons r M ih => simp only [List.map_cons, List.zipWith_cons_cons, List.sum_cons, ih]; ring

/-- Exact parameters within the bounds are a solution. -/
theorem truth_isSolution (M : List (List ℝ)) (q : List ℝ) (B : List ℝ → Prop)
    (hq : q.length = (M.headD []).length) (hB : B q) :
    IsSolution M (M.map (fun r => dot r q)) B q := by
  refine ⟨hq, hB, ?_⟩
  intro p _ _
  rw [misfit_exact]
  exact (misfit_nonneg_zero M _ p).1

/-- A solver that fits exactly data that can be fitted exactly, with a design matrix that
distinguishes parameters, finds them. -/
theorem solution_unique (M : List (List ℝ)) (q p : List ℝ) (B : List ℝ → Prop)
    (hq : q.length = (M.headD []).length) (hB : B q)
    (hinj : ∀ a b : List ℝ, a.length = (M.headD []).length → b.length = (M.headD []).length →
      (∀ r ∈ M, dot r a = dot r b) → a = b)
    (hp : IsSolution M (M.map (fun r => dot r q)) B p) : p = q := by
  obtain ⟨hl, _, hmin⟩ := hp
  have h0 := hmin q hq hB
  rw [misfit_exact] at h0
  have h1 := (misfit_nonneg_zero M _ p).2 h0
  refine hinj p q hl hq ?_
  intro r hr
  exact h1 (r, dot r q) (by rw [zip_map_self]; exact List.mem_map.mpr ⟨r, hr, rfl⟩)

theorem ampPhases_flatMap (row : List MC) :
    ampPhases (row.flatMap (fun z => [z.re, z.im])) = row.map (fun z => ampPhase z.re z.im) := by
  induction row with
  | nil => rfl
  | cons z row ih => simp only [List.flatMap_cons, List.cons_append, List.nil_append, ampPhases,
      List.map_cons, ih]

/-- The amplitude and phase reported for a complex constant describe it, with the phase in
`[0, 360)`. -/
theorem ampPhase_spec (x y : ℝ) :
    (ampPhase x y).1 = ‖(⟨x, y⟩ : ℂ)‖ ∧
    (⟨x, y⟩ : ℂ) = (ampPhase x y).1
      * Complex.exp (-(((ampPhase x y).2 * Real.pi / 180 : ℝ) : ℂ) * Complex.I) ∧
    0 ≤ (ampPhase x y).2 ∧ (ampPhase x y).2 < 360 := by
  have hpi := Real.pi_pos
  have e : (Complex.I * y + x : ℂ) = ⟨x, y⟩ := by
    apply Complex.ext <;> simp
  have hn : (ampPhase x y).1 = ‖(⟨x, y⟩ : ℂ)‖ := by rw [ampPhase, e]
  have hconj : (⟨x, -y⟩ : ℂ) = (starRingEnd ℂ) ⟨x, y⟩ := by apply Complex.ext <;> simp
  have hpol := Complex.norm_mul_exp_arg_mul_I (⟨x, -y⟩ : ℂ)
  have hpol2 : (⟨x, y⟩ : ℂ) = (‖(⟨x, y⟩ : ℂ)‖ : ℂ)
      * Complex.exp (-((Complex.arg ⟨x, -y⟩ : ℝ) : ℂ) * Complex.I) := by
    have h := congrArg (starRingEnd ℂ) hpol
    rw [hconj, Complex.conj_conj, map_mul, Complex.conj_ofReal, ← Complex.exp_conj, map_mul,
      Complex.conj_ofReal, Complex.conj_I, Complex.norm_conj, ← hconj] at h
    rw [neg_mul, ← mul_neg]
    exact h.symm
  have hlo := Complex.neg_pi_lt_arg (⟨x, -y⟩ : ℂ)
  have hhi := Complex.arg_le_pi (⟨x, -y⟩ : ℂ)
  refine ⟨hn, ?_, ?_⟩
  · rw [hn]
    have hx : Complex.exp (-(((ampPhase x y).2 * Real.pi / 180 : ℝ) : ℂ) * Complex.I)
        = Complex.exp (-((Complex.arg ⟨x, -y⟩ : ℝ) : ℂ) * Complex.I) := by
      simp only [ampPhase]
      split
      · have : (-(((Complex.arg ⟨x, -y⟩ * 180 / Real.pi + 360) * Real.pi / 180 : ℝ) : ℂ) * Complex.I)
            = (-((Complex.arg ⟨x, -y⟩ : ℝ) : ℂ) * Complex.I) - 2 * Real.pi * Complex.I := by
          have : ((Complex.arg ⟨x, -y⟩ * 180 / Real.pi + 360) * Real.pi / 180 : ℝ)
              = Complex.arg ⟨x, -y⟩ + 2 * Real.pi := by field_simp; ring
          rw [this]; push_cast; ring
        rw [this, Complex.exp_periodic.sub_eq]
      · have : ((Complex.arg ⟨x, -y⟩ * 180 / Real.pi) * Real.pi / 180 : ℝ)
              = Complex.arg ⟨x, -y⟩ := by field_simp
        rw [this]
    rw [hx]
    exact hpol2
  · have h1 : -180 < Complex.arg ⟨x, -y⟩ * 180 / Real.pi := by
      rw [lt_div_iff₀ hpi]; linarith
    have h2 : Complex.arg ⟨x, -y⟩ * 180 / Real.pi ≤ 180 := by
      rw [div_le_iff₀ hpi]; linarith
    simp only [ampPhase]
    split
    · rename_i h
      exact ⟨by linarith, by linarith⟩
    · rename_i h
      exact ⟨not_lt.mp h, by linarith⟩

theorem designRow_length (env : Env) (corr : String) (t : ℝ × ℝ) (names : List String) :
    (designRow env corr t names).length = 1 + 2 * names.length := by
  rw [designRow, List.length_cons]
  have : ∀ (l : List String) (f : String → List ℝ), (∀ c, (f c).length = 2) →
      (l.flatMap f).length = 2 * l.length := by
    intro l f hf
    induction l with
    | nil => rfl
    | cons c l ih => rw [List.flatMap_cons, List.length_append, hf, ih, List.length_cons]; ring
  rw [this names _ (fun _ => rfl)]; ring

theorem params_length (offset : ℝ) (row : List MC) :
    (params offset row).length = 1 + 2 * row.length := by
  rw [params, List.length_cons]
  induction row with
  | nil => rfl
  | cons z row ih =>
    rw [List.flatMap_cons, List.length_append, List.length_cons, List.length_cons, List.length_nil,
      List.length_cons]
    omega

/-- Harmonic analysis of a predicted series plus a constant, with a solver that minimises the
squared residuals within bounds `B` that allow the true parameters, at times that distinguish the
parameters: for every constituent the amplitude is the modulus of its constant, and amplitude and
phase describe the constant, with the phase in `[0, 360)`. -/
theorem C24_recover (env : Env) (corr solver : String) (B : List ℝ → Prop)
    (solve : List (List ℝ) → List ℝ → List ℝ) (hsolver : solver ∈ solvers)
    (ts : List (ℝ × ℝ)) (names : List String) (row : List MC) (offset : ℝ)
    (hk : ∀ c ∈ names, env.known c = true) (hrow : row.length = names.length)
    (hnt : 2 * names.length < ts.length)
    (series : List MR) (hs : timeSeries env ts [row] names corr = .ok series)
    (hsolve : IsSolution (ts.map (fun t => designRow env corr t names))
      (series.map (fun v => offset + v.1)) B
      (solve (ts.map (fun t => designRow env corr t names)) (series.map (fun v => offset + v.1))))
    (hB : B (params offset row))
    (hinj : ∀ a b : List ℝ, a.length = 1 + 2 * names.length → b.length = 1 + 2 * names.length →
      (∀ t ∈ ts, dot (designRow env corr t names) a = dot (designRow env corr t names) b) → a = b) :
    ∃ out : List (ℝ × ℝ),
      constants env solve ts (series.map (fun v => offset + v.1)) names corr solver = .ok out ∧
      out.length = names.length ∧
      ∀ (k : ℕ) (z : MC) (o : ℝ × ℝ), row[k]? = some z → out[k]? = some o →
        o.1 = ‖(⟨z.re, z.im⟩ : ℂ)‖ ∧
        (⟨z.re, z.im⟩ : ℂ) = o.1 * Complex.exp (-((o.2 * Real.pi / 180 : ℝ) : ℂ) * Complex.I) ∧
        0 ≤ o.2 ∧ o.2 < 360 := by
  rw [C21_series_value env corr ts row [] names hk hrow] at hs
  have hs' := Except.ok.inj hs
  subst hs'
  set M := ts.map (fun t => designRow env corr t names) with hM
  have hht : (ts.map (fun t => prediction env corr t names row)).map (fun v => offset + v.1)
      = M.map (fun r => dot r (params offset row)) := by
    rw [List.map_map, hM, List.map_map]
    refine List.map_congr_left ?_
    intro t _
    simp only [Function.comp]
    rw [dot_design env corr t names offset row hrow]
  have hhead : (M.headD []).length = 1 + 2 * names.length := by
    cases hts : ts with
    | nil => rw [hts] at hnt; simp at hnt
    | cons t u => rw [hM, hts, List.map_cons, List.headD_cons, designRow_length]
  rw [hht] at hsolve
  have hp := solution_unique M (params offset row) _ B
    (by rw [hhead, params_length, hrow]) hB (by
      intro a b ha hb hab
      refine hinj a b (by rw [ha, hhead]) (by rw [hb, hhead]) ?_
      intro t ht
      exact hab _ (List.mem_map.mpr ⟨t, ht, rfl⟩)) hsolve
  refine ⟨row.map (fun z => ampPhase z.re z.im), ?_, by rw [List.length_map, hrow], ?_⟩
  · rw [constants, if_neg (by omega), if_neg (by simp),
      if_neg (by rw [Bool.not_eq_false, List.all_eq_true]; exact hk), if_pos hsolver, hht, hp]
    rw [params, List.tail_cons, ampPhases_flatMap]
  · intro k z o hz ho
    rw [List.getElem?_map, hz] at ho
    have := Option.some.inj ho
    subst this
    exact ampPhase_spec z.re z.im

/-- Too few times, or series and times of different lengths, are refused. -/
theorem C24_refuse (env : Env) (corr solver : String)
    (solve : List (List ℝ) → List ℝ → List ℝ) (ts : List (ℝ × ℝ)) (ht : List ℝ)
    (names : List String) (h : ts.length ≤ 2 * names.length ∨ ts.length ≠ ht.length) :
    constants env solve ts ht names corr solver = .error .valueError := by
  rw [constants]
  by_cases h1 : ts.length ≤ 2 * names.length
  · rw [if_pos h1]
  · rw [if_neg h1, if_pos (h.resolve_left h1)]

/-- The hypotheses of `C24_recover` can be met: one constituent whose phase at time `t` is `t`
degrees, observed at 0, 90 and 180 degrees. -/
example : ∃ (env : Env) (ts : List (ℝ × ℝ)) (names : List String),
    (∀ c ∈ names, env.known c = true) ∧ names.length = 1 ∧ 2 * names.length < ts.length ∧
    ∀ a b : List ℝ, a.length = 1 + 2 * names.length → b.length = 1 + 2 * names.length →
      (∀ t ∈ ts, dot (designRow env "GOT" t names) a = dot (designRow env "GOT" t names) b) →
      a = b := by
  refine ⟨⟨fun _ => true, fun t _ _ => ⟨0, 1, t⟩, fun _ => 0, fun _ => 0⟩,
    [(0, 0), (90, 0), (180, 0)], ["m2"], by simp, rfl, by decide, ?_⟩
  intro a b ha hb hab
  obtain ⟨a0, a1, a2, rfl⟩ := List.length_eq_three.mp ha
  obtain ⟨b0, b1, b2, rfl⟩ := List.length_eq_three.mp hb
  have h : usesParameters "GOT" = false := by decide
  have e0 := hab (0, 0) (by simp)
  have e1 := hab (90, 0) (by simp)
  have e2 := hab (180, 0) (by simp)
  have r1 : (90 : ℝ) * Real.pi / 180 = Real.pi / 2 := by ring
  have r2 : (180 : ℝ) * Real.pi / 180 = Real.pi := by ring
  simp [designRow, dot, phase, h, r1, r2] at e0 e1 e2
  have g0 : a0 = b0 := by linarith
  have g1 : a1 = b1 := by linarith
  have g2 : a2 = b2 := by linarith
  rw [g0, g1, g2]

end Verif.Predict
