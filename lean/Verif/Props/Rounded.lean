import Verif.Lemmas.RoundedPhase
import Verif.Props.Continuous
/-!
# C114: predictions in floating point arithmetic
-/
namespace Verif.Rounded
open Verif Verif.Spec Verif.Predict

/-! ### The phases -/

theorem lookup_mem {β : Type} {l : List (String × β)} {c : String} {v : β}
    (h : l.lookup c = some v) : (c, v) ∈ l := by
  induction l with
  | nil => simp at h
  | cons p l ih =>
    rw [List.lookup_cons] at h
    by_cases hc : c == p.1
    · rw [hc] at h
      have h1 : c = p.1 := by simpa using hc
      have h2 : p.2 = v := by simpa using h
      subst h1; subst h2
      simp
    · simp only [hc] at h
      exact List.mem_cons_of_mem _ (ih (by simpa using h))

/-- The coefficients of a constituent are at most 36 in sum. -/
theorem coefficients_le (c : String) (r : List ℤ) (h : Coef.table.lookup c = some r) :
    weight r ≤ 36 := by
  have hd : ∀ q ∈ Coef.table, (q.2.map Int.natAbs).sum ≤ 36 := by decide +kernel
  have h1 := hd _ (lookup_mem h)
  have h2 : weight r = ((r.map Int.natAbs).sum : ℕ) := by
    unfold weight
    generalize r = l
    induction l with
    | nil => simp
    | cons x l ih =>
      simp only [List.map_cons, List.sum_cons, Nat.cast_add, ih]
      rw [Nat.cast_natAbs, Int.cast_abs]
  rw [h2]
  exact_mod_cast h1

/-- The frequency of a constituent is at most 6e-4 radians per second and its phase at most 7
radians. -/
theorem parameters_le (c : String) : ∃ q, Parameters.parameters c false = .ok q ∧
    |((q.omega : ℚ) : ℝ)| ≤ 6 / 10000 ∧ |((q.phase : ℚ) : ℝ)| ≤ 7 := by
  have hd : ∀ q ∈ Parameters.table, |q.2.omega| ≤ 6 / 10000 ∧ |q.2.phase| ≤ 7 := by decide +kernel
  rw [Parameters.parameters]
  cases h : Parameters.table.lookup c.toLower with
  | none => exact ⟨⟨0, 0, 0, 0, 0⟩, rfl, by norm_num, by norm_num⟩
  | some q =>
    obtain ⟨h1, h2⟩ := hd _ (lookup_mem h)
    dsimp only at h1 h2
    refine ⟨q, rfl, ?_, ?_⟩
    · have : ((|q.omega| : ℚ) : ℝ) ≤ ((6 / 10000 : ℚ) : ℝ) := by exact_mod_cast h1
      push_cast at this
      exact this
    · have : ((|q.phase| : ℚ) : ℝ) ≤ ((7 : ℚ) : ℝ) := by exact_mod_cast h2
      push_cast at this
      exact this

/-- The phase from the tabulated parameters. -/
theorem otis_phase {A : Arith} {u d w p pu' pu t : ℝ} (hA : Standard A u) (ht : |t| ≤ 40000)
    (hw : |w| ≤ 6 / 10000) (hp : |p| ≤ 7) (hpu : Turns d pu' pu) (hb : |pu'| ≤ 100) :
    Turns (1000000000 * u + d)
      (A.rd (A.rd (A.rd (A.rd (A.rd w * t) * 86400) + A.rd p) + pu'))
      (w * t * 86400 + p + pu) := by
  have hu := hA.nonneg
  have hs : u ≤ 1 / 1000000000 := hA.small.trans (by norm_num)
  obtain ⟨k, hk⟩ := hpu
  have h1 := (((Rel.self w).rd hA).mul (Rel.self t)).rd hA
  have h2 := (h1.mul (Rel.self 86400)).rd hA
  have h3 := ((Rel.self p).rd hA).mono (b := 1 * (1 + u) * 1 * (1 + u) * 1 * (1 + u))
    (by nlinarith [mul_nonneg hu hu, mul_nonneg hu (mul_nonneg hu hu)])
  have h4 := (h2.add h3).rd hA
  have hM : |w| * |t| * |(86400 : ℝ)| + |p| ≤ 2100000 := by
    have : |w| * |t| ≤ 6 / 10000 * 40000 := mul_le_mul hw ht (abs_nonneg _) (by norm_num)
    norm_num at this ⊢
    linarith
  have hM0 := h4.nonneg
  have ha : 1 * (1 + u) * 1 * (1 + u) * 1 * (1 + u) * (1 + u) ≤ 1 + 8 * u := by
    have := pow_le hu 4 (by push_cast; linarith)
    push_cast at this
    calc _ = (1 + u) ^ 4 := by ring
      _ ≤ _ := by linarith
  have h5 := (h4.mono ha).err
  have h6 := (h4.mono ha).abs_le
  generalize A.rd (A.rd (A.rd (A.rd w * t) * 86400) + A.rd p) = x' at *
  generalize |w| * |t| * |(86400 : ℝ)| + |p| = M at *
  have e5 : |x' - (w * t * 86400 + p)| ≤ 16800000 * u := by nlinarith
  have e6 : |x'| ≤ 2200000 := by nlinarith
  have h7 := hA.rd (x' + pu')
  have e7 : |A.rd (x' + pu') - (x' + pu')| ≤ 2200100 * u := by
    have := abs_add_le x' pu'
    nlinarith
  refine ⟨k, ?_⟩
  obtain ⟨a1, a2⟩ := abs_le.mp e5
  obtain ⟨a3, a4⟩ := abs_le.mp e7
  obtain ⟨a5, a6⟩ := abs_le.mp hk
  exact abs_le.mpr ⟨by linarith, by linarith⟩

/-- The phase from the arguments in degrees. -/
theorem got_phase {A : Arith} {u d pu' pu : ℝ} (hA : Standard A u) {t : ℝ × ℝ} (ht : Near1992 t)
    (corr : String) (hcorr : usesParameters corr = false) (c : String) (r : List ℤ)
    (hr : Coef.table.lookup c = some r) (hpu : Turns d pu' pu) (hb : |pu'| ≤ 100) :
    Turns (1000000000 * u + d)
      (A.rd (A.rd (A.rd (A.dot (fargs A t.2 (A.rd (t.1 + 48622))) r * A.pi) / 180) + pu'))
      (Astro.dot (Astro.fargs corr t.2 (t.1 + 48622)) r * Real.pi / 180 + pu) := by
  have hu := hA.nonneg
  have hs : u ≤ 1 / 1000000000 := hA.small.trans (by norm_num)
  obtain ⟨f1, f2⟩ := fargs_near hA ht corr hcorr
  have hw := coefficients_le c r hr
  have hw0 := weight_nonneg r
  have g1 := dot_deg (by positivity) _ _ f1 r
  have g2 := hA.dot (fargs A t.2 (A.rd (t.1 + 48622))) r
  have g3 := absDot_le (by norm_num) _ f2 r
  have g4 := abs_dot_le (fargs A t.2 (A.rd (t.1 + 48622))) r
  have g2' : |A.dot (fargs A t.2 (A.rd (t.1 + 48622))) r
      - Astro.dot (fargs A t.2 (A.rd (t.1 + 48622))) r| ≤ 1440000 * u := by
    refine g2.trans ?_
    have hl : (fargs A t.2 (A.rd (t.1 + 48622))).length = 7 := rfl
    rw [hl, show 7 + 1 = 8 from rfl]
    have h8 := pow_le hu 8 (by push_cast; linarith)
    push_cast at h8
    have h0 := (abs_nonneg _).trans g4
    have h9 : (1 + u) ^ 8 - 1 ≤ 16 * u := by linarith
    refine (mul_le_mul_of_nonneg_right h9 h0).trans ?_
    have h10 : absDot (fargs A t.2 (A.rd (t.1 + 48622))) r ≤ 90000 := by linarith
    nlinarith
  have g4' := g4.trans g3
  have g5 := g1
  generalize Astro.dot (fargs A t.2 (A.rd (t.1 + 48622))) r = G0 at *
  generalize A.dot (fargs A t.2 (A.rd (t.1 + 48622))) r = G' at *
  generalize Astro.dot (Astro.fargs corr t.2 (t.1 + 48622)) r = G at *
  obtain ⟨k, hk⟩ := (Deg.of_abs g2').trans g5
  obtain ⟨l, hl⟩ := hpu
  have hG : |G' - (G + 360 * k)| ≤ 11000000000 * u := by nlinarith
  have hG' : |G'| ≤ 91000 := by
    have := abs_add_le (G' - G0) G0
    rw [sub_add_cancel] at this
    nlinarith
  have hπ := hA.pi
  have hπ0 := Real.pi_pos
  have hπ4 := Real.pi_lt_d2
  have hPi : Rel (1 + u) Real.pi A.pi Real.pi :=
    ⟨by linarith, by rw [abs_of_pos hπ0], by rw [add_sub_cancel_left]; exact hπ⟩
  have h1 := ((Rel.self G').mul hPi).rd hA
  have h2 := (h1.mul (Rel.self (1 / 180))).rd hA
  have ha : 1 * (1 + u) * (1 + u) * 1 * (1 + u) ≤ 1 + 6 * u := by
    have := pow_le hu 3 (by push_cast; linarith)
    push_cast at this
    calc _ = (1 + u) ^ 3 := by ring
      _ ≤ _ := by linarith
  have h3 := (h2.mono ha).err
  have h4 := (h2.mono ha).abs_le
  have hM : |G'| * Real.pi * |(1 / 180 : ℝ)| ≤ 1600 := by
    rw [abs_of_pos (by norm_num : (0 : ℝ) < 1 / 180)]
    nlinarith [abs_nonneg G']
  have hM0 := h2.nonneg
  rw [mul_one_div, mul_one_div] at h3
  rw [mul_one_div] at h4
  generalize |G'| * Real.pi * |(1 / 180 : ℝ)| = M at *
  generalize A.rd (A.rd (G' * A.pi) / 180) = y at *
  have e1 : |y - G' * Real.pi / 180| ≤ 9600 * u := by nlinarith
  have e2 : |y| ≤ 1700 := by nlinarith
  have e3 : |G' * Real.pi / 180 - (G * Real.pi / 180 + 2 * Real.pi * k)| ≤ 200000000 * u := by
    have e : G' * Real.pi / 180 - (G * Real.pi / 180 + 2 * Real.pi * k)
        = (G' - (G + 360 * k)) * (Real.pi / 180) := by ring
    rw [e, abs_mul, abs_of_pos (by positivity : 0 < Real.pi / 180)]
    have h5 : Real.pi / 180 ≤ 0.0175 := by linarith
    have h6 : |G' - (G + 360 * k)| * (Real.pi / 180) ≤ 11000000000 * u * 0.0175 :=
      mul_le_mul hG h5 (by positivity) (by positivity)
    norm_num at h6 ⊢
    linarith
  have h7 := hA.rd (y + pu')
  have e4 : |A.rd (y + pu') - (y + pu')| ≤ 1800 * u := by
    have := abs_add_le y pu'
    nlinarith
  refine ⟨k + l, ?_⟩
  push_cast
  obtain ⟨a1, a2⟩ := abs_le.mp e1
  obtain ⟨a3, a4⟩ := abs_le.mp e3
  obtain ⟨a5, a6⟩ := abs_le.mp e4
  obtain ⟨a7, a8⟩ := abs_le.mp hl
  exact abs_le.mpr ⟨by linarith, by linarith⟩

/-- The nodal corrections that are used are those of the exact arguments up to `d`: the factors
relatively, the angles in radians and up to whole turns. -/
structure NodalNear (nodal : ℝ → ℝ → String → ℝ × ℝ) (corr : String) (t : ℝ × ℝ)
    (names : List String) (d : ℝ) : Prop where
  factor : ∀ c ∈ names, |(nodal t.1 t.2 c).2 - ((Astro.predictEnv corr).args t.1 t.2 c).pf|
    ≤ d * |((Astro.predictEnv corr).args t.1 t.2 c).pf|
  angle : ∀ c ∈ names, Turns d (nodal t.1 t.2 c).1 ((Astro.predictEnv corr).args t.1 t.2 c).pu
  bound : ∀ c ∈ names, |(nodal t.1 t.2 c).1| ≤ 100

theorem phase_turns {A : Arith} {u d : ℝ} (hA : Standard A u) {t : ℝ × ℝ} (ht : Near1992 t)
    (nodal : ℝ → ℝ → String → ℝ × ℝ) (corr c : String)
    (hc : (Coef.table.lookup c).isSome = true)
    (hpu : Turns d (nodal t.1 t.2 c).1 ((Astro.predictEnv corr).args t.1 t.2 c).pu)
    (hb : |(nodal t.1 t.2 c).1| ≤ 100) :
    Turns (1000000000 * u + d)
      (phase A (env A nodal) corr c t.1 ((env A nodal).args t.1 t.2 c))
      (Predict.phase (Astro.predictEnv corr) corr c t.1
        ((Astro.predictEnv corr).args t.1 t.2 c)) := by
  by_cases hu : usesParameters corr = true
  · rw [phase, Predict.phase, if_pos hu, if_pos hu]
    obtain ⟨q, h1, h2, h3⟩ := parameters_le c
    have e1 : (env A nodal).omega c = A.rd q.omega := by simp only [env, h1]
    have e2 : (env A nodal).ph c = A.rd q.phase := by simp only [env, h1]
    have e3 : (Astro.predictEnv corr).omega c = q.omega := by simp only [Astro.predictEnv, h1]
    have e4 : (Astro.predictEnv corr).ph c = q.phase := by simp only [Astro.predictEnv, h1]
    rw [e1, e2, e3, e4]
    exact otis_phase hA ht.days h2 h3 hpu hb
  · rw [phase, Predict.phase, if_neg hu, if_neg hu]
    obtain ⟨r, hr⟩ := Option.isSome_iff_exists.mp hc
    have hu' : usesParameters corr = false := by simpa using hu
    have hrow : Astro.row corr c = .ok r := by
      have : Astro.otisType corr = false := by
        simpa [Astro.otisType, usesParameters] using hu'
      rw [Astro.row, Coef.lookup, this]
      simp [hr]
    have hG : ((Astro.predictEnv corr).args t.1 t.2 c).G
        = Astro.dot (Astro.fargs corr t.2 (t.1 + 48622)) r := by
      rcases Astro.args_eq corr t.1 t.2 c with ⟨r', h1, e⟩ | ⟨⟨e, h1⟩, -⟩
      · rw [hrow] at h1
        have : r = r' := by simpa using h1
        subst this
        have e' : (Astro.predictEnv corr).args t.1 t.2 c = _ := e
        rw [e']
      · rw [hrow] at h1
        cases h1
    have hG' : ((env A nodal).args t.1 t.2 c).G
        = A.dot (fargs A t.2 (A.rd (t.1 + 48622))) r := by
      simp only [env, hr, Option.getD_some]
    rw [hG, hG']
    exact got_phase hA ht corr hu' c r hr hpu hb

/-! ### The predictions -/

theorem factor_le {u d : ℝ} (hu : 0 ≤ u) (hs : u ≤ 1 / 2 ^ 50) (hd : 0 ≤ d) (hd' : d ≤ 1 / 10)
    (n : ℕ) (hn : n ≤ 1000000) :
    (1 + u) ^ n * factor u d (1000000000 * u + d) - 1 ≤ 2000000000 * u + 3 * d := by
  have hs' : u ≤ 1 / 1000000000000000 := hs.trans (by norm_num)
  have h1 : (1 + u) ^ n * (1 + u) ^ 3 ≤ 1 + 2000006 * u := by
    rw [← pow_add]
    have hm : ((n + 3 : ℕ) : ℝ) ≤ 1000003 := by exact_mod_cast (by omega : n + 3 ≤ 1000003)
    have h3 := pow_le hu (n + 3) (by nlinarith)
    generalize (1 + u) ^ (n + 3) = X at *
    nlinarith
  have e : (1 + u) ^ n * factor u d (1000000000 * u + d)
      = (1 + u) ^ n * (1 + u) ^ 3 * ((1 + d) * (1 + (4 * u + (1000000000 * u + d)))) := by
    unfold factor; ring
  rw [e]
  generalize (1 + u) ^ n * (1 + u) ^ 3 = X at *
  have hP : (0 : ℝ) ≤ (1 + d) * (1 + (4 * u + (1000000000 * u + d))) := by positivity
  have h4 := mul_le_mul_of_nonneg_right h1 hP
  have hdu : d * u ≤ 1 / 10 * u := mul_le_mul_of_nonneg_right hd' hu
  have hdd : d * d ≤ 1 / 10 * d := mul_le_mul_of_nonneg_right hd' hd
  have h5 : (1 + d) * (1 + (4 * u + (1000000000 * u + d))) ≤ 1 + 1200000000 * u + 21 / 10 * d := by
    nlinarith
  have h6 : (1 + d) * (1 + (4 * u + (1000000000 * u + d))) ≤ 2 := by linarith
  nlinarith

/-- C114 (missing: the nodal corrections are taken with an error `d` that is not derived from their
formulas).  In floating point arithmetic with unit roundoff `u`, `map`, `drift` and `time_series`
return the predictions of exact arithmetic (`Astro.predictEnv`: tables, longitudes and nodal
corrections) with an error of at most `2e9 u + 3 d` times the sum of the amplitudes, and the same
masks, for every type of corrections and up to a million constituents of the table. -/
theorem C114_predictions_partial (A : Arith) (u d : ℝ) (hA : Standard A u) (hd : 0 ≤ d)
    (hd' : d ≤ 1 / 10) (nodal : ℝ → ℝ → String → ℝ × ℝ) (corr : String) (names : List String)
    (hnames : ∀ c ∈ names, (Coef.table.lookup c).isSome = true) (hn : names.length ≤ 1000000) :
    (∀ (t : ℝ × ℝ) (hc : List (List MC)), Near1992 t → NodalNear nodal corr t names d →
      (∀ row ∈ hc, row.length = names.length) →
      ∃ r' r, map A (env A nodal) t.1 t.2 hc names corr = .ok r' ∧
        Predict.map (Astro.predictEnv corr) t.1 t.2 hc names corr = .ok r ∧
        r'.length = hc.length ∧ r.length = hc.length ∧
        ∀ (i : ℕ) row h' h, hc[i]? = some row → r'[i]? = some h' → r[i]? = some h →
          |h'.1 - h.1| ≤ (2000000000 * u + 3 * d) *
            amplitudes (waves (Astro.predictEnv corr) corr t names row) ∧ h'.2 = h.2) ∧
    (∀ (ts : List (ℝ × ℝ)) (hc : List (List MC)),
      (∀ t ∈ ts, Near1992 t ∧ NodalNear nodal corr t names d) → hc.length = ts.length →
      (∀ row ∈ hc, row.length = names.length) →
      ∃ r' r, drift A (env A nodal) ts hc names corr = .ok r' ∧
        Predict.drift (Astro.predictEnv corr) ts hc names corr = .ok r ∧
        r'.length = ts.length ∧ r.length = ts.length ∧
        ∀ (i : ℕ) t row h' h, ts[i]? = some t → hc[i]? = some row → r'[i]? = some h' →
          r[i]? = some h →
          |h'.1 - h.1| ≤ (2000000000 * u + 3 * d) *
            amplitudes (waves (Astro.predictEnv corr) corr t names row) ∧ h'.2 = h.2) ∧
    (∀ (ts : List (ℝ × ℝ)) (row : List MC) (hc : List (List MC)),
      (∀ t ∈ ts, Near1992 t ∧ NodalNear nodal corr t names d) → row.length = names.length →
      ∃ r' r, timeSeries A (env A nodal) ts (row :: hc) names corr = .ok r' ∧
        Predict.timeSeries (Astro.predictEnv corr) ts (row :: hc) names corr = .ok r ∧
        r'.length = ts.length ∧ r.length = ts.length ∧
        ∀ (i : ℕ) t h' h, ts[i]? = some t → r'[i]? = some h' → r[i]? = some h →
          |h'.1 - h.1| ≤ (2000000000 * u + 3 * d) *
            amplitudes (waves (Astro.predictEnv corr) corr t names row) ∧ h'.2 = h.2) := by
  have hu := hA.nonneg
  have hk' : ∀ c ∈ names, (env A nodal).known c = true := hnames
  have hk : ∀ c ∈ names, (Astro.predictEnv corr).known c = true := hnames
  have key : ∀ (t : ℝ × ℝ) (row : List MC), Near1992 t → NodalNear nodal corr t names d →
      row.length = names.length →
      |(predicted A (env A nodal) corr t names row).1
          - (prediction (Astro.predictEnv corr) corr t names row).1|
        ≤ (2000000000 * u + 3 * d) * amplitudes (waves (Astro.predictEnv corr) corr t names row) ∧
      (predicted A (env A nodal) corr t names row).2
        = (prediction (Astro.predictEnv corr) corr t names row).2 := by
    intro t row ht hN hrow
    have h := predicted_rel hA (env A nodal) (Astro.predictEnv corr) corr t hd
      (e := 1000000000 * u + d) (by positivity) names row hrow hN.factor
      (fun c hc => phase_turns hA ht nodal corr c (hnames c hc) (hN.angle c hc) (hN.bound c hc))
    refine ⟨h.1.trans (mul_le_mul_of_nonneg_right
      (factor_le hu hA.small hd hd' names.length hn) ?_), h.2⟩
    refine List.sum_nonneg fun x hx => ?_
    obtain ⟨w, _, rfl⟩ := List.mem_map.mp hx
    positivity
  refine ⟨?_, ?_, ?_⟩
  · intro t hc ht hN hrow
    refine ⟨_, _, map_value A (env A nodal) corr t.1 t.2 hc names hk' hrow,
      C21_map_value (Astro.predictEnv corr) corr t.1 t.2 hc names hk hrow, by simp, by simp, ?_⟩
    intro i row h' h e1 e2 e3
    rw [List.getElem?_map, e1] at e2 e3
    obtain rfl := Option.some.inj e2
    obtain rfl := Option.some.inj e3
    exact key t row ht hN (hrow row (List.mem_of_getElem? e1))
  · intro ts hc ht hlen hrow
    refine ⟨_, _, drift_value A (env A nodal) corr ts hc names hk' hlen hrow,
      C21_drift_value (Astro.predictEnv corr) corr ts hc names hk hlen hrow, by simp [hlen],
      by simp [hlen], ?_⟩
    intro i t row h' h e0 e1 e2 e3
    rw [List.getElem?_map, getElem?_zip_of _ _ i t row e0 e1] at e2 e3
    obtain rfl := Option.some.inj e2
    obtain rfl := Option.some.inj e3
    have := ht t (List.mem_of_getElem? e0)
    exact key t row this.1 this.2 (hrow row (List.mem_of_getElem? e1))
  · intro ts row hc ht hrow
    refine ⟨_, _, series_value A (env A nodal) corr ts row hc names hk' hrow,
      C21_series_value (Astro.predictEnv corr) corr ts row hc names hk hrow, by simp, by simp, ?_⟩
    intro i t h' h e0 e2 e3
    rw [List.getElem?_map, e0] at e2 e3
    obtain rfl := Option.some.inj e2
    obtain rfl := Option.some.inj e3
    have := ht t (List.mem_of_getElem? e0)
    exact key t row this.1 this.2 hrow

end Verif.Rounded
