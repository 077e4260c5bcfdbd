import Verif.Lemmas.Rounded
import Verif.Props.Predict
import Mathlib.Analysis.SpecialFunctions.Trigonometric.Bounds
/-!
The rounded loops of the predictions, and the error that they make.
-/
namespace Verif.Rounded
open Verif Verif.Spec Verif.Predict

/-- The rounded prediction for a point at a time. -/
noncomputable def predicted (A : Arith) (env : Env) (corr : String) (t : ℝ × ℝ)
    (names : List String) (row : List MC) : MR :=
  (names.zip row).foldl (fun h p => accum A h (env.args t.1 t.2 p.1)
    (phase A env corr p.1 t.1 (env.args t.1 t.2 p.1)) p.2) (0, false)

theorem accum_predicted (A : Arith) (env : Env) (corr : String) (t : ℝ × ℝ) (pre : List String)
    (c : String) (row : List MC) (z : MC) (hz : row[pre.length]? = some z) :
    accum A (predicted A env corr t pre (row.take pre.length)) (env.args t.1 t.2 c)
        (phase A env corr c t.1 (env.args t.1 t.2 c)) z
      = predicted A env corr t (pre ++ [c]) (row.take (pre ++ [c]).length) := by
  have hlt : pre.length < row.length := (List.getElem?_eq_some_iff.mp hz).1
  have ht : row.take (pre ++ [c]).length = row.take pre.length ++ [z] := by
    rw [List.length_append, List.length_singleton, List.take_succ, hz]
    rfl
  rw [ht, predicted, predicted, List.zip_append (by rw [List.length_take]; omega),
    List.foldl_append]
  rfl

theorem mapLoop_eq (A : Arith) (env : Env) (corr : String) (t : ℝ × ℝ) (names : List String)
    (hc : List (List MC)) (hrow : ∀ row ∈ hc, row.length = names.length) (cs pre : List String)
    (hn : names = pre ++ cs) :
    mapLoop A env corr t.1 (names.map (env.args t.1 t.2)) hc pre.length cs
        (hc.map (fun row => predicted A env corr t pre (row.take pre.length)))
      = .ok (hc.map (fun row => predicted A env corr t names row)) := by
  induction cs generalizing pre with
  | nil =>
    rw [List.append_nil] at hn
    subst hn
    refine congrArg Except.ok (List.map_congr_left ?_)
    intro row hr
    rw [List.take_of_length_le (by rw [hrow row hr])]
  | cons c cs ih =>
    have hcol : ∀ row ∈ hc, ∃ z, row[pre.length]? = some z := by
      intro row hr
      have hl := hrow row hr
      rw [hn, List.length_append, List.length_cons] at hl
      exact ⟨_, List.getElem?_eq_getElem (by omega)⟩
    classical
    obtain ⟨d, hd⟩ : ∃ d : List MC → MC, ∀ row ∈ hc, row[pre.length]? = some (d row) := by
      refine ⟨fun row => if h : row ∈ hc then (hcol row h).choose else ⟨0, 0, false⟩, ?_⟩
      intro row hr
      dsimp only
      rw [dif_pos hr]
      exact (hcol row hr).choose_spec
    have hidx : (names.map (env.args t.1 t.2))[pre.length]? = some (env.args t.1 t.2 c) := by
      rw [hn, List.getElem?_map]; simp
    rw [mapLoop, item_ok _ _ _ hidx, ok_bind]
    dsimp only
    rw [column_ok hc pre.length d hd, ok_bind, zipWith_map_same]
    have := ih (pre ++ [c]) (by rw [hn, List.append_assoc]; rfl)
    rw [List.length_append, List.length_singleton] at this
    rw [← this]
    congr 1
    refine List.map_congr_left ?_
    intro row hr
    rw [accum_predicted A env corr t pre c row (d row) (hd row hr), List.length_append,
      List.length_singleton]

theorem column_args (env : Env) (ts : List (ℝ × ℝ)) (names pre : List String) (c : String)
    (cs : List String) (hn : names = pre ++ c :: cs) :
    column (ts.map (fun t => names.map (env.args t.1 t.2))) pre.length
      = .ok (ts.map (fun t => env.args t.1 t.2 c)) := by
  rw [column]
  induction ts with
  | nil => rfl
  | cons a u ihl =>
    rw [List.map_cons, pyMap, item_ok _ _ (env.args a.1 a.2 c) (by
      rw [hn, List.getElem?_map]; simp), ihl]
    rfl

theorem driftLoop_eq (A : Arith) (env : Env) (corr : String) (ts : List (ℝ × ℝ))
    (names : List String) (hc : List (List MC)) (hlen : hc.length = ts.length)
    (hrow : ∀ row ∈ hc, row.length = names.length) (cs pre : List String)
    (hn : names = pre ++ cs) :
    driftLoop A env corr ts (ts.map (fun t => names.map (env.args t.1 t.2))) hc pre.length cs
        ((ts.zip hc).map (fun p => predicted A env corr p.1 pre (p.2.take pre.length)))
      = .ok ((ts.zip hc).map (fun p => predicted A env corr p.1 names p.2)) := by
  have hmem : ∀ p ∈ ts.zip hc, p.2 ∈ hc := fun p hp => (List.of_mem_zip hp).2
  induction cs generalizing pre with
  | nil =>
    rw [List.append_nil] at hn
    subst hn
    refine congrArg Except.ok (List.map_congr_left ?_)
    intro p hp
    rw [List.take_of_length_le (by rw [hrow p.2 (hmem p hp)])]
  | cons c cs ih =>
    have hcol : ∀ row ∈ hc, ∃ z, row[pre.length]? = some z := by
      intro row hr
      have hl := hrow row hr
      rw [hn, List.length_append, List.length_cons] at hl
      exact ⟨_, List.getElem?_eq_getElem (by omega)⟩
    classical
    obtain ⟨d, hd⟩ : ∃ d : List MC → MC, ∀ row ∈ hc, row[pre.length]? = some (d row) := by
      refine ⟨fun row => if h : row ∈ hc then (hcol row h).choose else ⟨0, 0, false⟩, ?_⟩
      intro row hr
      dsimp only
      rw [dif_pos hr]
      exact (hcol row hr).choose_spec
    rw [driftLoop, column_args env ts names pre c cs hn, ok_bind, column_ok hc pre.length d hd,
      ok_bind, broadcast_self _ _ (by rw [List.length_map, hlen]), ok_bind]
    have e1 : (ts.zip (ts.map (fun t => env.args t.1 t.2 c))).zip (hc.map d)
        = (ts.zip hc).map (fun p => ((p.1, env.args p.1.1 p.1.2 c), d p.2)) := by
      rw [zip_map_self, List.zip_map]
      rfl
    rw [e1, zipWith_map_same]
    have := ih (pre ++ [c]) (by rw [hn, List.append_assoc]; rfl)
    rw [List.length_append, List.length_singleton] at this
    rw [← this]
    congr 1
    refine List.map_congr_left ?_
    intro p hp
    rw [accum_predicted A env corr p.1 pre c p.2 (d p.2) (hd _ (hmem p hp)), List.length_append,
      List.length_singleton]

theorem seriesLoop_eq (A : Arith) (env : Env) (corr : String) (ts : List (ℝ × ℝ))
    (names : List String) (row : List MC) (hc : List (List MC)) (hrow : row.length = names.length)
    (cs pre : List String) (hn : names = pre ++ cs) :
    seriesLoop A env corr ts (ts.map (fun t => names.map (env.args t.1 t.2))) (row :: hc)
        pre.length cs (ts.map (fun t => predicted A env corr t pre (row.take pre.length)))
      = .ok (ts.map (fun t => predicted A env corr t names row)) := by
  induction cs generalizing pre with
  | nil =>
    rw [List.append_nil] at hn
    subst hn
    refine congrArg Except.ok (List.map_congr_left ?_)
    intro t _
    rw [List.take_of_length_le (by rw [hrow])]
  | cons c cs ih =>
    obtain ⟨z, hz⟩ : ∃ z, row[pre.length]? = some z := by
      have hl := hrow
      rw [hn, List.length_append, List.length_cons] at hl
      exact ⟨_, List.getElem?_eq_getElem (by omega)⟩
    rw [seriesLoop, column_args env ts names pre c cs hn, ok_bind,
      item_ok (row :: hc) 0 row rfl, ok_bind, item_ok _ _ z hz, ok_bind, zip_map_self,
      zipWith_map_same]
    have := ih (pre ++ [c]) (by rw [hn, List.append_assoc]; rfl)
    rw [List.length_append, List.length_singleton] at this
    rw [← this]
    congr 1
    refine List.map_congr_left ?_
    intro t _
    rw [accum_predicted A env corr t pre c row z hz, List.length_append,
      List.length_singleton]

theorem replicate_predicted {α : Type} (A : Arith) (env : Env) (corr : String) (f : α → ℝ × ℝ)
    (g : α → List MC) (l : List α) (n : ℕ) (hn : l.length = n) :
    List.replicate n ((0 : ℝ), false)
      = l.map (fun p => predicted A env corr (f p) [] ((g p).take 0)) := by
  subst hn
  induction l with
  | nil => rfl
  | cons a t ih =>
    rw [List.length_cons, List.replicate_succ, List.map_cons, ih]
    rfl

theorem map_value (A : Arith) (env : Env) (corr : String) (t deltat : ℝ) (hc : List (List MC))
    (names : List String) (hk : ∀ c ∈ names, env.known c = true)
    (hrow : ∀ row ∈ hc, row.length = names.length) :
    map A env t deltat hc names corr
      = .ok (hc.map (fun row => predicted A env corr (t, deltat) names row)) := by
  rw [map, argMatrix, if_pos (List.all_eq_true.mpr hk), ok_bind, List.map_cons,
    item_ok _ 0 _ rfl, ok_bind,
    replicate_predicted A env corr (fun _ => (t, deltat)) id hc hc.length rfl]
  exact mapLoop_eq A env corr (t, deltat) names hc hrow names [] rfl

theorem drift_value (A : Arith) (env : Env) (corr : String) (ts : List (ℝ × ℝ))
    (hc : List (List MC)) (names : List String) (hk : ∀ c ∈ names, env.known c = true)
    (hlen : hc.length = ts.length) (hrow : ∀ row ∈ hc, row.length = names.length) :
    drift A env ts hc names corr
      = .ok ((ts.zip hc).map (fun p => predicted A env corr p.1 names p.2)) := by
  rw [drift, argMatrix, if_pos (List.all_eq_true.mpr hk), ok_bind,
    replicate_predicted A env corr Prod.fst Prod.snd (ts.zip hc) ts.length
      (by rw [List.length_zip, hlen, Nat.min_self])]
  exact driftLoop_eq A env corr ts names hc hlen hrow names [] rfl

theorem series_value (A : Arith) (env : Env) (corr : String) (ts : List (ℝ × ℝ)) (row : List MC)
    (hc : List (List MC)) (names : List String) (hk : ∀ c ∈ names, env.known c = true)
    (hrow : row.length = names.length) :
    timeSeries A env ts (row :: hc) names corr
      = .ok (ts.map (fun t => predicted A env corr t names row)) := by
  rw [timeSeries, argMatrix, if_pos (List.all_eq_true.mpr hk), ok_bind,
    replicate_predicted A env corr id (fun _ => row) ts ts.length rfl]
  exact seriesLoop_eq A env corr ts names row hc hrow names [] rfl

/-! ### The error of one prediction -/

theorem abs_cos_sub (x y : ℝ) : |Real.cos x - Real.cos y| ≤ |x - y| := by
  rw [Real.cos_sub_cos, abs_mul, abs_mul]
  have h1 : |Real.sin ((x + y) / 2)| ≤ 1 := Real.abs_sin_le_one _
  have h2 : |Real.sin ((x - y) / 2)| ≤ |(x - y) / 2| := Real.abs_sin_le_abs
  have h3 : |(x - y) / 2| = |x - y| / 2 := by rw [abs_div]; norm_num
  have h0 := abs_nonneg (Real.sin ((x - y) / 2))
  have h4 : |(-2 : ℝ)| = 2 := by norm_num
  rw [h4]
  nlinarith [abs_nonneg (Real.sin ((x + y) / 2))]

theorem abs_sin_sub (x y : ℝ) : |Real.sin x - Real.sin y| ≤ |x - y| := by
  rw [Real.sin_sub_sin, abs_mul, abs_mul]
  have h1 : |Real.cos ((x + y) / 2)| ≤ 1 := Real.abs_cos_le_one _
  have h2 : |Real.sin ((x - y) / 2)| ≤ |(x - y) / 2| := Real.abs_sin_le_abs
  have h3 : |(x - y) / 2| = |x - y| / 2 := by rw [abs_div]; norm_num
  have h0 := abs_nonneg (Real.sin ((x - y) / 2))
  have h4 : |(2 : ℝ)| = 2 := by norm_num
  rw [h4]
  nlinarith [abs_nonneg (Real.cos ((x + y) / 2))]

theorem _root_.Verif.Spec.Turns.nonneg {e x' x : ℝ} (h : Turns e x' x) : 0 ≤ e := by
  obtain ⟨k, hk⟩ := h
  exact (abs_nonneg _).trans hk

theorem cos_rel {A : Arith} {u e x' x : ℝ} (hA : Standard A u) (h : Turns e x' x) :
    Rel (1 + (4 * u + e)) 1 (A.cos x') (Real.cos x) := by
  have h0 := h.nonneg
  obtain ⟨k, hk⟩ := h
  have hu := hA.nonneg
  refine ⟨by linarith, Real.abs_cos_le_one _, ?_⟩
  have h1 := hA.cos x'
  have h2 := abs_cos_sub x' (x + 2 * Real.pi * k)
  rw [show x + 2 * Real.pi * k = x + k * (2 * Real.pi) by ring, Real.cos_add_int_mul_two_pi] at h2
  rw [show x + 2 * Real.pi * k = x + k * (2 * Real.pi) by ring] at hk
  have h3 := abs_sub_le (A.cos x') (Real.cos x') (Real.cos x)
  linarith

theorem sin_rel {A : Arith} {u e x' x : ℝ} (hA : Standard A u) (h : Turns e x' x) :
    Rel (1 + (4 * u + e)) 1 (A.sin x') (Real.sin x) := by
  have h0 := h.nonneg
  obtain ⟨k, hk⟩ := h
  have hu := hA.nonneg
  refine ⟨by linarith, Real.abs_sin_le_one _, ?_⟩
  have h1 := hA.sin x'
  have h2 := abs_sin_sub x' (x + 2 * Real.pi * k)
  rw [show x + 2 * Real.pi * k = x + k * (2 * Real.pi) by ring, Real.sin_add_int_mul_two_pi] at h2
  rw [show x + 2 * Real.pi * k = x + k * (2 * Real.pi) by ring] at hk
  have h3 := abs_sub_le (A.sin x') (Real.sin x') (Real.sin x)
  linarith

/-- The error factor of the term of a constituent. -/
noncomputable def factor (u d e : ℝ) : ℝ := (1 + d) * (1 + (4 * u + e)) * (1 + u) ^ 3

theorem term_rel {A : Arith} {u d e f' f th' th : ℝ} (hA : Standard A u) (hf : |f' - f| ≤ d * |f|)
    (hd : 0 ≤ d) (hth : Turns e th' th) (z : MC) :
    Rel (factor u d e) (|f| * (|z.re| + |z.im|))
      (A.rd (A.rd (A.rd (f' * z.re) * A.cos th') - A.rd (A.rd (f' * z.im) * A.sin th')))
      (f * z.re * Real.cos th - f * z.im * Real.sin th) := by
  have hF : Rel (1 + d) |f| f' f := ⟨by linarith, le_refl _, by simpa using hf⟩
  have h1 : Rel ((1 + d) * 1) (|f| * |z.re|) (f' * z.re) (f * z.re) := hF.mul (Rel.self _)
  have h2 : Rel ((1 + d) * 1) (|f| * |z.im|) (f' * z.im) (f * z.im) := hF.mul (Rel.self _)
  have h3 := (((h1.rd hA).mul (cos_rel hA hth)).rd hA).sub
    (((h2.rd hA).mul (sin_rel hA hth)).rd hA)
  have h4 := h3.rd hA
  have e1 : |f| * |z.re| * 1 + |f| * |z.im| * 1 = |f| * (|z.re| + |z.im|) := by ring
  rw [e1] at h4
  exact h4.mono (le_of_eq (by unfold factor; ring))

theorem fold_rel {A : Arith} {u d e : ℝ} (hA : Standard A u) (env' env : Env) (corr : String)
    (t : ℝ × ℝ) (hd : 0 ≤ d) (l : List (String × MC))
    (hf : ∀ p ∈ l, |(env'.args t.1 t.2 p.1).pf - (env.args t.1 t.2 p.1).pf|
      ≤ d * |(env.args t.1 t.2 p.1).pf|)
    (hth : ∀ p ∈ l, Turns e (phase A env' corr p.1 t.1 (env'.args t.1 t.2 p.1))
      (Predict.phase env corr p.1 t.1 (env.args t.1 t.2 p.1)))
    (he : 0 ≤ e) (k : ℕ) (M : ℝ) (h' : MR) (h : ℝ)
    (hk : Rel ((1 + u) ^ k * factor u d e) M h'.1 h) :
    let r := l.foldl (fun h p => accum A h (env'.args t.1 t.2 p.1)
      (phase A env' corr p.1 t.1 (env'.args t.1 t.2 p.1)) p.2) h'
    let ws := l.map fun p => (⟨(env.args t.1 t.2 p.1).pf,
      Predict.phase env corr p.1 t.1 (env.args t.1 t.2 p.1), p.2.val⟩ : Spec.Wave)
    Rel ((1 + u) ^ (k + l.length) * factor u d e) (M + amplitudes ws) r.1
      (h + Spec.tide ws) ∧ r.2 = (h'.2 || l.any fun p => p.2.mask) := by
  have hu := hA.nonneg
  induction l generalizing k M h' h with
  | nil =>
    refine ⟨?_, by simp⟩
    simpa [amplitudes, Spec.tide] using hk
  | cons p l ih =>
    have hB : Rel ((1 + u) ^ k * factor u d e) _ _ _ :=
      (term_rel hA (hf p (by simp)) hd (hth p (by simp)) p.2).mono (by
        have h1 : (1 : ℝ) ≤ (1 + u) ^ k := one_le_pow₀ (by linarith)
        have h2 : 0 ≤ factor u d e := by unfold factor; positivity
        nlinarith)
    have hs := (hk.add hB).rd hA
    have ih' := ih (fun q hq => hf q (List.mem_cons_of_mem _ hq))
      (fun q hq => hth q (List.mem_cons_of_mem _ hq)) (k + 1) _
      (accum A h' (env'.args t.1 t.2 p.1)
        (phase A env' corr p.1 t.1 (env'.args t.1 t.2 p.1)) p.2) _
      (by
        have e1 : (1 + u) ^ (k + 1) * factor u d e = (1 + u) ^ k * factor u d e * (1 + u) := by ring
        rw [e1]
        exact hs)
    refine ⟨?_, ?_⟩
    · have := ih'.1
      simp only [List.foldl_cons, List.map_cons, List.length_cons]
      rw [show k + (l.length + 1) = k + 1 + l.length by omega]
      have e2 : ∀ (w : Spec.Wave) (ws : List Spec.Wave), amplitudes (w :: ws)
          = |w.f| * (|w.h.re| + |w.h.im|) + amplitudes ws := fun w ws => by
        simp [amplitudes]
      have e3 : ∀ (w : Spec.Wave) (ws : List Spec.Wave), Spec.tide (w :: ws)
          = w.height + Spec.tide ws := fun w ws => by simp [Spec.tide]
      rw [e2, e3, height_eq, ← add_assoc, ← add_assoc]
      exact this
    · have := ih'.2
      simp only [List.foldl_cons, List.any_cons]
      rw [this]
      simp [accum, Bool.or_assoc]

theorem zipWith_eq_map {α β γ : Type} (f : α → β → γ) (l : List α) (m : List β) :
    List.zipWith f l m = (l.zip m).map fun p => f p.1 p.2 := by
  induction l generalizing m with
  | nil => rfl
  | cons a l ih => cases m with
    | nil => rfl
    | cons b m => simp [ih]

/-- The error of the prediction for one place and time. -/
theorem predicted_rel {A : Arith} {u d e : ℝ} (hA : Standard A u) (env' env : Env) (corr : String)
    (t : ℝ × ℝ) (hd : 0 ≤ d) (he : 0 ≤ e) (names : List String) (row : List MC)
    (hrow : row.length = names.length)
    (hf : ∀ c ∈ names, |(env'.args t.1 t.2 c).pf - (env.args t.1 t.2 c).pf|
      ≤ d * |(env.args t.1 t.2 c).pf|)
    (hth : ∀ c ∈ names, Turns e (phase A env' corr c t.1 (env'.args t.1 t.2 c))
      (Predict.phase env corr c t.1 (env.args t.1 t.2 c))) :
    |(predicted A env' corr t names row).1 - (prediction env corr t names row).1|
      ≤ ((1 + u) ^ names.length * factor u d e - 1) * amplitudes (waves env corr t names row) ∧
    (predicted A env' corr t names row).2 = (prediction env corr t names row).2 := by
  have hu := hA.nonneg
  have h0 : Rel ((1 + u) ^ 0 * factor u d e) 0 ((0 : ℝ), false).1 0 := by
    refine ⟨?_, by simp, by simp⟩
    have h1 : (1 : ℝ) ≤ (1 + u) ^ 3 := one_le_pow₀ (by linarith)
    unfold factor
    have h2 : (1 : ℝ) ≤ (1 + d) * (1 + (4 * u + e)) := by nlinarith
    rw [pow_zero, one_mul]
    nlinarith
  have h := fold_rel hA env' env corr t hd (names.zip row)
    (fun p hp => hf p.1 (List.of_mem_zip hp).1) (fun p hp => hth p.1 (List.of_mem_zip hp).1) he 0 0
    (0, false) 0 h0
  have e1 : waves env corr t names row = (names.zip row).map fun p =>
      (⟨(env.args t.1 t.2 p.1).pf, Predict.phase env corr p.1 t.1 (env.args t.1 t.2 p.1),
        p.2.val⟩ : Spec.Wave) := zipWith_eq_map _ _ _
  have e2 : (names.zip row).length = names.length := by
    rw [List.length_zip, hrow, Nat.min_self]
  refine ⟨?_, ?_⟩
  · have h1 := h.1.err
    rw [← e1, e2, zero_add, zero_add, zero_add] at h1
    exact h1
  · rw [predicted, h.2]
    have : ∀ (l : List String) (m : List MC), m.length = l.length →
        (l.zip m).any (fun p => p.2.mask) = m.any fun z => z.mask := by
      intro l m hl
      induction l generalizing m with
      | nil => cases m <;> simp_all
      | cons a l ih => cases m with
        | nil => simp at hl
        | cons b m => simp only [List.zip_cons_cons, List.any_cons, ih m (by simpa using hl)]
    rw [this names row hrow]
    simp [prediction]

end Verif.Rounded
