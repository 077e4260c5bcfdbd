import Verif.Lemmas.SeparateNodal
import Verif.Props.Solve
import Verif.Props.Continuous
import Verif.Spec.Sampling
/-!
C106: a year of regular observations determines the harmonic constants.
-/
namespace Verif.Separate

open Verif Nodal Predict Astro

/-! ## The design matrix -/

theorem params_of_length : ∀ (n : ℕ) (a : List ℝ), a.length = 1 + 2 * n →
    ∃ x row, row.length = n ∧ a = params x row
  | 0, a, h => by
    obtain ⟨x, rfl⟩ := List.length_eq_one_iff.1 h
    exact ⟨x, [], rfl, rfl⟩
  | n + 1, a, h => by
    match a, h with
    | [], h => simp at h
    | [_], h => simp at h
    | [_, _], h => simp at h; omega
    | x :: y :: z :: l, h =>
      obtain ⟨x', row, h1, h2⟩ := params_of_length n (x :: l) (by simp at h ⊢; omega)
      refine ⟨x, ⟨y, z, false⟩ :: row, by simp [h1], ?_⟩
      simp only [params, List.cons.injEq] at h2 ⊢
      simp [h2.2]

theorem zip_sum {α β : Type} (f : α → β → ℝ) : ∀ (l : List α) (r : List β) (h : r.length = l.length),
    (List.zipWith f l r).sum = ∑ k : Fin l.length, f l[k] (r[k.val]'(by rw [h]; exact k.2))
  | [], [], _ => by simp
  | a :: l, b :: r, h => by
    rw [List.zipWith_cons_cons, List.sum_cons, zip_sum f l r (by simpa using h), ← List.sum_ofFn, ← List.sum_ofFn]
    simp [List.ofFn_succ]

theorem tide_sum (env : Env) (corr : String) (t : ℝ × ℝ) (names : List String) (row : List MC)
    (h : row.length = names.length) :
    (prediction env corr t names row).1 = ∑ k : Fin names.length,
      ((row[k.val]'(by rw [h]; exact k.2)).val * (((env.args t.1 t.2 names[k]).pf : ℂ) *
        Complex.exp ((phase env corr names[k] t.1 (env.args t.1 t.2 names[k]) : ℝ) * Complex.I))).re := by
  simp only [prediction, Spec.tide, waves]
  rw [List.map_zipWith, zip_sum _ _ _ h]
  refine Finset.sum_congr rfl fun k _ => ?_
  simp only [Spec.Wave.height]
  congr 1
  ring

/-! ## Samples -/

theorem mem_four {corr : String} (h : corr ∈ ["OTIS", "ATLAS", "TMD3", "netcdf"]) :
    usesParameters corr = true ∧ modeOf corr = .cartwright ∧ Cfg.ofKwargs corr "perth5" = cfg ∧ corr ≠ "FES" := by
  simp only [List.mem_cons, List.not_mem_nil, or_false] at h
  rcases h with rfl | rfl | rfl | rfl <;> exact ⟨by decide, by decide, rfl, by decide⟩

/-- The correction of a constituent at a time (days since 1992), and a correction of dynamic time. -/
noncomputable def factorAt (c : String) (t : ℝ × ℝ) : ℂ :=
  factorOf (one cfg (rawLongitudes .cartwright (t.1 + 48622 + t.2)).n
    (rawLongitudes .cartwright (t.1 + 48622 + t.2)).p c)

theorem sample {corr : String} (h : corr ∈ ["OTIS", "ATLAS", "TMD3", "netcdf"]) {c : String} (hc : c ≠ "s1")
    (hk : (Coef.table.lookup c).isSome = true) (t : ℝ × ℝ) :
    (((predictEnv corr).args t.1 t.2 c).pf : ℂ) * Complex.exp
      ((phase (predictEnv corr) corr c t.1 ((predictEnv corr).args t.1 t.2 c) : ℝ) * Complex.I) =
    e ((predictEnv corr).omega c * t.1 * 86400 + (predictEnv corr).ph c) * factorAt c t := by
  obtain ⟨h1, h2, h3, h4⟩ := mem_four h
  obtain ⟨r, hr⟩ := Option.isSome_iff_exists.1 hk
  rcases args_eq corr t.1 t.2 c with ⟨r', -, ha⟩ | ⟨⟨err, he⟩, -⟩
  · have ha : (predictEnv corr).args t.1 t.2 c = _ := ha
    rw [ha, h2, h3]
    obtain ⟨i, hi⟩ := normalize_raw (rawLongitudes .cartwright (t.1 + 48622 + t.2)).n
    obtain ⟨j, hj⟩ := normalize_raw (rawLongitudes .cartwright (t.1 + 48622 + t.2)).p
    have e1 : (meanLongitudes .cartwright (t.1 + 48622 + t.2)).n =
      (rawLongitudes .cartwright (t.1 + 48622 + t.2)).n + 360 * i := hi
    have e2 : (meanLongitudes .cartwright (t.1 + 48622 + t.2)).p =
      (rawLongitudes .cartwright (t.1 + 48622 + t.2)).p + 360 * j := hj
    rw [e1, e2, one_turns cfg c (Or.inl (by decide))]
    simp only [phase, h1, if_true, factorAt, factorOf, e]
    rw [Complex.ofReal_add _ (one _ _ _ _).1, add_mul, Complex.exp_add]
    ring
  · rw [row_eq corr c hc hr] at he
    cases he

theorem factorAt_near {c : String} {b : Bounds} (hb : Holds b fun n p => factorOf (one cfg n p c))
    {t t' : ℝ × ℝ} {Δ : ℝ} (h1 : t'.1 - t.1 = Δ) (h0 : 0 < Δ) (h2 : |t'.2 - t.2| ≤ Δ / 10) :
    ‖factorAt c t' - factorAt c t‖ ≤ b.rate * (dtr * (11 / 10 * Δ)) := by
  refine hb.near ⟨?_, ?_⟩
  · have e : (rawLongitudes .cartwright (t'.1 + 48622 + t'.2)).n
        - (rawLongitudes .cartwright (t.1 + 48622 + t.2)).n = -(5295377 / 100000000) * (Δ + (t'.2 - t.2)) := by
      rw [← h1]; simp only [rawLongitudes]; ring
    rw [e, abs_mul, abs_neg, abs_of_pos (by norm_num : (0 : ℝ) < 5295377 / 100000000)]
    have := (abs_add_le Δ (t'.2 - t.2)).trans (by rw [abs_of_pos h0]; linarith : _ ≤ 11 / 10 * Δ)
    linarith
  · have e : (rawLongitudes .cartwright (t'.1 + 48622 + t'.2)).p
        - (rawLongitudes .cartwright (t.1 + 48622 + t.2)).p = (11140353 / 100000000) * (Δ + (t'.2 - t.2)) := by
      rw [← h1]; simp only [rawLongitudes]; ring
    rw [e, abs_mul, abs_of_pos (by norm_num : (0 : ℝ) < 11140353 / 100000000)]
    have := (abs_add_le Δ (t'.2 - t.2)).trans (by rw [abs_of_pos h0]; linarith : _ ≤ 11 / 10 * Δ)
    linarith

/-! ## From certificates to bounds -/

theorem residue_nonneg {T U D ψ : ℚ} (hT : 0 ≤ T) (hU : 0 ≤ U) (hD : 0 ≤ D) : 0 ≤ residue T U D ψ := by
  unfold residue; positivity

theorem rest_le {T U D ψ : ℚ} {N : ℕ} {Δ : ℝ} (hT : 0 < T) (hU : 0 ≤ U) (hD : 0 ≤ D) (hψ : ψ ≠ 0) (hΔ : 0 < Δ)
    (hN : T ≤ N * Δ) : Δ * rest N (ψ * 86400 * Δ) U (D * (dtr * (11 / 10 * Δ))) ≤
      (N * Δ / T) * residue T U D ψ := by
  have hT' : (0 : ℝ) < T := by exact_mod_cast hT
  have hU' : (0 : ℝ) ≤ U := by exact_mod_cast hU
  have hD' : (0 : ℝ) ≤ D := by exact_mod_cast hD
  have hψ' : (0 : ℝ) < |(ψ : ℝ)| := abs_pos.2 (by exact_mod_cast hψ)
  have e1 : Δ * rest N (ψ * 86400 * Δ) U (D * (dtr * (11 / 10 * Δ))) =
      Real.pi * (2 * U + 11 / 10 * dtr * D * (N * Δ)) / (172800 * |(ψ : ℝ)|) := by
    unfold rest
    rw [abs_mul, abs_mul, abs_of_pos hΔ, abs_of_pos (by norm_num : (0 : ℝ) < 86400)]
    field_simp
    ring
  have e2 : (N * Δ / T) * (residue T U D ψ : ℚ) =
      3.1416 * (2 * U * (N * Δ / T) + 0.0192 * D * (N * Δ)) / (172800 * |(ψ : ℝ)|) := by
    unfold residue
    push_cast
    field_simp
  rw [e1, e2]
  refine div_le_div_of_nonneg_right ?_ (by positivity)
  have h1 : 1 ≤ N * Δ / (T : ℝ) := (one_le_div hT').2 hN
  have h2 : 2 * (U : ℝ) ≤ 2 * U * (N * Δ / T) := le_mul_of_one_le_right (by linarith) h1
  have h3 : 11 / 10 * dtr * D * (N * Δ) ≤ 0.0192 * D * (N * Δ) := by
    have : 11 / 10 * dtr ≤ 0.0192 := by have := dtr_le; norm_num at this ⊢; linarith
    have hNΔ : 0 ≤ (N : ℝ) * Δ := by positivity
    exact mul_le_mul_of_nonneg_right (mul_le_mul_of_nonneg_right this hD') hNΔ
  have h4 : Real.pi ≤ 3.1416 := by have := Real.pi_lt_d4; norm_num at this ⊢; linarith
  have h5 : 0 ≤ 2 * (U : ℝ) + 11 / 10 * dtr * D * (N * Δ) := by
    have := dtr_pos
    positivity
  exact mul_le_mul h4 (add_le_add h2 h3) h5 (by norm_num)

theorem sum_le_list {n : ℕ} (E : List Entry) (ent : Fin n → Entry) (hinj : Function.Injective ent)
    (hmem : ∀ k, ent k ∈ E) (g : Entry → ℚ) (hg : ∀ e ∈ E, 0 ≤ g e) :
    ∑ k, g (ent k) ≤ (E.map g).sum := by
  have h1 : ∑ k, g (ent k) = ((List.ofFn ent).map g).sum := by
    rw [List.map_ofFn, List.sum_ofFn]; rfl
  obtain ⟨l, hl, hs⟩ := List.subperm_of_subset (List.nodup_ofFn.2 hinj) (l₂ := E) (by
    intro e he
    obtain ⟨k, rfl⟩ := (List.mem_ofFn' _ _).1 he
    exact hmem k)
  rw [h1, ← (hl.map g).sum_eq]
  refine List.Sublist.sum_le_sum (hs.map g) ?_
  intro a ha
  obtain ⟨e, he, rfl⟩ := List.mem_map.1 ha
  exact hg e he

theorem sound_spec {e : Entry} (h : e.sound = true) :
    (∃ b, bounds e.name = some b ∧ e.low ≤ b.low ∧ b.high ≤ e.high ∧ b.rate ≤ e.rate) ∧
    (∃ q, Parameters.parameters e.name false = .ok q ∧ q.omega = e.omega) ∧
    (Coef.table.lookup e.name).isSome = true ∧ e.name ≠ "s1" ∧ 0 ≤ e.low ∧ 0 < e.omega ∧ 0 < e.weight := by
  unfold Entry.sound at h
  simp only [Bool.and_eq_true, decide_eq_true_eq] at h
  obtain ⟨⟨⟨⟨⟨⟨h1, h2⟩, h3⟩, h4⟩, h5⟩, h6⟩, h7⟩ := h
  refine ⟨?_, ?_, h3, h4, h5, h6, h7⟩
  · split at h1
    · next b hb => exact ⟨b, hb, by simpa [and_assoc] using h1⟩
    · cases h1
  · split at h2
    · next q hq => exact ⟨q, hq, by simpa using h2⟩
    · cases h2

/-- Regular samples tell certified constituents apart. -/
theorem distinguish (E : List Entry) (T D : ℚ) (hT : 0 < T) (hsound : E.all Entry.sound = true)
    (hsep : separated E T D = true) {corr : String} (hcorr : corr ∈ ["OTIS", "ATLAS", "TMD3", "netcdf"])
    (names : List String) (hnd : names.Nodup) (hsub : ∀ c ∈ names, c ∈ E.map Entry.name)
    (ts : List (ℝ × ℝ)) (t0 Δ : ℝ) (hts : Spec.Sampling.Regular ts t0 Δ) (hD : Δ ≤ D)
    (hN : T ≤ ts.length * Δ) (a b : List ℝ) (ha : a.length = 1 + 2 * names.length)
    (hb : b.length = 1 + 2 * names.length)
    (hab : ∀ t ∈ ts, dot (designRow (predictEnv corr) corr t names) a =
      dot (designRow (predictEnv corr) corr t names) b) : a = b := by
  obtain ⟨xa, ra, hra, rfl⟩ := params_of_length _ a ha
  obtain ⟨xb, rb, hrb, rfl⟩ := params_of_length _ b hb
  have hΔ := hts.pos
  -- the entries
  have hent : ∀ k : Fin names.length, ∃ q, q ∈ E ∧ q.name = names[k] := fun k =>
    List.mem_map.1 (hsub _ (List.getElem_mem k.2))
  choose ent hmem hname using hent
  have hinj : Function.Injective ent := fun k l h => by
    have : names[k] = names[l] := by rw [← hname, ← hname, h]
    exact Fin.ext ((List.Nodup.getElem_inj_iff hnd).1 this)
  have hso := fun k => sound_spec (List.all_eq_true.1 hsound _ (hmem k))
  have hsoE := fun (q : Entry) (hq : q ∈ E) => sound_spec (List.all_eq_true.1 hsound _ hq)
  have holds : ∀ q ∈ E, ∃ b, Holds b (fun n p => factorOf (one cfg n p q.name)) ∧ q.low ≤ b.low ∧ b.high ≤ q.high ∧
      b.rate ≤ q.rate := fun q hq => by
    obtain ⟨⟨b, h1, h2⟩, -⟩ := hsoE q hq
    exact ⟨b, bounds_holds h1, h2⟩
  have high0 : ∀ q ∈ E, 0 ≤ q.high := fun q hq => by
    obtain ⟨b, h1, -, h2, -⟩ := holds q hq
    exact h1.high.trans h2
  have rate0 : ∀ q ∈ E, 0 ≤ q.rate := fun q hq => by
    obtain ⟨b, h1, -, -, h2⟩ := holds q hq
    exact h1.rate.trans h2
  -- the certificate
  unfold separated at hsep
  rw [Bool.and_eq_true, List.all_eq_true] at hsep
  obtain ⟨hmean, hall⟩ := hsep
  have hmean := of_decide_eq_true hmean
  have hall : ∀ k ∈ E, (2 * residue T k.high k.rate k.omega
      + (E.map fun l => if l.name = k.name then 0 else k.cross T l (l.omega - k.omega)).sum
      + (E.map fun l => k.cross T l (l.omega + k.omega)).sum < k.weight * (T * k.low ^ 2)) ∧
      ∀ l ∈ E, (l.omega + k.omega) * 86400 * D ≤ 3.14159265 ∧ (l.name = k.name ∨ l.omega ≠ k.omega) := by
    intro k hk
    have := hall k hk
    rw [Bool.and_eq_true, List.all_eq_true] at this
    refine ⟨of_decide_eq_true this.1, fun l hl => ?_⟩
    have h2 := this.2 l hl
    rw [Bool.and_eq_true, Bool.or_eq_true] at h2
    exact ⟨of_decide_eq_true h2.1, h2.2.imp of_decide_eq_true of_decide_eq_true⟩
  set N := ts.length with hNdef
  have hT' : (0 : ℝ) < T := by exact_mod_cast hT
  have hNΔ : (0 : ℝ) < N * Δ := lt_of_lt_of_le hT' hN
  -- samples
  set tj : ℕ → ℝ × ℝ := fun j => ts.getD j (0, 0) with htj
  have hget : ∀ j < N, ts[j]? = some (tj j) := fun j hj => by
    rw [htj]
    simp only [List.getD_eq_getElem?_getD]
    rw [List.getElem?_eq_getElem hj]; rfl
  set w : Fin names.length → ℂ := fun k =>
    (ra[k.val]'(by rw [hra]; exact k.2)).val - (rb[k.val]'(by rw [hrb]; exact k.2)).val with hw
  set m : Fin names.length → ℕ → ℂ := fun k j =>
    e ((predictEnv corr).omega names[k] * t0 * 86400 + (predictEnv corr).ph names[k]) *
      factorAt names[k] (tj j) with hm
  have homega : ∀ k, (predictEnv corr).omega names[k] = ((ent k).omega : ℝ) := fun k => by
    obtain ⟨-, ⟨q, h1, h2⟩, -⟩ := hso k
    rw [hname] at h1
    simp only [predictEnv, h1]
    rw [h2]
  set θ : Fin names.length → ℝ := fun k => (ent k).omega * 86400 * Δ with hθ
  have hzero : ∀ j < N, (xa - xb) + ∑ k, (w k * (m k j * e (θ k * j))).re = 0 := by
    intro j hj
    have h1 := hab (tj j) (List.mem_of_getElem? (hget j hj))
    rw [dot_design _ _ _ _ _ _ hra, dot_design _ _ _ _ _ _ hrb, tide_sum _ _ _ _ _ hra, tide_sum _ _ _ _ _ hrb] at h1
    have h2 : ∑ k, (w k * (m k j * e (θ k * j))).re = ∑ k : Fin names.length,
        ((ra[k.val]'(by rw [hra]; exact k.2)).val * ((((predictEnv corr).args (tj j).1 (tj j).2 names[k]).pf : ℂ) *
          Complex.exp ((phase (predictEnv corr) corr names[k] (tj j).1
            ((predictEnv corr).args (tj j).1 (tj j).2 names[k]) : ℝ) * Complex.I))).re -
        ∑ k : Fin names.length, ((rb[k.val]'(by rw [hrb]; exact k.2)).val *
          ((((predictEnv corr).args (tj j).1 (tj j).2 names[k]).pf : ℂ) *
          Complex.exp ((phase (predictEnv corr) corr names[k] (tj j).1
            ((predictEnv corr).args (tj j).1 (tj j).2 names[k]) : ℝ) * Complex.I))).re := by
      rw [← Finset.sum_sub_distrib]
      refine Finset.sum_congr rfl fun k _ => ?_
      rw [← Complex.sub_re, ← sub_mul]
      have hk := hso k
      rw [hname] at hk
      rw [sample hcorr hk.2.2.2.1 hk.2.2.1]
      congr 1
      simp only [hw, hm]
      have h3 : (tj j).1 = t0 + j * Δ := hts.time j _ (hget j hj)
      have h4 : (predictEnv corr).omega names[k] * (tj j).1 * 86400 + (predictEnv corr).ph names[k] =
          ((predictEnv corr).omega names[k] * t0 * 86400 + (predictEnv corr).ph names[k]) + θ k * j := by
        rw [h3, hθ]
        simp only
        rw [homega k]
        ring
      rw [h4, e_add _ (θ k * j)]
      ring
    rw [h2]
    linarith
  -- names of the bounds
  have hmulE : ∀ x : ℝ, ∀ z : ℂ, ‖e x * z‖ = ‖z‖ := fun x z => by rw [norm_mul, e_norm, one_mul]
  have hcast : ∀ {p q : ℚ}, p ≤ q → (p : ℝ) ≤ q := fun h => by exact_mod_cast h
  have hδ : ∀ k j, j + 1 < N → ‖m k (j + 1) - m k j‖ ≤ (ent k).rate * (dtr * (11 / 10 * Δ)) := by
    intro k j hj
    obtain ⟨b, h1, -, -, h2⟩ := holds _ (hmem k)
    rw [hname] at h1
    simp only [hm]
    rw [← mul_sub, hmulE]
    have g0 := hget j (by omega)
    have g1 := hget (j + 1) hj
    refine (factorAt_near h1 (Δ := Δ) ?_ hΔ (hts.correction j _ _ g0 g1)).trans ?_
    · rw [hts.time _ _ g0, hts.time _ _ g1]; push_cast; ring
    · have := dtr_pos
      exact mul_le_mul_of_nonneg_right (hcast h2) (by positivity)
  have hφpos : ∀ k, 0 < (ent k).omega := fun k => (hso k).2.2.2.2.2.1
  have hsmall : ∀ k l, ((ent l).omega + (ent k).omega : ℝ) * 86400 * Δ ≤ Real.pi := by
    intro k l
    have h1 := hcast ((hall _ (hmem k)).2 _ (hmem l)).1
    push_cast at h1
    have h2 : ((ent l).omega + (ent k).omega : ℝ) * 86400 * Δ ≤ ((ent l).omega + (ent k).omega : ℝ) * 86400 * D := by
      have a1 : (0 : ℝ) ≤ (ent l).omega := by exact_mod_cast (hφpos l).le
      have a2 : (0 : ℝ) ≤ (ent k).omega := by exact_mod_cast (hφpos k).le
      exact mul_le_mul_of_nonneg_left hD (by positivity)
    have h3 := Real.pi_gt_d20
    norm_num at h1 h3
    linarith
  have hθpos : ∀ k, 0 < θ k := fun k => by
    have : (0 : ℝ) < (ent k).omega := by exact_mod_cast hφpos k
    simp only [hθ]; positivity
  have hsumθ : ∀ k l, θ l + θ k = ((ent l).omega + (ent k).omega : ℚ) * 86400 * Δ := fun k l => by
    simp only [hθ]; push_cast; ring
  have hdifθ : ∀ k l, θ l - θ k = ((ent l).omega - (ent k).omega : ℚ) * 86400 * Δ := fun k l => by
    simp only [hθ]; push_cast; ring
  have hlek : ∀ k l, θ l + θ k ≤ Real.pi := fun k l => by
    have := hsmall k l
    simp only [hθ]; linarith
  have hdist : ∀ k l, l ≠ k → (ent l).omega - (ent k).omega ≠ 0 := fun k l hlk => by
    rcases ((hall _ (hmem k)).2 _ (hmem l)).2 with h | h
    · exact absurd (Fin.ext ((List.Nodup.getElem_inj_iff hnd).1 (by
        have := (hname l).symm.trans (h.trans (hname k)); simpa using this))) hlk
    · exact sub_ne_zero.2 h
  have crossle : ∀ k l (ψ : ℚ), ψ ≠ 0 → Δ * ((ent l).weight * rest N (ψ * 86400 * Δ) ((ent l).high * (ent k).high)
      ((ent l).high * ((ent k).rate * (dtr * (11 / 10 * Δ))) + (ent k).high * ((ent l).rate * (dtr * (11 / 10 * Δ))))) ≤
      (N * Δ / T) * ((ent k).cross T (ent l) ψ : ℚ) := by
    intro k l ψ hψ
    have h1 := rest_le (T := T) (U := (ent l).high * (ent k).high)
      (D := (ent l).high * (ent k).rate + (ent k).high * (ent l).rate) (ψ := ψ) (N := N) (Δ := Δ) hT
      (mul_nonneg (high0 _ (hmem l)) (high0 _ (hmem k)))
      (add_nonneg (mul_nonneg (high0 _ (hmem l)) (rate0 _ (hmem k))) (mul_nonneg (high0 _ (hmem k)) (rate0 _ (hmem l))))
      hψ hΔ hN
    have hw0 : (0 : ℝ) ≤ (ent l).weight := by exact_mod_cast (hso l).2.2.2.2.2.2.le
    have h2 := mul_le_mul_of_nonneg_left h1 hw0
    have e1 : (((ent l).high * (ent k).rate + (ent k).high * (ent l).rate : ℚ) : ℝ) * (dtr * (11 / 10 * Δ)) =
        (ent l).high * ((ent k).rate * (dtr * (11 / 10 * Δ))) + (ent k).high * ((ent l).rate * (dtr * (11 / 10 * Δ))) := by
      push_cast; ring
    rw [e1] at h2
    simp only [Entry.cross]
    push_cast at h2 ⊢
    linarith
  have crossnn : ∀ k, ∀ l ∈ E, ∀ ψ, 0 ≤ (ent k).cross T l ψ := fun k l hl ψ => by
    unfold Entry.cross
    exact mul_nonneg (hsoE l hl).2.2.2.2.2.2.le (residue_nonneg hT.le
      (mul_nonneg (high0 _ hl) (high0 _ (hmem k)))
      (add_nonneg (mul_nonneg (high0 _ hl) (rate0 _ (hmem k))) (mul_nonneg (high0 _ (hmem k)) (rate0 _ hl))))
  have hratio : 0 < N * Δ / (T : ℝ) := div_pos hNΔ hT'
  have hconcl := independent N θ m (fun k => ((ent k).high : ℝ)) (fun k => ((ent k).low : ℝ))
    (fun k => (ent k).rate * (dtr * (11 / 10 * Δ))) (fun k => ((ent k).weight : ℝ))
    (fun k j _ => by
      obtain ⟨b, h1, -, h2, -⟩ := holds _ (hmem k)
      rw [hname] at h1
      simp only [hm]
      rw [hmulE]
      exact (h1.le _ _).trans (hcast h2))
    (fun k => by exact_mod_cast (hso k).2.2.2.2.1)
    (fun k => by exact_mod_cast high0 _ (hmem k))
    (fun k => by
      have : (0 : ℝ) ≤ (ent k).rate := by exact_mod_cast rate0 _ (hmem k)
      have := dtr_pos
      positivity)
    (fun k j _ => by
      obtain ⟨b, h1, h2, -⟩ := holds _ (hmem k)
      rw [hname] at h1
      simp only [hm]
      rw [hmulE]
      exact (hcast h2).trans (h1.ge _ _))
    hδ (fun k => by exact_mod_cast (hso k).2.2.2.2.2.2)
    (fun k => ⟨(hθpos k).ne', by rw [abs_of_pos (hθpos k)]; have := hlek k k; have := hθpos k; linarith⟩)
    (fun k l => by
      have h1 := hθpos k
      have h2 := hθpos l
      exact ⟨by positivity, by rw [abs_of_pos (by positivity)]; exact hlek k l⟩)
    (fun k l hlk => by
      refine ⟨?_, ?_⟩
      · rw [hdifθ]
        have : (((ent l).omega - (ent k).omega : ℚ) : ℝ) ≠ 0 := by exact_mod_cast hdist k l hlk
        exact mul_ne_zero (mul_ne_zero this (by norm_num)) hΔ.ne'
      · have h1 := hθpos k
        have h2 := hθpos l
        have h3 := hlek k l
        rw [abs_le]; constructor <;> linarith)
    (by
      have h1 : Δ * ∑ l, ((ent l).weight : ℝ) * rest N (θ l) (ent l).high ((ent l).rate * (dtr * (11 / 10 * Δ))) ≤
          (N * Δ / T) * ((∑ l, (ent l).weight * residue T (ent l).high (ent l).rate (ent l).omega : ℚ) : ℝ) := by
        push_cast
        rw [Finset.mul_sum, Finset.mul_sum]
        refine Finset.sum_le_sum fun l _ => ?_
        have h2 := rest_le (T := T) (N := N) hT (high0 _ (hmem l)) (rate0 _ (hmem l)) (hφpos l).ne' hΔ hN
        have hw0 : (0 : ℝ) ≤ (ent l).weight := by exact_mod_cast (hso l).2.2.2.2.2.2.le
        have h3 := mul_le_mul_of_nonneg_left h2 hw0
        simp only [hθ]
        linarith
      have h2 := sum_le_list E ent hinj hmem (fun l => l.weight * residue T l.high l.rate l.omega)
        (fun q hq => mul_nonneg (hsoE q hq).2.2.2.2.2.2.le (residue_nonneg hT.le (high0 q hq) (rate0 q hq)))
      have h3 := h2.trans_lt hmean
      have h4 : ((∑ l, (ent l).weight * residue T (ent l).high (ent l).rate (ent l).omega : ℚ) : ℝ) < T := by
        exact_mod_cast h3
      have h5 := h1.trans_lt (mul_lt_mul_of_pos_left h4 hratio)
      rw [div_mul_cancel₀ _ hT'.ne', mul_comm (N : ℝ) Δ] at h5
      exact lt_of_mul_lt_mul_left h5 hΔ.le)
    (fun k => by
      have h1 := (hall _ (hmem k)).1
      have s1 := sum_le_list E ent hinj hmem
        (fun l => if l.name = (ent k).name then 0 else (ent k).cross T l (l.omega - (ent k).omega))
        (fun q hq => by
          show (0:ℚ) ≤ if q.name = (ent k).name then 0 else (ent k).cross T q (q.omega - (ent k).omega)
          split
          · exact le_refl _
          · exact crossnn k q hq _)
      have s2 := sum_le_list E ent hinj hmem (fun l => (ent k).cross T l (l.omega + (ent k).omega))
        (fun q hq => crossnn k q hq _)
      have h2 : 2 * residue T (ent k).high (ent k).rate (ent k).omega
          + ∑ l, (if (ent l).name = (ent k).name then 0 else (ent k).cross T (ent l) ((ent l).omega - (ent k).omega))
          + ∑ l, (ent k).cross T (ent l) ((ent l).omega + (ent k).omega) < (ent k).weight * (T * (ent k).low ^ 2) := by
        linarith
      have h3 : (((2 * residue T (ent k).high (ent k).rate (ent k).omega
          + ∑ l, (if (ent l).name = (ent k).name then 0 else (ent k).cross T (ent l) ((ent l).omega - (ent k).omega))
          + ∑ l, (ent k).cross T (ent l) ((ent l).omega + (ent k).omega) : ℚ)) : ℝ) <
          ((ent k).weight * (T * (ent k).low ^ 2) : ℚ) := by exact_mod_cast h2
      have h4 := mul_lt_mul_of_pos_left h3 hratio
      have g1 : Δ * (2 * rest N (θ k) (ent k).high ((ent k).rate * (dtr * (11 / 10 * Δ)))) ≤
          (N * Δ / T) * (2 * (residue T (ent k).high (ent k).rate (ent k).omega : ℚ)) := by
        have := rest_le (T := T) (N := N) hT (high0 _ (hmem k)) (rate0 _ (hmem k)) (hφpos k).ne' hΔ hN
        simp only [hθ]
        linarith
      have g2 : Δ * ∑ l ∈ Finset.univ.erase k, ((ent l).weight : ℝ) * rest N (θ l - θ k)
          ((ent l).high * (ent k).high) ((ent l).high * ((ent k).rate * (dtr * (11 / 10 * Δ))) +
            (ent k).high * ((ent l).rate * (dtr * (11 / 10 * Δ)))) ≤
          (N * Δ / T) * ∑ l, (((if (ent l).name = (ent k).name then 0
            else (ent k).cross T (ent l) ((ent l).omega - (ent k).omega) : ℚ)) : ℝ) := by
        rw [← Finset.add_sum_erase Finset.univ _ (Finset.mem_univ k), if_pos rfl, Rat.cast_zero, zero_add,
          Finset.mul_sum, Finset.mul_sum]
        refine Finset.sum_le_sum fun l hl => ?_
        have hlk := Finset.ne_of_mem_erase hl
        have hne : (ent l).name ≠ (ent k).name := fun h => hlk (Fin.ext ((List.Nodup.getElem_inj_iff hnd).1 (by
          have := (hname l).symm.trans (h.trans (hname k)); simpa using this)))
        rw [if_neg hne, hdifθ]
        exact crossle k l _ (hdist k l hlk)
      have g3 : Δ * ∑ l, ((ent l).weight : ℝ) * rest N (θ l + θ k)
          ((ent l).high * (ent k).high) ((ent l).high * ((ent k).rate * (dtr * (11 / 10 * Δ))) +
            (ent k).high * ((ent l).rate * (dtr * (11 / 10 * Δ)))) ≤
          (N * Δ / T) * ∑ l, (((ent k).cross T (ent l) ((ent l).omega + (ent k).omega) : ℚ) : ℝ) := by
        rw [Finset.mul_sum, Finset.mul_sum]
        refine Finset.sum_le_sum fun l _ => ?_
        rw [hsumθ]
        exact crossle k l _ (add_pos (hφpos l) (hφpos k)).ne'
      push_cast at h4
      push_cast at g2
      have h5 : (N * Δ / T : ℝ) * ((ent k).weight * (T * (ent k).low ^ 2)) =
          Δ * ((ent k).weight * (N * (ent k).low ^ 2)) := by
        field_simp
      rw [h5, mul_add, mul_add] at h4
      refine lt_of_mul_lt_mul_left ?_ hΔ.le
      rw [mul_add, mul_add]
      linarith)
    (xa - xb) w hzero
  obtain ⟨hx, hwz⟩ := hconcl
  have hx' : xa = xb := sub_eq_zero.1 hx
  have hrows : ra.flatMap (fun z => [z.re, z.im]) = rb.flatMap (fun z => [z.re, z.im]) := by
    have hmap : ra.map (fun z : MC => (z.re, z.im)) = rb.map (fun z : MC => (z.re, z.im)) := by
      refine List.ext_getElem (by simp [hra, hrb]) fun k h1 h2 => ?_
      simp only [List.getElem_map]
      have hk : k < names.length := by rw [List.length_map, hra] at h1; exact h1
      have h3 := sub_eq_zero.1 (hwz ⟨k, hk⟩)
      have h4 := congrArg Complex.re h3
      have h5 := congrArg Complex.im h3
      simp only [MC.val] at h4 h5
      exact Prod.ext h4 h5
    have hfm : ∀ r : List MC, r.flatMap (fun z => [z.re, z.im]) =
        (r.map fun z : MC => (z.re, z.im)).flatMap fun x => [x.1, x.2] := fun r => by
      rw [List.flatMap_map]
    rw [hfm, hfm, hmap]
  rw [params, params, hx', hrows]

theorem plans_certified : ∀ q ∈ Spec.Sampling.plans, ∃ E : List Entry, E.all Entry.sound = true ∧
    separated E q.2.1 q.2.2 = true ∧ (∀ c ∈ q.1, c ∈ E.map Entry.name) ∧ 0 < q.2.1 ∧ 0 < q.2.2 ∧
    2 * (q.1.length : ℚ) * q.2.2 < q.2.1 := by
  intro q hq
  simp only [Spec.Sampling.plans, List.mem_cons, List.not_mem_nil, or_false] at hq
  rcases hq with rfl | rfl | rfl | rfl
  · exact ⟨half, half_sound, half_separated, by decide +kernel, by decide +kernel, by decide +kernel, by decide +kernel⟩
  · exact ⟨year, year_sound, year_separated, by decide +kernel, by decide +kernel, by decide +kernel, by decide +kernel⟩
  · exact ⟨hourly, hourly_sound, hourly_separated, by decide +kernel, by decide +kernel, by decide +kernel,
      by decide +kernel⟩
  · exact ⟨full, full_sound, full_separated, by decide +kernel, by decide +kernel, by decide +kernel, by decide +kernel⟩

/-- C106: different constants give different tides in observations as long, and as close, as a plan
asks for: the mean and the constants of the constituents are determined by the tide. -/
theorem C106_distinguish (selection : List String) (days step : ℚ)
    (hplan : (selection, days, step) ∈ Spec.Sampling.plans) (corr : String)
    (hcorr : corr ∈ ["OTIS", "ATLAS", "TMD3", "netcdf"]) (names : List String) (hnd : names.Nodup)
    (hsub : ∀ c ∈ names, c ∈ selection) (ts : List (ℝ × ℝ)) (start Δ : ℝ)
    (hts : Spec.Sampling.Regular ts start Δ) (hstep : Δ ≤ step) (hdays : days ≤ ts.length * Δ)
    (x y : ℝ) (r r' : List MC) (hr : r.length = names.length) (hr' : r'.length = names.length)
    (s s' : List MR) (hs : timeSeries (predictEnv corr) ts [r] names corr = .ok s)
    (hs' : timeSeries (predictEnv corr) ts [r'] names corr = .ok s')
    (heq : s.map (fun v => x + v.1) = s'.map (fun v => y + v.1)) :
    x = y ∧ r.map (fun z => (z.re, z.im)) = r'.map (fun z => (z.re, z.im)) := by
  obtain ⟨E, h1, h2, h3, h4, h5, -⟩ := plans_certified _ hplan
  have hk : ∀ c ∈ names, (predictEnv corr).known c = true := fun c hc => by
    obtain ⟨q, hq, rfl⟩ := List.mem_map.1 (h3 c (hsub c hc))
    exact (sound_spec (List.all_eq_true.1 h1 q hq)).2.2.1
  rw [C21_series_value _ corr ts r [] names hk hr] at hs
  rw [C21_series_value _ corr ts r' [] names hk hr'] at hs'
  cases hs; cases hs'
  rw [List.map_map, List.map_map] at heq
  have h := distinguish E days step h4 h1 h2 hcorr names hnd (fun c hc => h3 c (hsub c hc)) ts start Δ hts hstep
    hdays (params x r) (params y r') (by rw [params_length, hr]) (by rw [params_length, hr']) (fun t ht => by
      rw [dot_design _ _ _ _ _ _ hr, dot_design _ _ _ _ _ _ hr']
      exact List.map_inj_left.1 heq t ht)
  simp only [params, List.cons.injEq] at h
  refine ⟨h.1, ?_⟩
  have hflat : ∀ (a b : List MC), a.length = b.length → a.flatMap (fun z => [z.re, z.im]) =
      b.flatMap (fun z => [z.re, z.im]) → a.map (fun z => (z.re, z.im)) = b.map (fun z => (z.re, z.im)) := by
    intro a
    induction a with
    | nil => intro b hb _; rw [List.length_eq_zero_iff.1 hb.symm]
    | cons z a ih =>
      intro b hb he
      match b, hb, he with
      | w :: b, hb, he =>
        simp only [List.flatMap_cons, List.cons_append, List.nil_append, List.cons.injEq] at he
        simp only [List.map_cons, List.cons.injEq, Prod.mk.injEq]
        exact ⟨⟨he.1, he.2.1⟩, ih b (by simpa using hb) he.2.2⟩
  exact hflat r r' (hr.trans hr'.symm) h.2

/-- C106: a least squares fit of such observations returns the constants they were made from: the
amplitude of each constituent and its phase, whatever the solver, and whatever the mean. -/
theorem C106_recover (selection : List String) (days step : ℚ)
    (hplan : (selection, days, step) ∈ Spec.Sampling.plans) (corr : String)
    (hcorr : corr ∈ ["OTIS", "ATLAS", "TMD3", "netcdf"]) (names : List String) (hnd : names.Nodup)
    (hsub : ∀ c ∈ names, c ∈ selection) (ts : List (ℝ × ℝ)) (start Δ : ℝ)
    (hts : Spec.Sampling.Regular ts start Δ) (hstep : Δ ≤ step) (hdays : days ≤ ts.length * Δ)
    (solver : String) (hsolver : solver ∈ solvers) (B : List ℝ → Prop)
    (solve : List (List ℝ) → List ℝ → List ℝ) (offset : ℝ) (row : List MC) (hrow : row.length = names.length)
    (hB : B (params offset row)) :
    ∃ series, timeSeries (predictEnv corr) ts [row] names corr = .ok series ∧
      (IsSolution (ts.map (fun t => designRow (predictEnv corr) corr t names))
          (series.map (fun v => offset + v.1)) B
          (solve (ts.map (fun t => designRow (predictEnv corr) corr t names)) (series.map (fun v => offset + v.1))) →
        ∃ out : List (ℝ × ℝ),
          constants (predictEnv corr) solve ts (series.map (fun v => offset + v.1)) names corr solver = .ok out ∧
          out.length = names.length ∧
          ∀ (k : ℕ) (z : MC) (o : ℝ × ℝ), row[k]? = some z → out[k]? = some o →
            o.1 = ‖(⟨z.re, z.im⟩ : ℂ)‖ ∧
            (⟨z.re, z.im⟩ : ℂ) = o.1 * Complex.exp (-((o.2 * Real.pi / 180 : ℝ) : ℂ) * Complex.I) ∧
            0 ≤ o.2 ∧ o.2 < 360) := by
  obtain ⟨E, h1, h2, h3, h4, h5, h6⟩ := plans_certified _ hplan
  have hk : ∀ c ∈ names, (predictEnv corr).known c = true := fun c hc => by
    obtain ⟨q, hq, rfl⟩ := List.mem_map.1 (h3 c (hsub c hc))
    exact (sound_spec (List.all_eq_true.1 h1 q hq)).2.2.1
  refine ⟨_, C21_series_value _ corr ts row [] names hk hrow, fun hsolve => ?_⟩
  have hlen : names.length ≤ selection.length := (hnd.subperm hsub).length_le
  have hnt : 2 * names.length < ts.length := by
    have a1 : (2 * (selection.length : ℝ)) * step < days := by exact_mod_cast h6
    have a2 : ((step : ℚ) : ℝ) > 0 := by exact_mod_cast h5
    have a3 : (ts.length : ℝ) * Δ ≤ ts.length * step := mul_le_mul_of_nonneg_left hstep (by positivity)
    have a4 : (2 * (selection.length : ℝ)) * step < ts.length * step := by linarith
    have a5 := lt_of_mul_lt_mul_right a4 a2.le
    have a6 : 2 * selection.length < ts.length := by exact_mod_cast a5
    omega
  exact C24_recover (predictEnv corr) corr solver B solve hsolver ts names row offset hk hrow hnt _
    (C21_series_value _ corr ts row [] names hk hrow) hsolve hB
    (distinguish E days step h4 h1 h2 hcorr names hnd (fun c hc => h3 c (hsub c hc)) ts start Δ hts hstep hdays)

/-- The hypotheses can be met: a year of hourly observations of M2, S2, K1 and O1, and a solver that
returns what made them. -/
example (z : MC) : ∃ ts : List (ℝ × ℝ), Spec.Sampling.Regular ts 0 (1 / 24) ∧ ((365 : ℚ) : ℝ) ≤ ts.length * (1 / 24) ∧
    (Spec.Sampling.annual, (365 : ℚ), (1 / 24 : ℚ)) ∈ Spec.Sampling.plans ∧
    ["m2", "s2", "k1", "o1"].Nodup ∧ (∀ c ∈ ["m2", "s2", "k1", "o1"], c ∈ Spec.Sampling.annual) ∧
    [z, z, z, z].length = ["m2", "s2", "k1", "o1"].length := by
  refine ⟨(List.range 8760).map fun j : ℕ => ((j : ℝ) / 24, (0 : ℝ)), ⟨by norm_num, fun j t h => ?_, fun j t t' h h' => ?_⟩, ?_,
    by simp [Spec.Sampling.plans], by decide, by decide, rfl⟩
  · rw [List.getElem?_map] at h
    obtain ⟨i, hi, rfl⟩ := Option.map_eq_some_iff.1 h
    have : i = j := by
      rw [List.getElem?_eq_some_iff] at hi
      obtain ⟨hi, rfl⟩ := hi
      rw [List.getElem_range]
    subst this
    ring
  · rw [List.getElem?_map] at h h'
    obtain ⟨i, -, rfl⟩ := Option.map_eq_some_iff.1 h
    obtain ⟨i', -, rfl⟩ := Option.map_eq_some_iff.1 h'
    norm_num
  · rw [List.length_map, List.length_range]; norm_num

/-- A regular record has no time twice. -/
theorem regular_nodup {ts : List (ℝ × ℝ)} {start Δ : ℝ} (h : Spec.Sampling.Regular ts start Δ) : ts.Nodup := by
  refine List.nodup_iff_injective_getElem.2 fun i j hij => ?_
  have hi := h.time i ts[i] (List.getElem?_eq_getElem i.2)
  have hj := h.time j ts[j] (List.getElem?_eq_getElem j.2)
  have hij : ts[i] = ts[j] := hij
  rw [hij] at hi
  have : ((i : ℕ) : ℝ) * Δ = ((j : ℕ) : ℝ) * Δ := by linarith
  have := mul_right_cancel₀ h.pos.ne' this
  exact Fin.ext (by exact_mod_cast this)

/-- C106 for observations in any order and at any times, as long as those a plan asks for are among
them: observations between them, before, after or twice do no harm. -/
theorem C106_among_distinguish (selection : List String) (days step : ℚ)
    (hplan : (selection, days, step) ∈ Spec.Sampling.plans) (corr : String)
    (hcorr : corr ∈ ["OTIS", "ATLAS", "TMD3", "netcdf"]) (names : List String) (hnd : names.Nodup)
    (hsub : ∀ c ∈ names, c ∈ selection) (ts among : List (ℝ × ℝ)) (hmem : ∀ t ∈ among, t ∈ ts) (start Δ : ℝ)
    (hts : Spec.Sampling.Regular among start Δ) (hstep : Δ ≤ step) (hdays : days ≤ among.length * Δ)
    (x y : ℝ) (r r' : List MC) (hr : r.length = names.length) (hr' : r'.length = names.length)
    (s s' : List MR) (hs : timeSeries (predictEnv corr) ts [r] names corr = .ok s)
    (hs' : timeSeries (predictEnv corr) ts [r'] names corr = .ok s')
    (heq : s.map (fun v => x + v.1) = s'.map (fun v => y + v.1)) :
    x = y ∧ r.map (fun z => (z.re, z.im)) = r'.map (fun z => (z.re, z.im)) := by
  obtain ⟨E, h1, h2, h3, h4, h5, -⟩ := plans_certified _ hplan
  have hk : ∀ c ∈ names, (predictEnv corr).known c = true := fun c hc => by
    obtain ⟨q, hq, rfl⟩ := List.mem_map.1 (h3 c (hsub c hc))
    exact (sound_spec (List.all_eq_true.1 h1 q hq)).2.2.1
  rw [C21_series_value _ corr ts r [] names hk hr] at hs
  rw [C21_series_value _ corr ts r' [] names hk hr'] at hs'
  cases hs; cases hs'
  rw [List.map_map, List.map_map] at heq
  refine C106_distinguish selection days step hplan corr hcorr names hnd hsub among start Δ hts hstep hdays x y r r' hr
    hr' _ _ (C21_series_value _ corr among r [] names hk hr) (C21_series_value _ corr among r' [] names hk hr') ?_
  rw [List.map_map, List.map_map]
  exact List.map_congr_left fun t ht => List.map_inj_left.1 heq t (hmem t ht)

/-- C106: the least squares fit of such observations, too, returns the constants they were made
from. -/
theorem C106_among_recover (selection : List String) (days step : ℚ)
    (hplan : (selection, days, step) ∈ Spec.Sampling.plans) (corr : String)
    (hcorr : corr ∈ ["OTIS", "ATLAS", "TMD3", "netcdf"]) (names : List String) (hnd : names.Nodup)
    (hsub : ∀ c ∈ names, c ∈ selection) (ts among : List (ℝ × ℝ)) (hmem : ∀ t ∈ among, t ∈ ts) (start Δ : ℝ)
    (hts : Spec.Sampling.Regular among start Δ) (hstep : Δ ≤ step) (hdays : days ≤ among.length * Δ)
    (solver : String) (hsolver : solver ∈ solvers) (B : List ℝ → Prop)
    (solve : List (List ℝ) → List ℝ → List ℝ) (offset : ℝ) (row : List MC) (hrow : row.length = names.length)
    (hB : B (params offset row)) :
    ∃ series, timeSeries (predictEnv corr) ts [row] names corr = .ok series ∧
      (IsSolution (ts.map (fun t => designRow (predictEnv corr) corr t names))
          (series.map (fun v => offset + v.1)) B
          (solve (ts.map (fun t => designRow (predictEnv corr) corr t names)) (series.map (fun v => offset + v.1))) →
        ∃ out : List (ℝ × ℝ),
          constants (predictEnv corr) solve ts (series.map (fun v => offset + v.1)) names corr solver = .ok out ∧
          out.length = names.length ∧
          ∀ (k : ℕ) (z : MC) (o : ℝ × ℝ), row[k]? = some z → out[k]? = some o →
            o.1 = ‖(⟨z.re, z.im⟩ : ℂ)‖ ∧
            (⟨z.re, z.im⟩ : ℂ) = o.1 * Complex.exp (-((o.2 * Real.pi / 180 : ℝ) : ℂ) * Complex.I) ∧
            0 ≤ o.2 ∧ o.2 < 360) := by
  obtain ⟨E, h1, h2, h3, h4, h5, h6⟩ := plans_certified _ hplan
  have hk : ∀ c ∈ names, (predictEnv corr).known c = true := fun c hc => by
    obtain ⟨q, hq, rfl⟩ := List.mem_map.1 (h3 c (hsub c hc))
    exact (sound_spec (List.all_eq_true.1 h1 q hq)).2.2.1
  refine ⟨_, C21_series_value _ corr ts row [] names hk hrow, fun hsolve => ?_⟩
  have hlen : names.length ≤ selection.length := (hnd.subperm hsub).length_le
  have hnt : 2 * names.length < ts.length := by
    have a0 : among.length ≤ ts.length := ((regular_nodup hts).subperm hmem).length_le
    have a1 : (2 * (selection.length : ℝ)) * step < days := by exact_mod_cast h6
    have a2 : ((step : ℚ) : ℝ) > 0 := by exact_mod_cast h5
    have a3 : (among.length : ℝ) * Δ ≤ among.length * step := mul_le_mul_of_nonneg_left hstep (by positivity)
    have a4 : (2 * (selection.length : ℝ)) * step < among.length * step := by linarith
    have a5 := lt_of_mul_lt_mul_right a4 a2.le
    have a6 : 2 * selection.length < among.length := by exact_mod_cast a5
    omega
  exact C24_recover (predictEnv corr) corr solver B solve hsolver ts names row offset hk hrow hnt _
    (C21_series_value _ corr ts row [] names hk hrow) hsolve hB fun a b ha hb hab =>
      distinguish E days step h4 h1 h2 hcorr names hnd (fun c hc => h3 c (hsub c hc)) among start Δ hts hstep hdays
        a b ha hb fun t ht => hab t (hmem t ht)

/-- Constituents in use which have no parameters and no nodal corrections here. -/
def unplaced : List String := ["s1", "pi1", "psi1", "phi1", "r2"]

/-- C106 fails for constituents without tabulated parameters: their frequency is taken as zero, so that
the tide "predicted" for them is a constant, from which neither the sine part nor, beside a mean, the
cosine part can be told, however long the observations. -/
theorem C106_unplaced_false (corr : String) (hcorr : corr ∈ ["OTIS", "ATLAS", "TMD3", "netcdf"]) (c : String)
    (hc : c ∈ unplaced) (ts : List (ℝ × ℝ)) (x y : ℝ) :
    timeSeries (predictEnv corr) ts [[⟨x, y, false⟩]] [c] corr = .ok (ts.map fun _ => (x, false)) := by
  obtain ⟨h1, h2, h3, h4⟩ := mem_four hcorr
  have hall : ∀ c ∈ unplaced, (Coef.table.lookup c).isSome = true ∧ Parameters.table.lookup c.toLower = none ∧
      rule cfg c = defaultRule ∧ (Coef.lookup true c).isSome = true ∧ (Coef.lookup false c).isSome = true := by
    decide +kernel
  obtain ⟨g1, g2, g3, g4, g5⟩ := hall c hc
  rw [C21_series_value _ corr ts [⟨x, y, false⟩] [] [c] (by simpa [predictEnv] using g1) rfl]
  congr 1
  refine List.map_congr_left fun t _ => ?_
  have hone : ∀ n p, one cfg n p c = (0, 1) := fun n p => by
    rw [one_plain cfg n p (by rw [g3]; rfl), g3]
    have : Complex.arg (Complex.mk 1 0) = 0 := Complex.arg_one
    simp [defaultRule, Rule.eval, sinSum, cosSum, arctan2, this]
  have hz : (predictEnv corr).omega c = 0 ∧ (predictEnv corr).ph c = 0 := by
    simp [predictEnv, Parameters.parameters, g2]
  have ha : (predictEnv corr).args t.1 t.2 c = ⟨0, 1, ((predictEnv corr).args t.1 t.2 c).G⟩ := by
    rcases args_eq corr t.1 t.2 c with ⟨r', -, ha⟩ | ⟨⟨err, he⟩, -⟩
    · have ha : (predictEnv corr).args t.1 t.2 c = _ := ha
      rw [ha, h3, hone]
    · exfalso
      unfold Astro.row at he
      cases hh : otisType corr <;> rw [hh] at he
      · obtain ⟨r, hr⟩ := Option.isSome_iff_exists.1 g5
        rw [hr] at he; cases he
      · obtain ⟨r, hr⟩ := Option.isSome_iff_exists.1 g4
        rw [hr] at he; cases he
  have hph : phase (predictEnv corr) corr c t.1 ((predictEnv corr).args t.1 t.2 c) = 0 := by
    rw [ha]; simp [phase, h1, hz]
  have e1 : (prediction (predictEnv corr) corr t [c] [⟨x, y, false⟩]).1 = x := by
    have := tide_sum (predictEnv corr) corr t [c] [⟨x, y, false⟩] rfl
    refine this.trans ((Fin.sum_univ_one _).trans ?_)
    show ((MC.mk x y false).val * ((((predictEnv corr).args t.1 t.2 c).pf : ℂ) * Complex.exp
      ((phase (predictEnv corr) corr c t.1 ((predictEnv corr).args t.1 t.2 c) : ℝ) * Complex.I))).re = x
    rw [hph, ha]
    simp [MC.val]
  have e2 : (prediction (predictEnv corr) corr t [c] [⟨x, y, false⟩]).2 = false := by
    simp [prediction]
  exact Prod.ext e1 e2

end Verif.Separate
