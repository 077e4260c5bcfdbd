import Verif.Model.Compute
import Verif.Spec.Harmonic
import Verif.Props.Infer
/-!
C59: tides computed for grids, tracks and time series.
-/
namespace Verif.Compute
open Verif Verif.Predict Verif.Infer

/-! ### Specification -/

/-- The bands of minor constituents that are inferred for a kind of nodal corrections. -/
noncomputable def bands (I : Infer.Env) (corr : String) : List Band :=
  if corr = "GOT" then [semiDiurnal I "linear", diurnal I "linear", longPeriod I]
  else [shortPeriod I corr, longPeriod I]

/-- Enough majors of a band are provided, and a minor other than its first one is to be inferred. -/
def Active (b : Band) (names : List String) (minor : Option (List String)) : Prop :=
  b.need ≤ (b.cindex.filter fun c => decide (c ∈ names.map String.toLower)).length ∧
    ∃ p ∈ missing b names minor, p.2 ≠ 0

open Classical in
/-- The tide of the minor constituents. -/
noncomputable def minors (I : Infer.Env) (corr : String) (names : List String)
    (minor : Option (List String)) (t : ℝ × ℝ) (row : List MC) : ℝ :=
  ((bands I corr).map fun b => if Active b names minor then inferred b names minor t row else 0).sum

/-- The partial tides of a point at a time. -/
noncomputable def partials (P : Predict.Env) (corr : String) (names : List String)
    (amp ph : List MR) (t : ℝ × ℝ) : List Spec.Partial :=
  List.zipWith (fun c q => ⟨(P.args t.1 t.2 c).pf, phase P corr c t.1 (P.args t.1 t.2 c),
    q.1.1, q.2.1⟩) names (amp.zip ph)

open Classical in
/-- The elevation at a point with given amplitudes and phase lags, at a time: absent when one of
them is masked, else the sum of its partial tides, and of those of the minor constituents if they
are inferred. -/
noncomputable def elevation (P : Predict.Env) (I : Infer.Env) (corr : String) (infer : Bool)
    (names : List String) (minor : Option (List String)) (q : List MR × List MR) (t : ℝ × ℝ) :
    Option ℝ :=
  let t' := (t.1, if corr ∈ ["OTIS", "ATLAS", "TMD3", "netcdf"] then 0 else t.2)
  if ∃ v ∈ q.1 ++ q.2, v.2 = true then none
  else some (Spec.harmonic (partials P corr names q.1 q.2 t') +
    if infer then minors I corr names minor t' (List.zipWith oscillation q.1 q.2) else 0)

/-! ### Inference -/

/-- `r` is the array of the values `f`, or the number zero. -/
def IsRes {α : Type} (ps : List α) (r : Res) (a : Prop) (f : α → MR) : Prop :=
  (a → r = .array (ps.map f)) ∧ (¬ a → r = .scalar 0 ∧ ∀ p, f p = (0, false))

theorem IsRes.add {α : Type} {ps : List α} {r s : Res} {a b : Prop} {f g : α → MR}
    (h : IsRes ps r a f) (k : IsRes ps s b g) :
    IsRes ps (r.add s) (a ∨ b) (fun p => ((f p).1 + (g p).1, (f p).2 || (g p).2)) := by
  by_cases ha : a <;> by_cases hb : b
  · rw [h.1 ha, k.1 hb]
    refine ⟨fun _ => ?_, fun n => absurd (Or.inl ha) n⟩
    simp [Res.add, List.zipWith_map]
  · rw [h.1 ha, (k.2 hb).1]
    refine ⟨fun _ => ?_, fun n => absurd (Or.inl ha) n⟩
    simp [Res.add, (k.2 hb).2, Function.comp_def]
  · rw [(h.2 ha).1, k.1 hb]
    refine ⟨fun _ => ?_, fun n => absurd (Or.inr hb) n⟩
    simp [Res.add, (h.2 ha).2, Function.comp_def]
  · rw [(h.2 ha).1, (k.2 hb).1]
    refine ⟨fun n => ?_, fun _ => ?_⟩
    · rcases n with n | n
      · exact absurd n ha
      · exact absurd n hb
    · simp [Res.add, (h.2 ha).2, (k.2 hb).2]

open Classical in
/-- The value and mask of a band at a point. -/
noncomputable def bandValue (b : Band) (names : List String) (minor : Option (List String))
    (p : (ℝ × ℝ) × List MC) : MR :=
  if Active b names minor then
    (inferred b names minor p.1 p.2,
      (missing b names minor).any fun q => (b.constant q.2 (majors b names p.2)).mask)
  else (0, false)

theorem infer_band (b : Band) (ts : List (ℝ × ℝ)) (hc : List (List MC)) (names : List String)
    (minor : Option (List String)) (hn : (names.map String.toLower).Nodup)
    (hrow : ∀ row ∈ hc, row.length = names.length) (ps : List ((ℝ × ℝ) × List MC))
    (hps : pairs ts hc = .ok ps) :
    ∃ r, infer b ts hc names minor false = .ok r ∧
      IsRes ps r (Active b names minor) (bandValue b names minor) := by
  rw [infer_eq b ts hc names minor false hn hrow ps hps]
  by_cases h : Active b names minor
  · obtain ⟨h1, p, h2, h3⟩ := h
    rw [if_neg (by omega), if_neg (by
      rw [List.all_eq_true]
      exact fun k => h3 (by simpa using k p h2))]
    refine ⟨_, rfl, fun _ => ?_, fun n => absurd ⟨h1, p, h2, h3⟩ n⟩
    have hA : Active b names minor := ⟨h1, p, h2, h3⟩
    refine congrArg Res.array (List.map_congr_left fun q _ => ?_)
    unfold bandValue
    rw [if_pos hA]
  · refine ⟨.scalar 0, ?_, fun n => absurd n h, fun _ => ⟨rfl, fun p => if_neg h⟩⟩
    split
    · rfl
    · rename_i h1
      rw [if_pos]
      rw [List.all_eq_true]
      intro p hp
      by_contra h3
      exact h ⟨by omega, p, hp, by simpa using h3⟩

theorem zero_add_res (r : Res) : (Res.scalar 0).add r = r := by
  cases r <;> simp [Res.add]

/-- The value of `infer_minor` point by point. -/
theorem inferMinor_eq (I : Infer.Env) (ts : List (ℝ × ℝ)) (hc : List (List MC))
    (names : List String) (corr : String) (minor : Option (List String))
    (hn : (names.map String.toLower).Nodup) (hrow : ∀ row ∈ hc, row.length = names.length)
    (ps : List ((ℝ × ℝ) × List MC)) (hps : pairs ts hc = .ok ps)
    (hact : ∃ b ∈ bands I corr, Active b names minor) :
    inferMinor I ts hc names corr "linear" minor false = .ok (.array (ps.map fun p =>
      (minors I corr names minor p.1 p.2,
        (bands I corr).any fun b => (bandValue b names minor p).2))) := by
  have key : ∀ b p, (bandValue b names minor p).1
      = @ite _ (Active b names minor) (Classical.propDecidable _)
        (inferred b names minor p.1 p.2) 0 := by
    intro b p
    unfold bandValue
    split <;> rfl
  obtain ⟨rl, hl, il⟩ := infer_band (longPeriod I) ts hc names minor hn hrow ps hps
  by_cases hG : corr = "GOT"
  · have hb : bands I corr = [semiDiurnal I "linear", diurnal I "linear", longPeriod I] := if_pos hG
    obtain ⟨rs, hs, is⟩ := infer_band (semiDiurnal I "linear") ts hc names minor hn hrow ps hps
    obtain ⟨rd, hd, id⟩ := infer_band (diurnal I "linear") ts hc names minor hn hrow ps hps
    have hl' : "linear".toLower = "linear" := by decide +kernel
    rw [inferMinor, if_pos hG, if_pos (Or.inl hl'), hs, ok_bind, hd, ok_bind, ok_bind]
    dsimp only
    rw [hl, ok_bind, zero_add_res]
    have := (is.add id).add il
    rw [this.1 (by
      rw [hb] at hact
      obtain ⟨b, hb, ha⟩ := hact
      simp only [List.mem_cons, List.not_mem_nil, or_false] at hb
      rcases hb with rfl | rfl | rfl
      · exact Or.inl (Or.inl ha)
      · exact Or.inl (Or.inr ha)
      · exact Or.inr ha)]
    simp only [minors, hb, List.map_cons, List.map_nil, List.sum_cons, List.sum_nil, List.any_cons,
      List.any_nil, key, Bool.or_false, Bool.or_assoc, add_zero, add_assoc]
  · have hb : bands I corr = [shortPeriod I corr, longPeriod I] := if_neg hG
    obtain ⟨rs, hs, is⟩ := infer_band (shortPeriod I corr) ts hc names minor hn hrow ps hps
    rw [inferMinor, if_neg hG, hs, ok_bind, ok_bind]
    dsimp only
    rw [hl, ok_bind, zero_add_res]
    have := is.add il
    rw [this.1 (by
      rw [hb] at hact
      obtain ⟨b, hb, ha⟩ := hact
      simp only [List.mem_cons, List.not_mem_nil, or_false] at hb
      rcases hb with rfl | rfl
      · exact Or.inl ha
      · exact Or.inr ha)]
    simp only [minors, hb, List.map_cons, List.map_nil, List.sum_cons, List.sum_nil, List.any_cons,
      List.any_nil, key, Bool.or_false, add_zero]

/-! ### Masks of inferred constants -/

theorem zc_mask (z : List MC) (i : ℕ) (h : (zc z i).mask = true) : ∃ w ∈ z, w.mask = true := by
  by_cases hi : i < z.length
  · refine ⟨z[i], List.getElem_mem hi, ?_⟩
    rwa [zc, List.getD_eq_getElem?_getD, List.getElem?_eq_getElem hi] at h
  · rw [zc, List.getD_eq_getElem?_getD, List.getElem?_eq_none (by omega)] at h
    exact absurd h (by simp)

theorem linear_mask (o0 o1 o2 w : ℝ) (z : List MC)
    (h : (linear o0 o1 o2 w (zc z 0) (zc z 1) (zc z 2)).mask = true) :
    ∃ v ∈ z, v.mask = true := by
  unfold linear at h
  split at h
  all_goals
    simp only [Infer.add, smul, sub, Bool.or_eq_true] at h
    rcases h with h | h | h <;> exact zc_mask _ _ h

theorem majors_mask (b : Band) (names : List String) (row : List MC)
    (h : ∃ w ∈ majors b names row, w.mask = true) : ∃ z ∈ row, z.mask = true := by
  obtain ⟨w, hw, hm⟩ := h
  rw [majors, List.mem_iff_getElem] at hw
  obtain ⟨i, hi, rfl⟩ := hw
  rw [List.getElem_zipWith] at hm
  split at hm
  · rename_i z hz
    refine ⟨z, ?_, by simpa [smul] using hm⟩
    rw [provided, List.lookup_eq_some_iff] at hz
    obtain ⟨l1, l2, h2, _⟩ := hz
    have : (b.cindex[i]'(by simp at hi; omega), z) ∈ (names.map String.toLower).zip row := by
      rw [h2]; simp
    exact (List.of_mem_zip this).2
  · exact absurd hm (by simp)

theorem bandValue_mask (I : Infer.Env) (corr : String) (names : List String)
    (minor : Option (List String)) (p : (ℝ × ℝ) × List MC)
    (h : ((bands I corr).any fun b => (bandValue b names minor p).2) = true) :
    ∃ z ∈ p.2, z.mask = true := by
  rw [List.any_eq_true] at h
  obtain ⟨b, hb, h⟩ := h
  unfold bandValue at h
  split at h
  · rw [List.any_eq_true] at h
    obtain ⟨q, -, h⟩ := h
    refine majors_mask b names p.2 ?_
    have hl : "linear".toLower = "linear" := by decide +kernel
    unfold bands at hb
    split at hb
    all_goals
      simp only [List.mem_cons, List.not_mem_nil, or_false] at hb
    · rcases hb with rfl | rfl | rfl
      · simp only [semiDiurnal, smul, interpolate, hl, if_true] at h
        exact linear_mask _ _ _ _ _ h
      · simp only [diurnal, smul, interpolate, hl, if_true] at h
        exact linear_mask _ _ _ _ _ h
      · simp only [longPeriod, smul] at h
        exact linear_mask _ _ _ _ _ h
    · rcases hb with rfl | rfl
      · exact absurd h (by simp [shortPeriod, unmask])
      · simp only [longPeriod, smul] at h
        exact linear_mask _ _ _ _ _ h
  · exact absurd h (by simp)

/-! ### Values -/

theorem partials_tide (P : Predict.Env) (corr : String) (t : ℝ × ℝ) (names : List String)
    (amp ph : List MR) :
    Spec.tide (waves P corr t names (List.zipWith oscillation amp ph))
      = Spec.harmonic (partials P corr names amp ph t) := by
  unfold waves partials Spec.tide Spec.harmonic
  induction names generalizing amp ph with
  | nil => rfl
  | cons c names ih =>
    cases amp with
    | nil => rfl
    | cons a amp =>
      cases ph with
      | nil => rfl
      | cons g ph =>
        simp only [List.zipWith_cons_cons, List.zip_cons_cons, List.map_cons, List.sum_cons, ih,
          height_eq, oscillation, Real.cos_sub]
        ring

theorem oscillation_mask (amp ph : List MR) (h : amp.length = ph.length) :
    (∃ z ∈ List.zipWith oscillation amp ph, z.mask = true) ↔ ∃ v ∈ amp ++ ph, v.2 = true := by
  induction amp generalizing ph with
  | nil =>
    cases ph with
    | nil => simp
    | cons g ph => simp at h
  | cons a amp ih =>
    cases ph with
    | nil => simp at h
    | cons g ph =>
      have := ih ph (by simpa using h)
      simp only [List.zipWith_cons_cons, List.mem_cons, exists_eq_or_imp, oscillation,
        Bool.or_eq_true, List.cons_append, List.mem_append] at this ⊢
      rw [this]
      constructor
      · rintro ((h | h) | ⟨v, h, k⟩)
        · exact Or.inl h
        · exact Or.inr ⟨g, Or.inr (Or.inl rfl), h⟩
        · exact Or.inr ⟨v, h.imp id Or.inr, k⟩
      · rintro (h | ⟨v, h | h | h, k⟩)
        · exact Or.inl (Or.inl h)
        · exact Or.inr ⟨v, Or.inl h, k⟩
        · exact Or.inl (Or.inr (h ▸ k))
        · exact Or.inr ⟨v, Or.inr h, k⟩

/-- The value of a point whose major and minor tides are added. -/
theorem filled_sum (P : Predict.Env) (I : Infer.Env) (corr : String) (infer : Bool)
    (names : List String) (minor : Option (List String)) (q : List MR × List MR)
    (h : q.1.length = q.2.length) (t : ℝ × ℝ) (m : MR) (t' : ℝ × ℝ)
    (ht : t' = (t.1, if corr ∈ ["OTIS", "ATLAS", "TMD3", "netcdf"] then 0 else t.2))
    (hm : m.2 = true → ∃ z ∈ List.zipWith oscillation q.1 q.2, z.mask = true)
    (hv : m.1 = if infer then minors I corr names minor t' (List.zipWith oscillation q.1 q.2)
      else 0) :
    filled ((prediction P corr t' names (List.zipWith oscillation q.1 q.2)).1 + m.1,
      (prediction P corr t' names (List.zipWith oscillation q.1 q.2)).2 || m.2)
      = elevation P I corr infer names minor q t := by
  subst ht
  unfold elevation filled prediction
  dsimp only
  by_cases hk : ∃ v ∈ q.1 ++ q.2, v.2 = true
  · rw [if_pos hk, if_pos]
    rw [Bool.or_eq_true, List.any_eq_true]
    exact Or.inl ((oscillation_mask _ _ h).mpr hk)
  · rw [if_neg hk, if_neg, partials_tide, hv]
    rw [Bool.or_eq_true, List.any_eq_true]
    rintro (k | k)
    · exact hk ((oscillation_mask _ _ h).mp k)
    · exact hk ((oscillation_mask _ _ h).mp (hm k))

/-- The time with the correction that is used. -/
noncomputable def used (corr : String) (t : ℝ × ℝ) : ℝ × ℝ :=
  (t.1, if corr ∈ ["OTIS", "ATLAS", "TMD3", "netcdf"] then 0 else t.2)

/-- The complex constants of a point. -/
noncomputable def osc (q : List MR × List MR) : List MC := List.zipWith oscillation q.1 q.2

theorem both (P : Predict.Env) (I : Infer.Env) (corr : String) (infer : Bool)
    (names : List String) (minor : Option (List String))
    (hn : (names.map String.toLower).Nodup)
    (hact : infer = true → ∃ b ∈ bands I corr, Active b names minor)
    (ts : List (ℝ × ℝ)) (hc : List (List MC)) (hrow : ∀ row ∈ hc, row.length = names.length)
    (ps : List ((ℝ × ℝ) × (List MR × List MR))) (hq : ∀ p ∈ ps, p.2.1.length = p.2.2.length)
    (hps : infer = true → pairs ts hc = .ok (ps.map fun p => (used corr p.1, osc p.2))) :
    ∃ l, plusMinor infer (ps.map fun p => prediction P corr (used corr p.1) names (osc p.2))
        (inferMinor I ts hc names corr "linear" minor false) = .ok l ∧
      l.map filled = ps.map (fun p => elevation P I corr infer names minor p.2 p.1) := by
  cases infer with
  | false =>
    refine ⟨_, rfl, ?_⟩
    rw [List.map_map, List.map_map]
    refine List.map_congr_left fun p hp => ?_
    exact filled_sum P I corr false names minor p.2 (hq p hp) p.1 (0, false) _ rfl (by simp)
      (by simp)
  | true =>
    rw [plusMinor, if_pos rfl, inferMinor_eq I ts hc names corr minor hn hrow _ (hps rfl)
      (hact rfl), ok_bind, addMinor]
    refine ⟨_, rfl, ?_⟩
    rw [List.map_map, List.zipWith_map, List.zipWith_self, List.map_map]
    refine List.map_congr_left fun p hp => ?_
    exact filled_sum P I corr true names minor p.2 (hq p hp) p.1 (_, _) _ rfl
      (fun h => bandValue_mask I corr names minor _ h) (by simp [osc])

/-- Complete input: names known and different, one amplitude and one phase for each at every
point, and enough constituents for the inference of minor ones when it is asked for. -/
structure Complete (P : Predict.Env) (I : Infer.Env) (o : Options) (m : Extracted) : Prop where
  points : m.amp.length = m.ph.length
  entries : ∀ q ∈ m.amp.zip m.ph, q.1.length = m.names.length ∧ q.2.length = m.names.length
  known : ∀ c ∈ m.names, P.known c = true
  distinct : (m.names.map String.toLower).Nodup
  inferable : o.infer = true → ∃ b ∈ bands I (orString o.corrections m.corrections),
    Active b m.names (orList o.minor m.minor)

/-- The elevation for a request. -/
noncomputable def answer (P : Predict.Env) (I : Infer.Env) (o : Options) (m : Extracted)
    (q : List MR × List MR) (t : ℝ × ℝ) : Option ℝ :=
  elevation P I (orString o.corrections m.corrections) o.infer m.names (orList o.minor m.minor) q t

theorem constants_eq (amp ph : List (List MR)) : constants amp ph = (amp.zip ph).map osc := by
  rw [constants, List.zip, List.map_zipWith]
  rfl

theorem constants_row (P : Predict.Env) (I : Infer.Env) (o : Options) (m : Extracted)
    (h : Complete P I o m) : ∀ row ∈ constants m.amp m.ph, row.length = m.names.length := by
  intro row hr
  rw [constants_eq, List.mem_map] at hr
  obtain ⟨q, hq, rfl⟩ := hr
  simp [osc, h.entries q hq]

theorem withDelta_eq (corr : String) (times : List (ℝ × ℝ)) :
    withDelta corr times = times.map (used corr) := rfl

theorem pairs_single {α : Type} (t : ℝ × ℝ) (rows : List α) :
    pairs [t] rows = .ok (rows.map fun r => (t, r)) := by
  match rows with
  | [] => rfl
  | [r] => rfl
  | r :: s :: rest => rfl

theorem pyMap_map {α β γ : Type} {f : β → Except PyErr γ} {g : α → β} {k : α → γ} {l : List α}
    (h : ∀ a ∈ l, f (g a) = .ok (k a)) : pyMap f (l.map g) = .ok (l.map k) := by
  induction l with
  | nil => rfl
  | cons a l ih =>
    rw [List.map_cons, pyMap, h a (by simp), ih (fun b hb => h b (by simp [hb]))]
    rfl

/-- C59, grids: the elevation of every point at every time. -/
theorem C59_grid (P : Predict.Env) (I : Infer.Env) (o : Options) (ny nx : ℕ) (m : Extracted)
    (times : List (ℝ × ℝ)) (h : Complete P I o m) (ht : o.type.toLower = "grid")
    (hs : m.amp.length = ny * nx) :
    tideElevations P I o ny nx m times = .ok (.grid (times.map fun t =>
      (m.amp.zip m.ph).map fun q => answer P I o m q t)) := by
  rw [tideElevations, if_neg (by simp [ht]), predict, if_pos ht, withDelta_eq]
  refine Eq.trans (congrArg (fun e => e >>= _) (pyMap_map
    (k := fun t => (m.amp.zip m.ph).map fun q => answer P I o m q t) ?_)) (ok_bind _ _)
  intro t _
  set corr := orString o.corrections m.corrections with hcorr
  rw [C21_map_value P corr _ _ _ _ h.known (constants_row P I o m h), ok_bind]
  obtain ⟨l, hl1, hl2⟩ := both P I corr o.infer m.names (orList o.minor m.minor) h.distinct
    h.inferable [used corr t] (constants m.amp m.ph) (constants_row P I o m h)
    ((m.amp.zip m.ph).map fun q => (t, q))
    (by
      intro p hp
      obtain ⟨q, hq, rfl⟩ := List.mem_map.mp hp
      exact (h.entries q hq).1.trans (h.entries q hq).2.symm)
    (by
      intro _
      rw [pairs_single, constants_eq, List.map_map, List.map_map]
      rfl)
  rw [constants_eq, List.map_map] at hl1 ⊢
  have hlen : l.length = ny * nx := by
    have := congrArg List.length hl2
    simp only [List.length_map, List.length_zip, ← h.points, Nat.min_self] at this
    rw [this, hs]
  refine Eq.trans (congrArg (fun e => e >>= _) hl1) ?_
  rw [ok_bind, if_pos hlen, hl2, List.map_map]
  rfl

theorem flatMask_self (l : List Bool) : flatMask l.length l = l := by
  refine List.ext_getElem (by simp [flatMask]) fun i h1 h2 => ?_
  simp [flatMask, Nat.mod_eq_of_lt h2, h2]

theorem pairs_zip {α : Type} (ts : List (ℝ × ℝ)) (rows : List α) (h : rows.length = ts.length) :
    pairs ts rows = .ok (ts.zip rows) := by
  match rows, ts, h with
  | [], [], _ => rfl
  | [r], [t], _ => rfl
  | r :: s :: rest, t :: u :: more, h => exact if_pos h

/-- C59, tracks: the elevation of every point at its time. -/
theorem C59_drift (P : Predict.Env) (I : Infer.Env) (o : Options) (ny nx : ℕ) (m : Extracted)
    (times : List (ℝ × ℝ)) (h : Complete P I o m) (ht : o.type.toLower = "drift")
    (hs : m.amp.length = times.length) :
    tideElevations P I o ny nx m times = .ok (.drift
      (List.zipWith (answer P I o m) (m.amp.zip m.ph) times)) := by
  rw [tideElevations, if_neg (by simp [ht]), predict, if_neg (by simp [ht]), if_pos ht,
    withDelta_eq, constants_eq]
  set corr := orString o.corrections m.corrections with hcorr
  set L := times.zip (m.amp.zip m.ph) with hL
  have hlen : ((m.amp.zip m.ph).map osc).length = (times.map (used corr)).length := by
    simp [← h.points, hs]
  have hlen' : (m.amp.zip m.ph).length = times.length := by simpa using hlen
  have hrow : ∀ row ∈ (m.amp.zip m.ph).map osc, row.length = m.names.length := by
    rw [← constants_eq]; exact constants_row P I o m h
  have hzip : (times.map (used corr)).zip ((m.amp.zip m.ph).map osc)
      = L.map fun p => (used corr p.1, osc p.2) := by
    rw [List.zip_map, hL]; rfl
  have hq : ∀ p ∈ L, p.2.1.length = p.2.2.length := by
    intro p hp
    have := h.entries p.2 (List.of_mem_zip hp).2
    exact this.1.trans this.2.symm
  have hmask : flatMask (times.map (used corr)).length
      (((m.amp.zip m.ph).map osc).map fun row => row.any fun z => z.mask)
      = L.map fun p => (osc p.2).any fun z => z.mask := by
    rw [show (times.map (used corr)).length
      = (((m.amp.zip m.ph).map osc).map fun row => row.any fun z => z.mask).length by
        simp only [List.length_map]; exact hlen'.symm, flatMask_self, List.map_map,
      show (m.amp.zip m.ph) = L.map Prod.snd by
        rw [hL, List.map_snd_zip (by omega)], List.map_map]
    rfl
  have hans : List.zipWith (answer P I o m) (m.amp.zip m.ph) times
      = L.map fun p => elevation P I corr o.infer m.names (orList o.minor m.minor) p.2 p.1 := by
    rw [hL, show times.zip (m.amp.zip m.ph) = List.zipWith Prod.mk times (m.amp.zip m.ph) from rfl, List.map_zipWith, List.zipWith_comm]
    rfl
  rw [C21_drift_value P corr _ _ _ h.known hlen hrow, hzip, hmask, hans]
  dsimp only
  rw [ok_bind]
  cases hi : o.infer with
  | false =>
    rw [if_neg (by simp), ok_bind]
    refine congrArg (fun l => Except.ok (Out.drift l)) ?_
    rw [List.map_map, List.map_map, List.zipWith_map, List.zipWith_self]
    refine List.map_congr_left fun p hp => ?_
    have := filled_sum P I corr false m.names (orList o.minor m.minor) p.2 (hq p hp) p.1 (0, false)
      _ rfl (by simp) (by simp)
    rw [← this]
    simp only [Function.comp, prediction, add_zero, Bool.or_false]
    rfl
  | true =>
    rw [if_pos rfl, inferMinor_eq I _ _ m.names corr _ h.distinct hrow _
      ((pairs_zip _ _ hlen).trans (congrArg Except.ok hzip)) (h.inferable hi), ok_bind]
    dsimp only
    have hb : broadcast (times.map (used corr)).length
        ((L.map fun p => (used corr p.1, osc p.2)).map fun p =>
          (minors I corr m.names (orList o.minor m.minor) p.1 p.2,
            (bands I corr).any fun b => (bandValue b m.names (orList o.minor m.minor) p).2))
        = .ok ((L.map fun p => (used corr p.1, osc p.2)).map fun p =>
          (minors I corr m.names (orList o.minor m.minor) p.1 p.2,
            (bands I corr).any fun b => (bandValue b m.names (orList o.minor m.minor) p).2)) := by
      refine if_pos ?_
      simp [hL, ← h.points, hs]
    rw [hb, ok_bind, ok_bind]
    refine congrArg (fun l => Except.ok (Out.drift l)) ?_
    rw [List.map_map, List.map_map, List.zipWith_map, List.zipWith_self, List.zipWith_map,
      List.zipWith_self]
    refine List.map_congr_left fun p hp => ?_
    have := filled_sum P I corr true m.names (orList o.minor m.minor) p.2 (hq p hp) p.1 (_, false)
      _ rfl (by simp) rfl
    rw [← this]
    simp only [Function.comp, prediction, Bool.or_false]
    rfl

/-- C59, time series: the elevation of every station at every time. -/
theorem C59_series (P : Predict.Env) (I : Infer.Env) (o : Options) (ny nx : ℕ) (m : Extracted)
    (times : List (ℝ × ℝ)) (h : Complete P I o m) (ht : o.type.toLower = "time series")
    (hs : times ≠ []) :
    tideElevations P I o ny nx m times = .ok (.series ((m.amp.zip m.ph).map fun q =>
      times.map fun t => answer P I o m q t)) := by
  rw [tideElevations, if_neg (by simp [ht]), predict, if_neg (by simp [ht]), if_neg (by simp [ht]),
    if_pos ht, withDelta_eq, constants_eq]
  refine Eq.trans (congrArg (fun e => e >>= _) (pyMap_map
    (k := fun q => times.map fun t => answer P I o m q t) ?_)) (ok_bind _ _)
  intro q hq
  set corr := orString o.corrections m.corrections with hcorr
  have hlen : (osc q).length = m.names.length := by simp [osc, h.entries q hq]
  rw [C21_series_value P corr _ _ _ _ h.known hlen, ok_bind]
  obtain ⟨l, hl1, hl2⟩ := both P I corr o.infer m.names (orList o.minor m.minor) h.distinct
    h.inferable (times.map (used corr)) [osc q] (by simpa using hlen)
    (times.map fun t => (t, q))
    (by
      intro p hp
      obtain ⟨t, _, rfl⟩ := List.mem_map.mp hp
      exact (h.entries q hq).1.trans (h.entries q hq).2.symm)
    (by
      intro _
      cases times with
      | nil => exact absurd rfl hs
      | cons t times =>
        simp only [List.map_cons, pairs, List.map_map]
        rfl)
  rw [List.map_map] at hl1 ⊢
  refine Eq.trans (congrArg (fun e => e >>= _) hl1) ?_
  rw [ok_bind, hl2, List.map_map]
  rfl

/-- C59, currents: every component of a current is computed as an elevation is. -/
theorem C59_currents (P : Predict.Env) (I : Infer.Env) (o : Options) (ny nx : ℕ)
    (components : List (String × Extracted)) (times : List (ℝ × ℝ)) (f : String × Extracted → Out)
    (h : ∀ c ∈ components, tideElevations P I o ny nx c.2 times = .ok (f c))
    (ht : o.type.toLower ∈ ["grid", "drift", "time series"]) :
    tideCurrents P I o ny nx components times = .ok (components.map fun c => (c.1, f c)) := by
  rw [tideCurrents, if_neg (not_not.mpr ht)]
  refine pyMap_ok_of_forall fun c hc => ?_
  have := h c hc
  rw [tideElevations, if_neg (not_not.mpr ht)] at this
  dsimp only at this ⊢
  rw [this, ok_bind]

/-- Input that meets the hypotheses: a point with eight constituents and a masked point, minor
constituents inferred. -/
example (I : Infer.Env) : ∃ (P : Predict.Env) (o : Options) (m : Extracted),
    Complete P I o m ∧ o.infer = true ∧ o.type.toLower = "drift" ∧ m.amp.length = 2 ∧
    answer P I o m (m.amp.getD 1 [], m.ph.getD 1 []) (0, 0) = none := by
  refine ⟨⟨fun _ => true, fun _ _ _ => ⟨0, 1, 0⟩, fun _ => 0, fun _ => 0⟩,
    ⟨"Drift", none, true, none⟩,
    ⟨[List.replicate 8 (1, false), List.replicate 8 (0, true)],
      [List.replicate 8 (30, false), List.replicate 8 (0, true)], eight, "OTIS", none⟩,
    ⟨rfl, ?_, fun _ _ => rfl, by decide +kernel, fun _ => ?_⟩, rfl, by decide +kernel, rfl, ?_⟩
  · intro q hq
    simp only [List.zip_cons_cons, List.zip_nil_right, List.mem_cons, List.not_mem_nil,
      or_false] at hq
    rcases hq with rfl | rfl <;> simp [eight]
  · refine ⟨shortPeriod I "OTIS", by simp [bands, orString], ?_, ("mu2", 12), ?_, by decide⟩
    · have : (shortPeriod I "OTIS").cindex.filter (fun c => decide (c ∈ eight.map String.toLower))
        = eight := by simp only [shortPeriod]; decide +kernel
      rw [this]; simp [shortPeriod, eight]
    · rw [missing, List.mem_filter]
      refine ⟨?_, by simp only [orList]; decide +kernel⟩
      rw [List.mem_zipIdx_iff_getElem?]
      rfl
  · unfold answer elevation
    dsimp only
    rw [if_pos ⟨(0, true), by simp, rfl⟩]

end Verif.Compute
