import Verif.Model.Equilibrium
import Verif.Props.Arguments
import Verif.Props.Nodal
import Verif.Spec.CartwrightEdden
import Mathlib.Analysis.Real.Pi.Bounds

/-!
# C31: the long-period equilibrium tide; C54: it agrees with the tidal arguments
-/

namespace Verif.Equilibrium

open Verif Verif.Astro Real

/-! ## One value -/

/-- The equilibrium tide at one time and latitude. -/
noncomputable def value (corrections : String) (names : Names) (deltat t lat : ℝ) : ℝ :=
  gamma2 * sqrt ((4 + 1) / (4 * π)) * P20 lat * (Z corrections names deltat t / 100)

/-- Every value of the result belongs to a time and a latitude of the request. -/
theorem mem_flat {corrections : String} {names : Names} {deltat : ℝ} {ts lats : List ℝ} {v : ℝ}
    (h : v ∈ (equilibriumTide corrections names deltat ts lats).flat) :
    ∃ t ∈ ts, ∃ lat ∈ lats, v = value corrections names deltat t lat := by
  unfold equilibriumTide at h
  dsimp only at h
  split at h
  · simp only [Arr.flat, List.mem_flatten, List.mem_map] at h
    obtain ⟨l, ⟨lat, hlat, rfl⟩, hv⟩ := h
    obtain ⟨t, ht, rfl⟩ := List.mem_map.1 hv
    exact ⟨t, ht, lat, hlat, by unfold value; ring⟩
  · simp only [Arr.flat] at h
    obtain ⟨i, hi, rfl⟩ := List.getElem_of_mem h
    rw [List.length_zipWith] at hi
    rw [List.getElem_zipWith]
    exact ⟨_, List.getElem_mem (by omega), _, List.getElem_mem (by omega), rfl⟩

/-! ## Latitude -/

theorem P20_neg (lat : ℝ) : P20 (-lat) = P20 lat := by
  unfold P20
  rw [show -lat * π / 180 = -(lat * π / 180) by ring, sin_neg, neg_sq]

/-- C31: the equilibrium tide is the same at opposite latitudes. -/
theorem C31_symmetric (corrections : String) (names : Names) (deltat : ℝ) (ts lats : List ℝ) :
    equilibriumTide corrections names deltat ts (lats.map fun l => -l) =
      equilibriumTide corrections names deltat ts lats := by
  unfold equilibriumTide
  dsimp only
  rw [List.length_map]
  split
  · rw [List.map_map]
    refine congrArg Arr.mat (List.map_congr_left fun l _ => ?_)
    simp only [Function.comp, P20_neg]
  · rw [List.zipWith_map_left]
    simp only [P20_neg]

/-- C31: the equilibrium tide vanishes at the latitudes with 3 sin² = 1, at every time. -/
theorem C31_vanishes (corrections : String) (names : Names) (deltat : ℝ) (ts lats : List ℝ)
    (h : ∀ lat ∈ lats, 3 * sin (lat * π / 180) ^ 2 = 1) :
    ∀ v ∈ (equilibriumTide corrections names deltat ts lats).flat, v = 0 := by
  intro v hv
  obtain ⟨t, _, lat, hlat, rfl⟩ := mem_flat hv
  unfold value P20
  rw [h lat hlat]
  ring

/-- There is such a latitude. -/
example : 3 * sin (arcsin (sqrt (1 / 3)) * 180 / π * π / 180) ^ 2 = 1 := by
  have hs : sqrt (1 / 3) ≤ 1 := sqrt_le_one.2 (by norm_num)
  rw [show arcsin (sqrt (1 / 3)) * 180 / π * π / 180 = arcsin (sqrt (1 / 3)) by
    field_simp [pi_ne_zero], sin_arcsin (by linarith [sqrt_nonneg (1 / 3 : ℝ)]) hs,
    sq_sqrt (by norm_num)]
  norm_num

/-- C31: the latitude dependence at one time is a multiple of the degree two zonal harmonic: the
values at two latitudes are in proportion. -/
theorem C31_zonal (corrections : String) (names : Names) (deltat t lat₁ lat₂ : ℝ) :
    ∃ v₁ v₂, equilibriumTide corrections names deltat [t] [lat₁] = .vec [v₁] ∧
      equilibriumTide corrections names deltat [t] [lat₂] = .vec [v₂] ∧
      v₁ * (3 * sin (lat₂ * π / 180) ^ 2 - 1) = v₂ * (3 * sin (lat₁ * π / 180) ^ 2 - 1) := by
  refine ⟨value corrections names deltat t lat₁, value corrections names deltat t lat₂, rfl, rfl, ?_⟩
  unfold value P20
  ring

/-! ## Constituents -/

theorem Z_congr {corrections : String} {A B : Names} {deltat t : ℝ}
    (h : ∀ q ∈ lines, q.1 ∈ A.toList ↔ q.1 ∈ B.toList) :
    Z corrections A deltat t = Z corrections B deltat t := by
  unfold Z
  refine congrArg List.sum (List.map_congr_left fun q hq => ?_)
  simp only [h q hq]

theorem equilibriumTide_congr {corrections : String} {A B : Names} {deltat : ℝ}
    (h : ∀ q ∈ lines, q.1 ∈ A.toList ↔ q.1 ∈ B.toList) (ts lats : List ℝ) :
    equilibriumTide corrections A deltat ts lats =
      equilibriumTide corrections B deltat ts lats := by
  have : Z corrections A deltat = Z corrections B deltat := funext fun t => Z_congr h
  unfold equilibriumTide
  rw [this]

/-- C31: names that denote none of the fifteen terms contribute nothing. -/
theorem C31_unknown (corrections : String) (cs : List String) (deltat : ℝ) (ts lats : List ℝ) :
    equilibriumTide corrections (.many cs) deltat ts lats =
      equilibriumTide corrections (.many (cs.filter fun c =>
        c.toLower ∈ ["node", "sa", "ssa", "msm", "065.445", "mm", "065.465", "msf", "075.355",
          "mf", "mf+", "075.575", "mst", "mt", "085.465"])) deltat ts lats := by
  refine equilibriumTide_congr (fun q hq => ?_) ts lats
  have hn : q.1 ∈ ["node", "sa", "ssa", "msm", "065.445", "mm", "065.465", "msf", "075.355",
      "mf", "mf+", "075.575", "mst", "mt", "085.465"] :=
    List.mem_map_of_mem (f := fun q : String × ℚ × List ℤ => q.1) hq
  simp only [Names.toList, List.mem_map, List.mem_filter, decide_eq_true_eq]
  constructor
  · rintro ⟨c, hc, e⟩
    exact ⟨c, ⟨hc, e ▸ hn⟩, e⟩
  · rintro ⟨c, ⟨hc, _⟩, e⟩
    exact ⟨c, hc, e⟩

/-- C31: the order, repetition and case of the names do not matter, and a single name may be
given as a string. -/
theorem C31_names (corrections : String) (A B : List String) (deltat : ℝ) (ts lats : List ℝ)
    (h : ∀ c, c ∈ A.map (·.toLower) ↔ c ∈ B.map (·.toLower)) :
    equilibriumTide corrections (.many A) deltat ts lats =
      equilibriumTide corrections (.many B) deltat ts lats :=
  equilibriumTide_congr (fun _ _ => h _) ts lats

theorem C31_string (corrections : String) (c : String) (deltat : ℝ) (ts lats : List ℝ) :
    equilibriumTide corrections (.one c) deltat ts lats =
      equilibriumTide corrections (.many [c]) deltat ts lats := rfl

example : ∀ c, c ∈ (["Mf", "MM", "mm"] : List String).map (·.toLower) ↔
    c ∈ (["mm", "mf"] : List String).map (·.toLower) := by
  intro c
  rw [show (["Mf", "MM", "mm"] : List String).map (·.toLower) = ["mf", "mm", "mm"] by
    decide +kernel, show (["mm", "mf"] : List String).map (·.toLower) = ["mm", "mf"] by
    decide +kernel]
  simp only [List.mem_cons, List.not_mem_nil, or_false]
  tauto

theorem Z_append {corrections : String} {A B : List String} {deltat t : ℝ}
    (h : ∀ a ∈ A, ∀ b ∈ B, a.toLower ≠ b.toLower) :
    Z corrections (.many (A ++ B)) deltat t =
      Z corrections (.many A) deltat t + Z corrections (.many B) deltat t := by
  unfold Z
  rw [← List.sum_map_add]
  refine congrArg List.sum (List.map_congr_left fun q _ => ?_)
  rw [← mul_add]
  refine congrArg _ ?_
  simp only [Names.toList, List.map_append, List.mem_append]
  by_cases ha : q.1 ∈ A.map (·.toLower) <;> by_cases hb : q.1 ∈ B.map (·.toLower)
  · obtain ⟨a, hA, ea⟩ := List.mem_map.1 ha
    obtain ⟨b, hB, eb⟩ := List.mem_map.1 hb
    exact absurd (ea.trans eb.symm) (h a hA b hB)
  all_goals simp [ha, hb]

/-- C31: the tide of two disjoint sets of constituents is the sum of their tides. -/
theorem C31_additive (corrections : String) (A B : List String) (deltat : ℝ) (ts lats : List ℝ)
    (h : ∀ a ∈ A, ∀ b ∈ B, a.toLower ≠ b.toLower) :
    (equilibriumTide corrections (.many (A ++ B)) deltat ts lats).flat =
      List.zipWith (· + ·) (equilibriumTide corrections (.many A) deltat ts lats).flat
        (equilibriumTide corrections (.many B) deltat ts lats).flat := by
  have hz : Z corrections (.many (A ++ B)) deltat = fun t =>
      Z corrections (.many A) deltat t + Z corrections (.many B) deltat t :=
    funext fun t => Z_append h
  have zip_map : ∀ (f g : ℝ → ℝ) (l : List ℝ),
      List.zipWith (· + ·) (l.map f) (l.map g) = l.map fun x => f x + g x := by
    intro f g l
    induction l with
    | nil => rfl
    | cons a l ih => simp [ih]
  have zip_zip : ∀ (f g : ℝ → ℝ → ℝ) (l m : List ℝ),
      List.zipWith (· + ·) (List.zipWith f l m) (List.zipWith g l m) =
        List.zipWith (fun x y => f x y + g x y) l m := by
    intro f g l
    induction l with
    | nil => intro m; rfl
    | cons a l ih => intro m; cases m with
      | nil => rfl
      | cons b m => simp [ih]
  unfold equilibriumTide
  dsimp only
  rw [hz]
  split
  · simp only [Arr.flat]
    clear * - zip_map
    induction lats with
    | nil => rfl
    | cons lat l ih =>
      simp only [List.map_cons, List.flatten_cons]
      rw [List.zipWith_append (by simp), ← ih, zip_map]
      refine congrArg (· ++ _) (List.map_congr_left fun t _ => ?_)
      ring
  · simp only [Arr.flat]
    rw [zip_zip]
    refine congrArg (fun f => List.zipWith f lats ts) (funext fun lat => funext fun t => ?_)
    ring

example : ∀ a ∈ (["mf", "Mm"] : List String), ∀ b ∈ (["SSA"] : List String),
    a.toLower ≠ b.toLower := by decide +kernel

/-! ## The bound -/

theorem sum_abs_le : ∀ (l : List (String × ℚ × List ℤ)) (g : List ℤ → ℝ) (p : String → Prop)
    [DecidablePred p],
    |(l.map fun q => cos (g q.2.2) * (if p q.1 then (q.2.1 : ℝ) else 0)).sum| ≤
      ((l.map fun q => |q.2.1|).sum : ℚ)
  | [], g, p, _ => by simp
  | q :: l, g, p, _ => by
    simp only [List.map_cons, List.sum_cons]
    rw [Rat.cast_add, Rat.cast_abs]
    refine (abs_add_le _ _).trans (add_le_add ?_ (sum_abs_le l g p))
    rw [abs_mul]
    have h1 := abs_cos_le_one (g q.2.2)
    split
    · calc _ ≤ 1 * |(q.2.1 : ℝ)| := mul_le_mul_of_nonneg_right h1 (abs_nonneg _)
        _ = _ := one_mul _
    · simp

theorem Z_bound (corrections : String) (names : Names) (deltat t : ℝ) :
    |Z corrections names deltat t| ≤ 23.633 := by
  have h := sum_abs_le lines (fun c => dot (fargs corrections deltat t) c * π / 180)
    (fun c => c ∈ names.toList)
  have e : ((lines.map fun q => |q.2.1|).sum : ℚ) = 23.633 := by decide +kernel
  rw [e] at h
  unfold Z
  refine h.trans ?_
  push_cast
  exact le_rfl

theorem P20_bound (lat : ℝ) : |P20 lat| ≤ 1 := by
  unfold P20
  have h1 := sin_sq_le_one (lat * π / 180)
  have h0 := sq_nonneg (sin (lat * π / 180))
  exact abs_le.2 ⟨by linarith, by linarith⟩

/-- C31: the equilibrium tide never exceeds 10.4 cm, at any time, latitude and for any set of
constituents. -/
theorem C31_bounded (corrections : String) (names : Names) (deltat : ℝ) (ts lats : List ℝ) :
    ∀ v ∈ (equilibriumTide corrections names deltat ts lats).flat, |v| ≤ 0.104 := by
  intro v hv
  obtain ⟨t, _, lat, _, rfl⟩ := mem_flat hv
  unfold value gamma2
  have hs : sqrt ((4 + 1) / (4 * π)) ≤ 0.631 := by
    rw [sqrt_le_left (by norm_num), div_le_iff₀ (by positivity)]
    nlinarith [pi_gt_d2]
  have h0 := sqrt_nonneg ((4 + 1) / (4 * π))
  rw [abs_mul, abs_mul, abs_mul, abs_div, abs_of_nonneg h0,
    abs_of_pos (by norm_num : (0 : ℝ) < 1 + 0.299 - 0.606),
    abs_of_pos (by norm_num : (0 : ℝ) < 100)]
  have h1 := P20_bound lat
  have h2 := Z_bound corrections names deltat t
  have h3 : (1 + 0.299 - 0.606) * sqrt ((4 + 1) / (4 * π)) * |P20 lat| *
      (|Z corrections names deltat t| / 100) ≤
      (1 + 0.299 - 0.606) * 0.631 * 1 * (23.633 / 100) := by
    have h4 : (0 : ℝ) ≤ 1 + 0.299 - 0.606 := by norm_num
    gcongr
  exact h3.trans (by norm_num)

/-! ## The three kinds of request -/

theorem single_time (t : ℝ) (lats : List ℝ) :
    (equilibriumTide "OTIS" .all 0 [t] lats).flat = lats.map (value "OTIS" .all 0 t) := by
  unfold equilibriumTide
  dsimp only
  split
  · simp only [Arr.flat, List.map_cons, List.map_nil]
    clear *-
    induction lats with
    | nil => rfl
    | cons a l ih =>
      simp only [List.map_cons, List.flatten_cons, ih, List.cons_append, List.nil_append]
      refine congrArg₂ _ ?_ rfl
      unfold value; ring
  · rename_i h
    simp only [ne_eq, not_not] at h
    obtain ⟨a, rfl⟩ := List.length_eq_one_iff.1 h
    rfl

theorem single_station (lat : ℝ) (ts : List ℝ) :
    (equilibriumTide "OTIS" .all 0 ts [lat]).flat = ts.map fun t => value "OTIS" .all 0 t lat := by
  unfold equilibriumTide
  dsimp only
  split
  · simp only [Arr.flat, List.map_cons, List.map_nil, List.flatten_cons, List.flatten_nil,
      List.append_nil]
    refine List.map_congr_left fun t _ => ?_
    unfold value; ring
  · rename_i h
    simp only [ne_eq, not_not] at h
    obtain ⟨a, rfl⟩ := List.length_eq_one_iff.1 h.symm
    rfl

/-- C31: a grid request returns, for every time and cell, the value that a request for that time
and latitude alone returns. -/
theorem C31_grid (ny nx : ℕ) (lats ts : List ℝ) (h : lats.length = ny * nx) :
    lpetElevations "grid" ny nx lats ts =
      .ok (.grid (ts.map fun t => lats.map fun lat =>
        ((equilibriumTide "OTIS" .all 0 [t] [lat]).flat).headD 0)) := by
  have hf : ∀ t ∈ ts, fit (ny * nx) (equilibriumTide "OTIS" .all 0 [t] lats) =
      .ok (lats.map fun lat => ((equilibriumTide "OTIS" .all 0 [t] [lat]).flat).headD 0) := by
    intro t _
    unfold fit
    rw [single_time, List.length_map, if_pos h]
    rfl
  unfold lpetElevations
  rw [if_neg (by decide +kernel), if_pos rfl]
  rw [pyMap_ok_of_forall hf]
  rfl

/-- C31: so does a request for time series at stations. -/
theorem C31_series (ny nx : ℕ) (lats ts : List ℝ) :
    lpetElevations "time series" ny nx lats ts =
      .ok (.series (lats.map fun lat => ts.map fun t =>
        ((equilibriumTide "OTIS" .all 0 [t] [lat]).flat).headD 0)) := by
  have hf : ∀ lat ∈ lats, fit ts.length (equilibriumTide "OTIS" .all 0 ts [lat]) =
      .ok (ts.map fun t => ((equilibriumTide "OTIS" .all 0 [t] [lat]).flat).headD 0) := by
    intro lat _
    unfold fit
    rw [single_station, List.length_map, if_pos rfl]
    rfl
  unfold lpetElevations
  rw [if_neg (by decide +kernel), if_neg (by decide), if_neg (by decide), if_pos rfl]
  rw [pyMap_ok_of_forall hf]
  rfl

/-- C31: and a drift request, which has as many times as positions. -/
theorem C31_drift (ny nx : ℕ) (lats ts : List ℝ) (h : lats.length = ts.length) :
    lpetElevations "drift" ny nx lats ts =
      .ok (.drift (.vec (List.zipWith (fun lat t =>
        ((equilibriumTide "OTIS" .all 0 [t] [lat]).flat).headD 0) lats ts))) := by
  unfold lpetElevations
  rw [if_neg (by decide +kernel), if_neg (by decide), if_pos rfl]
  refine congrArg Except.ok (congrArg Out.drift ?_)
  unfold equilibriumTide
  dsimp only
  rw [if_neg (by simpa using h)]
  rfl

/-! ## C54: the terms -/

/-- The equilibrium tide of a single term. -/
theorem Z_one (corrections : String) (deltat t : ℝ) : ∀ q ∈ lines,
    Z corrections (.one q.1) deltat t =
      cos (dot (fargs corrections deltat t) q.2.2 * π / 180) * (q.2.1 : ℝ) := by
  have low : ∀ q ∈ lines, q.1.toLower = q.1 := by decide +kernel
  have key : ∀ (l : List (String × ℚ × List ℤ)) (f : List ℤ → ℝ) (q : String × ℚ × List ℤ),
      (l.map (·.1)).Nodup → q ∈ l →
      (l.map fun r => f r.2.2 * (if r.1 = q.1 then (r.2.1 : ℝ) else 0)).sum =
        f q.2.2 * (q.2.1 : ℝ) := by
    intro l f q
    induction l with
    | nil => intro _ h; simp at h
    | cons a l ih =>
      intro hn hq
      simp only [List.map_cons, List.nodup_cons, List.mem_map, not_exists, not_and] at hn
      simp only [List.map_cons, List.sum_cons]
      rcases List.mem_cons.1 hq with rfl | hq
      · rw [if_pos rfl]
        have : (l.map fun r => f r.2.2 * (if r.1 = q.1 then (r.2.1 : ℝ) else 0)).sum = 0 := by
          refine List.sum_eq_zero fun x hx => ?_
          obtain ⟨r, hr, rfl⟩ := List.mem_map.1 hx
          rw [if_neg (hn.1 r hr), mul_zero]
        rw [this, add_zero]
      · rw [if_neg (fun h => hn.1 q hq h.symm), mul_zero, zero_add, ih hn.2 hq]
  intro q hq
  unfold Z
  simp only [Names.toList, List.mem_singleton, low q hq]
  exact key lines (fun c => cos (dot (fargs corrections deltat t) c * π / 180)) q
    (by decide +kernel) hq

/-- The angle of a term with minus the longitude of the node, before reduction. -/
theorem fargs_angle (corrections : String) (deltat t : ℝ) (c0 c1 c2 c3 c4 : ℤ) :
    let l := meanLongitudes (modeOf corrections) (t + 48622 + deltat)
    ∃ m : ℤ, dot (fargs corrections deltat t) [c0, c1, c2, c3, c4] * π / 180 =
      (c0 * l.s + c1 * l.h + c2 * l.p - c3 * l.n + c4 * l.pp) * (π / 180) + m * (2 * π) := by
  intro l
  obtain ⟨k, hk⟩ := normalize_raw (360 - l.n)
  refine ⟨c3 * (1 + k), ?_⟩
  unfold fargs
  dsimp only
  rw [hk]
  simp only [dot, List.zipWith, List.sum, List.foldr]
  push_cast
  ring

theorem catalogue_check : ∀ q ∈ lines, ∃ r ∈ Spec.zonal, r.1 = q.2.2 ∧
    |q.2.1 / 100 - r.2| ≤ 3e-5 := by decide +kernel

theorem lines_length : ∀ q ∈ lines, q.2.2.length = 5 := by decide +kernel

/-- C54: each term is a term of the table of Cartwright and Edden with its amplitude, scaled by
the combination of Love numbers 1 + 0.299 - 0.606 and the normalised harmonic. -/
theorem C54_catalogue (corrections : String) (deltat t lat : ℝ) : ∀ q ∈ lines,
    let l := meanLongitudes (modeOf corrections) (t + 48622 + deltat)
    ∃ c0 c1 c2 c3 c4 : ℤ, ∃ a : ℚ, ([c0, c1, c2, c3, c4], a) ∈ Spec.zonal ∧
      ∃ H : ℝ, |H - a| ≤ 3e-5 ∧
      equilibriumTide corrections (.one q.1) deltat [t] [lat] =
        .vec [0.693 * sqrt (5 / (4 * π)) * ((3 * sin (lat * π / 180) ^ 2 - 1) / 2) *
          (H * cos ((c0 * l.s + c1 * l.h + c2 * l.p - c3 * l.n + c4 * l.pp) * (π / 180)))] := by
  intro q hq l
  obtain ⟨r, hr, e, ha⟩ := catalogue_check q hq
  obtain ⟨c0, c1, c2, c3, c4, hc⟩ : ∃ c0 c1 c2 c3 c4, q.2.2 = [c0, c1, c2, c3, c4] := by
    match h : q.2.2, lines_length q hq with
    | [c0, c1, c2, c3, c4], _ => exact ⟨c0, c1, c2, c3, c4, rfl⟩
  refine ⟨c0, c1, c2, c3, c4, r.2, ?_, ((q.2.1 / 100 : ℚ) : ℝ), ?_, ?_⟩
  · rw [← hc, ← e]; exact hr
  · have : ((|q.2.1 / 100 - r.2| : ℚ) : ℝ) ≤ ((3e-5 : ℚ) : ℝ) := Rat.cast_le.2 ha
    push_cast at this ⊢
    exact this
  · obtain ⟨m, hm⟩ := fargs_angle corrections deltat t c0 c1 c2 c3 c4
    have hz := Z_one corrections deltat t q hq
    rw [hc, hm, cos_add_int_mul_two_pi] at hz
    have : equilibriumTide corrections (.one q.1) deltat [t] [lat] =
      .vec [value corrections (.one q.1) deltat t lat] := rfl
    rw [this]
    refine congrArg Arr.vec (congrArg (fun x => [x]) ?_)
    unfold value
    rw [hz]
    unfold gamma2 P20
    push_cast
    norm_num
    ring

/-- C54: no other term of the table exceeds 2.1 mm but the constant one. -/
theorem C54_complete : ∀ r ∈ Spec.zonal, r.1 ≠ [0, 0, 0, 0, 0] → 0.0021 < |r.2| →
    ∃ q ∈ lines, q.2.2 = r.1 := by decide +kernel

/-! ## C54: the tidal arguments -/

theorem row_of_lookup {corrections c : String} {r : List ℤ} (hc : c ≠ "s1")
    (h : Coef.table.lookup c = some r) : row corrections c = .ok r := by
  unfold row Coef.lookup
  rw [if_neg (by simp [hc]), h]

theorem arguments_one (corrections m1 : String) (deltat t : ℝ) {c : String} {r : List ℤ}
    (hc : c ≠ "s1") (h : Coef.table.lookup c = some r) :
    ∃ uf, arguments corrections m1 deltat t [c] =
      .ok (uf, [dot (Astro.fargs corrections deltat t) r]) := by
  obtain ⟨a, ha⟩ := (C53_defined corrections m1 deltat t [c]).2 (by
    intro x hx; rw [List.mem_singleton.1 hx]; exact ⟨r, h⟩)
  obtain ⟨rows, hr, e⟩ := arguments_ok ha
  have : coefficients corrections [c] = .ok [r] := by
    unfold coefficients
    simp only [pyMap, row_of_lookup hc h]
  cases hr.symm.trans this
  exact ⟨a.1, by rw [ha]; exact congrArg Except.ok (Prod.ext rfl e)⟩

theorem names_nodup : (lines.map (·.1)).Nodup := by decide +kernel

theorem lines_unique {q r : String × ℚ × List ℤ} (hq : q ∈ lines) (hr : r ∈ lines)
    (h : q.1 = r.1) : q = r := List.inj_on_of_nodup_map names_nodup hq hr h

/-- C54 for a term without the node. -/
theorem term_plain (corrections m1 : String) (deltat t lat : ℝ) {c : String} {a : ℚ}
    {c0 c1 c2 c4 : ℤ} (hq : (c, a, [c0, c1, c2, 0, c4]) ∈ lines) (ha : a < 0) (hc : c ≠ "s1")
    (hl : Coef.table.lookup c = some [0, c0, c1, c2, 0, c4, 0]) :
    ∃ uf G, arguments corrections m1 deltat (t + 48622) [c] = .ok (uf, [G]) ∧
      ∃ A : ℝ, 0 < A ∧ (∀ q ∈ lines, q.1 = c → A = |(q.2.1 : ℝ)| / 100) ∧
        equilibriumTide corrections (.one c) deltat [t] [lat] =
          .vec [gamma2 * sqrt ((4 + 1) / (4 * π)) * P20 lat * (-A * cos (G * (π / 180)))] := by
  obtain ⟨uf, h⟩ := arguments_one corrections m1 deltat (t + 48622) hc hl
  have ha' : (a : ℝ) < 0 := Rat.cast_lt_zero.2 ha
  refine ⟨uf, _, h, -(a : ℝ) / 100, by linarith [div_pos (neg_pos.2 ha') (by norm_num : (0:ℝ) < 100)],
    ?_, ?_⟩
  · intro q hm e
    rw [lines_unique hm hq e, abs_of_neg ha']
  · obtain ⟨m, hm⟩ := fargs_angle corrections deltat t c0 c1 c2 0 c4
    have hz := Z_one corrections deltat t _ hq
    rw [hm, cos_add_int_mul_two_pi] at hz
    refine congrArg Arr.vec (congrArg (fun x => [x]) ?_)
    dsimp only at hz ⊢
    rw [hz]
    have e : dot (Astro.fargs corrections deltat (t + 48622)) [0, c0, c1, c2, 0, c4, 0] *
        (π / 180) = (c0 * (meanLongitudes (modeOf corrections) (t + 48622 + deltat)).s +
        c1 * (meanLongitudes (modeOf corrections) (t + 48622 + deltat)).h +
        c2 * (meanLongitudes (modeOf corrections) (t + 48622 + deltat)).p -
        (0 : ℤ) * (meanLongitudes (modeOf corrections) (t + 48622 + deltat)).n +
        c4 * (meanLongitudes (modeOf corrections) (t + 48622 + deltat)).pp) * (π / 180) := by
      simp only [Astro.fargs, dot, List.zipWith, List.sum, List.foldr]
      push_cast
      ring
    rw [e]
    ring

/-- C54 for the node tide: its argument is half a cycle ahead of the longitude of the node. -/
theorem term_node (corrections m1 : String) (deltat t lat : ℝ) :
    ∃ uf G, arguments corrections m1 deltat (t + 48622) ["node"] = .ok (uf, [G]) ∧
      equilibriumTide corrections (.one "node") deltat [t] [lat] =
        .vec [gamma2 * sqrt ((4 + 1) / (4 * π)) * P20 lat *
          (-0.027929 * cos (G * (π / 180)))] := by
  obtain ⟨uf, h⟩ := arguments_one corrections m1 deltat (t + 48622) (c := "node") (by decide)
    (by decide +kernel : Coef.table.lookup "node" = some [0, 0, 0, 0, 1, 0, 2])
  refine ⟨uf, _, h, ?_⟩
  have hq : ("node", (2.7929 : ℚ), [(0 : ℤ), 0, 0, 1, 0]) ∈ lines := List.mem_cons_self
  obtain ⟨m, hm⟩ := fargs_angle corrections deltat t 0 0 0 1 0
  have hz := Z_one corrections deltat t _ hq
  rw [hm, cos_add_int_mul_two_pi] at hz
  refine congrArg Arr.vec (congrArg (fun x => [x]) ?_)
  dsimp only at hz ⊢
  rw [hz]
  have e : dot (Astro.fargs corrections deltat (t + 48622)) [0, 0, 0, 0, 1, 0, 2] *
      (π / 180) = (meanLongitudes (modeOf corrections) (t + 48622 + deltat)).n * (π / 180) + π := by
    simp only [Astro.fargs, dot, List.zipWith, List.sum, List.foldr]
    push_cast
    ring
  rw [e, cos_add_pi]
  have e' : (((0 : ℤ) : ℝ) * (meanLongitudes (modeOf corrections) (t + 48622 + deltat)).s +
      ((0 : ℤ) : ℝ) * (meanLongitudes (modeOf corrections) (t + 48622 + deltat)).h +
      ((0 : ℤ) : ℝ) * (meanLongitudes (modeOf corrections) (t + 48622 + deltat)).p -
      ((1 : ℤ) : ℝ) * (meanLongitudes (modeOf corrections) (t + 48622 + deltat)).n +
      ((0 : ℤ) : ℝ) * (meanLongitudes (modeOf corrections) (t + 48622 + deltat)).pp) * (π / 180) =
      -((meanLongitudes (modeOf corrections) (t + 48622 + deltat)).n * (π / 180)) := by
    push_cast; ring
  rw [e', cos_neg]
  push_cast
  ring

/-- C54: for these constituents the equilibrium tide is a cosine of the tidal argument with an
amplitude of the same sign, for every type of corrections and all times: constituents of
amplitude `A` and phase zero or 180 degrees predict the equilibrium tide. -/
theorem C54_arguments (corrections m1 : String) (deltat t lat : ℝ) (c : String)
    (hc : c ∈ ["node", "sa", "ssa", "msm", "mm", "msf", "mf", "mst", "mt"]) :
    ∃ uf G, arguments corrections m1 deltat (t + 48622) [c] = .ok (uf, [G]) ∧
      ∃ A : ℝ, 0 < A ∧ (∀ q ∈ lines, q.1 = c → A = |(q.2.1 : ℝ)| / 100) ∧
        equilibriumTide corrections (.one c) deltat [t] [lat] =
          .vec [gamma2 * sqrt ((4 + 1) / (4 * π)) * P20 lat * (-A * cos (G * (π / 180)))] := by
  simp only [List.mem_cons, List.not_mem_nil, or_false] at hc
  rcases hc with rfl | rfl | rfl | rfl | rfl | rfl | rfl | rfl | rfl
  · obtain ⟨uf, G, h, e⟩ := term_node corrections m1 deltat t lat
    refine ⟨uf, G, h, 0.027929, by norm_num, ?_, e⟩
    intro q hm e
    rw [lines_unique hm (List.mem_cons_self : ("node", (2.7929 : ℚ), [(0 : ℤ), 0, 0, 1, 0]) ∈ lines) e]
    norm_num [abs_of_pos]
  · exact term_plain corrections m1 deltat t lat (c0 := 0) (c1 := 1) (c2 := 0) (c4 := -1)
      (a := -0.4922) (by decide +kernel) (by decide +kernel) (by decide) (by decide +kernel)
  · exact term_plain corrections m1 deltat t lat (c0 := 0) (c1 := 2) (c2 := 0) (c4 := 0)
      (a := -3.0988) (by decide +kernel) (by decide +kernel) (by decide) (by decide +kernel)
  · exact term_plain corrections m1 deltat t lat (c0 := 1) (c1 := -2) (c2 := 1) (c4 := 0)
      (a := -0.6728) (by decide +kernel) (by decide +kernel) (by decide) (by decide +kernel)
  · exact term_plain corrections m1 deltat t lat (c0 := 1) (c1 := 0) (c2 := -1) (c4 := 0)
      (a := -3.5184) (by decide +kernel) (by decide +kernel) (by decide) (by decide +kernel)
  · exact term_plain corrections m1 deltat t lat (c0 := 2) (c1 := -2) (c2 := 0) (c4 := 0)
      (a := -0.5837) (by decide +kernel) (by decide +kernel) (by decide) (by decide +kernel)
  · exact term_plain corrections m1 deltat t lat (c0 := 2) (c1 := 0) (c2 := 0) (c4 := 0)
      (a := -6.6607) (by decide +kernel) (by decide +kernel) (by decide) (by decide +kernel)
  · exact term_plain corrections m1 deltat t lat (c0 := 3) (c1 := -2) (c2 := 1) (c4 := 0)
      (a := -0.2422) (by decide +kernel) (by decide +kernel) (by decide) (by decide +kernel)
  · exact term_plain corrections m1 deltat t lat (c0 := 3) (c1 := 0) (c2 := -1) (c4 := 0)
      (a := -1.2753) (by decide +kernel) (by decide +kernel) (by decide) (by decide +kernel)

/-- The argument of Mf+ and the angle of its equilibrium tide, `T` days after the epoch of the
longitudes. -/
theorem mf_plus_angles (T : ℝ) : ∃ uf G, arguments "OTIS" "perth5" 0 (T + 2922.4993 + 48622) ["mf+"] =
      .ok (uf, [G]) ∧
    cos (G * (π / 180)) = cos ((2 * (218.3164 + 13.17639648 * T) +
      (125.0445 - 0.05295377 * T)) * (π / 180)) ∧
    Z "OTIS" (.one "mf+") 0 (T + 2922.4993) = cos ((2 * (218.3164 + 13.17639648 * T) -
      (125.0445 - 0.05295377 * T)) * (π / 180)) * (-2.763) := by
  obtain ⟨uf, h⟩ := arguments_one "OTIS" "perth5" 0 (T + 2922.4993 + 48622) (c := "mf+")
    (by decide) (by decide +kernel : Coef.table.lookup "mf+" = some [0, 2, 0, 0, 1, 0, 0])
  have hmode : modeOf "OTIS" = .cartwright := by decide +kernel
  have hT : T + 2922.4993 + 48622 + 0 - 51544.4993 = T := by ring
  obtain ⟨k, hk⟩ := normalize_raw (218.3164 + 13.17639648 * T)
  obtain ⟨j, hj⟩ := normalize_raw (125.0445 - 0.05295377 * T)
  refine ⟨uf, _, h, ?_, ?_⟩
  · simp only [Astro.fargs, meanLongitudes, rawLongitudes, hmode, hT, hk, hj, dot, List.zipWith,
      List.sum, List.foldr]
    rw [← cos_add_int_mul_two_pi _ (-(2 * k + j))]
    congr 1
    push_cast
    ring
  · have hq : ("mf+", (-2.763 : ℚ), [(2 : ℤ), 0, 0, 1, 0]) ∈ lines := by decide +kernel
    obtain ⟨m, hm⟩ := fargs_angle "OTIS" 0 (T + 2922.4993) 2 0 0 1 0
    have hz := Z_one "OTIS" 0 (T + 2922.4993) _ hq
    rw [hm, cos_add_int_mul_two_pi] at hz
    dsimp only at hz
    rw [hz]
    push_cast
    refine congrArg (· * _) ?_
    simp only [meanLongitudes, rawLongitudes, hmode, hT, hk, hj]
    rw [← cos_add_int_mul_two_pi _ (-(2 * k - j))]
    congr 1
    push_cast
    ring

/-- C54 fails for Mf+: the tidal arguments take the longitude of the node with the opposite sign
(doodson.json counts the node itself, the equilibrium tide its negative), so no amplitude relates
the equilibrium tide to the tidal argument at all times. -/
theorem C54_mf_plus_false : ¬ ∃ A : ℝ, ∀ t : ℝ, ∃ uf G,
    arguments "OTIS" "perth5" 0 (t + 48622) ["mf+"] = .ok (uf, [G]) ∧
      equilibriumTide "OTIS" (.one "mf+") 0 [t] [90] = .vec [A * cos (G * (π / 180))] := by
  rintro ⟨A, h⟩
  have key : ∀ T : ℝ, gamma2 * sqrt ((4 + 1) / (4 * π)) * P20 90 *
      (cos ((2 * (218.3164 + 13.17639648 * T) - (125.0445 - 0.05295377 * T)) * (π / 180)) *
        (-2.763) / 100) =
      A * cos ((2 * (218.3164 + 13.17639648 * T) + (125.0445 - 0.05295377 * T)) * (π / 180)) := by
    intro T
    obtain ⟨uf, G, h₁, h₂⟩ := h (T + 2922.4993)
    obtain ⟨uf', G', h₁', e₁, e₂⟩ := mf_plus_angles T
    have := h₁.symm.trans h₁'
    simp only [Except.ok.injEq, Prod.mk.injEq, List.cons.injEq, and_true] at this
    rw [← e₁, ← e₂, ← this.2]
    have h₃ : Arr.vec [gamma2 * sqrt ((4 + 1) / (4 * π)) * P20 90 *
      (Z "OTIS" (.one "mf+") 0 (T + 2922.4993) / 100)] = .vec [A * cos (G * (π / 180))] := h₂
    simpa using h₃
  have k₀ := key (125.0445 / 0.05295377)
  have k₁ := key (35.0445 / 0.05295377)
  have hP : P20 90 = 1 := by
    unfold P20
    rw [show (90 : ℝ) * π / 180 = π / 2 by ring, sin_pi_div_two]; norm_num
  have hK : 0 < gamma2 * sqrt ((4 + 1) / (4 * π)) := by
    unfold gamma2
    have : 0 < sqrt ((4 + 1) / (4 * π)) := sqrt_pos.2 (by positivity)
    have : (0 : ℝ) < 1 + 0.299 - 0.606 := by norm_num
    positivity
  set K := gamma2 * sqrt ((4 + 1) / (4 * π))
  rw [hP] at k₀ k₁
  set x₀ : ℝ := 2 * (218.3164 + 13.17639648 * (125.0445 / 0.05295377))
  set x₁ : ℝ := 2 * (218.3164 + 13.17639648 * (35.0445 / 0.05295377))
  have n₀ : (125.0445 - 0.05295377 * (125.0445 / 0.05295377) : ℝ) = 0 := by norm_num
  have n₁ : (125.0445 - 0.05295377 * (35.0445 / 0.05295377) : ℝ) = 90 := by norm_num
  rw [n₀, sub_zero, add_zero] at k₀
  rw [n₁, show (x₁ - 90) * (π / 180) = x₁ * (π / 180) - π / 2 by ring,
    show (x₁ + 90) * (π / 180) = x₁ * (π / 180) + π / 2 by ring, cos_sub_pi_div_two,
    cos_add_pi_div_two] at k₁
  have c₀ : cos (x₀ * (π / 180)) ≠ 0 := by
    rw [Ne, cos_eq_zero_iff]
    rintro ⟨k, hk⟩
    have : x₀ = 90 * (2 * k + 1) := by
      have hp := pi_ne_zero
      field_simp at hk
      linarith
    have lo : ((347 : ℤ) : ℝ) < k := by
      have : x₀ > 62550 := by unfold x₀; norm_num
      push_cast; linarith
    have hi : (k : ℝ) < ((348 : ℤ) : ℝ) := by
      have : x₀ < 62730 := by unfold x₀; norm_num
      push_cast; linarith
    have lo' := Int.cast_lt.1 lo
    have hi' := Int.cast_lt.1 hi
    omega
  have c₁ : sin (x₁ * (π / 180)) ≠ 0 := by
    rw [Ne, sin_eq_zero_iff]
    rintro ⟨k, hk⟩
    have : x₁ = 180 * k := by
      have hp := pi_ne_zero
      field_simp at hk
      linarith
    have lo : ((99 : ℤ) : ℝ) < k := by
      have : x₁ > 17820 := by unfold x₁; norm_num
      push_cast; linarith
    have hi : (k : ℝ) < ((100 : ℤ) : ℝ) := by
      have : x₁ < 18000 := by unfold x₁; norm_num
      push_cast; linarith
    have lo' := Int.cast_lt.1 lo
    have hi' := Int.cast_lt.1 hi
    omega
  have a₀ : A = -(K * 2.763 / 100) := by
    refine mul_right_cancel₀ c₀ ?_
    linarith
  have a₁ : A = K * 2.763 / 100 := by
    refine mul_right_cancel₀ c₁ ?_
    linarith
  linarith

/-- C54: the constants that stand in for the node tide predict the equilibrium node tide: with
the tidal argument and without nodal modulation, at every time and latitude. -/
theorem C54_node_constants (corrections m1 : String) (deltat t lat : ℝ) :
    ∃ u f G, arguments corrections m1 deltat (t + 48622) ["node"] = .ok ([(u, f)], [G]) ∧
      equilibriumTide corrections (.one "node") deltat [t] [lat] =
        .vec [f * (nodeEquilibrium lat).1 *
          cos (G * (π / 180) + u - (nodeEquilibrium lat).2 * (π / 180))] := by
  obtain ⟨uf, G, h, e⟩ := term_node corrections m1 deltat t lat
  have huf : uf = [(0, 1)] := by
    unfold arguments at h
    cases hr : coefficients corrections ["node"] with
    | error e => rw [hr, error_bind] at h; cases h
    | ok rows =>
      rw [hr, ok_bind] at h
      dsimp only at h
      rw [Nodal.C28_unknown _ _ _ 2 le_rfl "node" (by decide +kernel)] at h
      simp only [Except.ok.injEq, Prod.mk.injEq] at h
      exact h.1.symm
  subst huf
  refine ⟨0, 1, G, h, ?_⟩
  rw [e]
  refine congrArg Arr.vec (congrArg (fun x => [x]) ?_)
  unfold nodeEquilibrium
  dsimp only
  rw [show G * (π / 180) + 0 - 180 * (π / 180) = G * (π / 180) - π by ring, cos_sub_pi]
  ring

end Verif.Equilibrium
