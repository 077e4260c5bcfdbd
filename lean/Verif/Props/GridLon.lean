import Verif.Props.GridShift
/-!
C15: adjusting the longitudes of the requested points to the convention of the model.
-/
namespace Verif.Grid
open Verif Verif.Spec

variable {K : Type} [Field K] [LinearOrder K] [IsStrictOrderedRing K]

/-- What a user expects for a model in the convention 0 to 360. -/
def toPositive (v : K) : K := if v < 0 then v + 360 else v

/-- What a user expects for a model in the convention -180 to 180. -/
def toSigned (v : K) : K := if v > 180 then v - 360 else v

theorem toPositive_same (v : K) : SameMeridian 360 v (toPositive v) := by
  unfold toPositive
  split_ifs
  · exact ⟨1, by simp⟩
  · exact ⟨0, by simp⟩

theorem toSigned_same (v : K) : SameMeridian 360 v (toSigned v) := by
  unfold toSigned
  split_ifs
  · exact ⟨-1, by simp [sub_eq_add_neg]⟩
  · exact ⟨0, by simp⟩

theorem SameMeridian.trans' {a b c : K} (h1 : SameMeridian 360 a b) (h2 : SameMeridian 360 b c) :
    SameMeridian 360 a c := by
  obtain ⟨k, hk⟩ := h1
  obtain ⟨l, hl⟩ := h2
  exact ⟨k + l, by rw [hl, hk]; push_cast; ring⟩

theorem exists_min (x : List K) (h : x ≠ []) : ∃ m, x.min? = some m ∧ m ∈ x ∧ ∀ v ∈ x, m ≤ v := by
  cases e : x.min? with
  | none => exact absurd (List.min?_eq_none_iff.mp e) h
  | some m => exact ⟨m, rfl, List.min?_eq_some_iff.mp e⟩

theorem exists_max (x : List K) (h : x ≠ []) : ∃ m, x.max? = some m ∧ m ∈ x ∧ ∀ v ∈ x, v ≤ m := by
  cases e : x.max? with
  | none => exact absurd (List.max?_eq_none_iff.mp e) h
  | some m => exact ⟨m, rfl, List.max?_eq_some_iff.mp e⟩

/-- The adjustment of the GOT, FES and ATLAS readers moves no point to another meridian. -/
theorem C15_got_same_meridian (lo hi : K) (x : List K) (hx : x ≠ []) :
    ∃ y, adjustGOT lo hi x = .ok y ∧ List.Forall₂ (SameMeridian 360) x y := by
  obtain ⟨mn, h1, _⟩ := exists_min x hx
  obtain ⟨mx, h2, _⟩ := exists_max x hx
  simp only [adjustGOT, h1, h2]
  split_ifs
  · exact ⟨_, rfl, List.forall₂_map_right_iff.mpr
      (List.forall₂_same.mpr (fun v _ => toPositive_same v))⟩
  · exact ⟨_, rfl, List.forall₂_map_right_iff.mpr
      (List.forall₂_same.mpr (fun v _ => toSigned_same v))⟩
  · exact ⟨_, rfl, List.forall₂_same.mpr (fun v _ => ⟨0, by simp⟩)⟩

/-- The same for the OTIS reader. -/
theorem C15_otis_same_meridian (lo hi : K) (x : List K) (hx : x ≠ []) :
    ∃ y, adjustOTIS lo hi x = .ok y ∧ List.Forall₂ (SameMeridian 360) x y := by
  obtain ⟨mn, h1, _⟩ := exists_min x hx
  simp only [adjustOTIS, h1]
  by_cases hmn : mn < lo
  · obtain ⟨mx, h2, _⟩ := exists_max (x.map (fun v => if v < 0 then v + 360 else v))
      (by simpa using hx)
    simp only [hmn, if_true, h2]
    split_ifs
    · refine ⟨_, rfl, ?_⟩
      rw [List.map_map]
      exact List.forall₂_map_right_iff.mpr (List.forall₂_same.mpr
        (fun v _ => SameMeridian.trans' (toPositive_same v) (toSigned_same _)))
    · exact ⟨_, rfl, List.forall₂_map_right_iff.mpr
        (List.forall₂_same.mpr (fun v _ => toPositive_same v))⟩
  · obtain ⟨mx, h2, _⟩ := exists_max x hx
    simp only [hmn, if_false, h2]
    split_ifs
    · exact ⟨_, rfl, List.forall₂_map_right_iff.mpr
        (List.forall₂_same.mpr (fun v _ => toSigned_same v))⟩
    · exact ⟨_, rfl, List.forall₂_same.mpr (fun v _ => ⟨0, by simp⟩)⟩

/-- For a model in the convention 0 to 360 the GOT, FES and ATLAS readers treat each point on
its own, whatever the batch. -/
theorem C15_got_pointwise_positive (lo hi : K) (hlo : 0 ≤ lo) (hhi : 180 < hi) (x : List K)
    (hx : x ≠ []) : adjustGOT lo hi x = .ok (x.map toPositive) := by
  obtain ⟨mn, h1, hm, hmin⟩ := exists_min x hx
  obtain ⟨mx, h2, _⟩ := exists_max x hx
  simp only [adjustGOT, h1, h2]
  by_cases h : mn < 0
  · rw [if_pos ⟨h, hhi⟩]; rfl
  · rw [if_neg (fun e => h e.1), if_neg (fun e => absurd e.2 (not_lt.mpr hlo))]
    congr 1
    conv_lhs => rw [← List.map_id x]
    refine List.map_congr_left ?_
    intro v hv
    have : ¬ v < 0 := not_lt.mpr (le_trans (not_lt.mp h) (hmin v hv))
    simp [toPositive, this]

/-- The same for a model in the convention -180 to 180. -/
theorem C15_got_pointwise_signed (lo hi : K) (hlo : lo < 0) (hhi : hi ≤ 180) (x : List K)
    (hx : x ≠ []) : adjustGOT lo hi x = .ok (x.map toSigned) := by
  obtain ⟨mn, h1, _⟩ := exists_min x hx
  obtain ⟨mx, h2, hm, hmax⟩ := exists_max x hx
  simp only [adjustGOT, h1, h2]
  rw [if_neg (fun e => absurd e.2 (not_lt.mpr hhi))]
  by_cases h : mx > 180
  · rw [if_pos ⟨h, hlo⟩]; rfl
  · rw [if_neg (fun e => h e.1)]
    congr 1
    conv_lhs => rw [← List.map_id x]
    refine List.map_congr_left ?_
    intro v hv
    have : ¬ v > 180 := not_lt.mpr (le_trans (hmax v hv) (not_lt.mp h))
    simp [toSigned, this]

/-- In these two conventions every longitude in [-180, 360) ends up in the single turn the model
is defined on. -/
theorem C15_ranges (v : K) (h1 : -180 ≤ v) (h2 : v < 360) :
    (0 ≤ toPositive v ∧ toPositive v < 360) ∧ (-180 ≤ toSigned v ∧ toSigned v ≤ 180) := by
  unfold toPositive toSigned
  constructor
  · split_ifs with h
    · constructor <;> linarith
    · exact ⟨not_lt.mp h, h2⟩
  · split_ifs with h
    · constructor <;> linarith
    · exact ⟨h1, not_lt.mp h⟩

/-- OTIS reader, model in the convention 0 to 360: batches whose points, brought to 0 to 360, do
not exceed the last model longitude are treated point by point. Missing for the full claim:
points between the last model longitude and 360, see `C15_otis_batch_false`. -/
theorem C15_otis_pointwise_positive_partial (lo hi : K) (hlo : 0 ≤ lo) (x : List K)
    (hx : x ≠ []) (hin : ∀ v ∈ x, toPositive v ≤ hi) :
    adjustOTIS lo hi x = .ok (x.map toPositive) := by
  obtain ⟨mn, h1, hm, hmin⟩ := exists_min x hx
  have key : (if mn < lo then x.map (fun v => if v < 0 then v + 360 else v) else x)
      = x.map toPositive := by
    split_ifs with h
    · rfl
    · conv_lhs => rw [← List.map_id x]
      refine List.map_congr_left ?_
      intro v hv
      have : ¬ v < 0 := not_lt.mpr (le_trans (le_trans hlo (not_lt.mp h)) (hmin v hv))
      simp [toPositive, this]
  simp only [adjustOTIS, h1, key]
  obtain ⟨mx, h2, hmx, _⟩ := exists_max (x.map toPositive) (by simpa using hx)
  simp only [h2]
  obtain ⟨w, hw, rfl⟩ := List.mem_map.mp hmx
  rw [if_neg (not_lt.mpr (hin w hw))]

/-- OTIS reader, model in the convention -180 to 180, points in the convention 0 to 360, or
points within the range of the model. -/
theorem C15_otis_pointwise_signed_partial (lo hi : K) (hhi : hi ≤ 180) (x : List K)
    (hx : x ≠ []) (hin : ∀ v ∈ x, lo ≤ v) :
    adjustOTIS lo hi x = .ok (if ∃ v ∈ x, hi < v then x.map toSigned else x) ∧
      adjustOTIS lo hi x = .ok (x.map toSigned) := by
  obtain ⟨mn, h1, hm, _⟩ := exists_min x hx
  obtain ⟨mx, h2, hmx, hmax⟩ := exists_max x hx
  simp only [adjustOTIS, h1, if_neg (not_lt.mpr (hin mn hm)), h2]
  by_cases h : mx > hi
  · rw [if_pos h, if_pos ⟨mx, hmx, h⟩]
    exact ⟨rfl, rfl⟩
  · rw [if_neg h, if_neg (by
      rintro ⟨v, hv, hv'⟩
      exact h (lt_of_lt_of_le hv' (hmax v hv)))]
    refine ⟨rfl, ?_⟩
    congr 1
    conv_lhs => rw [← List.map_id x]
    refine List.map_congr_left ?_
    intro v hv
    have : ¬ v > 180 :=
      not_lt.mpr (le_trans (hmax v hv) (le_trans (not_lt.mp h) hhi))
    simp [toSigned, this]

/-- Batch independence is false for the OTIS reader: on a model with longitudes 0.25 to 359.75
the point at longitude 200, inside the model, stays at 200 when requested alone but is moved to
-160, outside the model (also after extending it by one column), when requested together with a
point at longitude -0.1. -/
theorem C15_otis_batch_false :
    adjustOTIS (1 / 4) (1439 / 4) [(200 : ℚ)] = .ok [200] ∧
    adjustOTIS (1 / 4) (1439 / 4) [-1 / 10, (200 : ℚ)] = .ok [-1 / 10, -160] ∧
    ¬ ((1 / 4 - 1 / 2 : ℚ) ≤ -160) := by
  refine ⟨by decide +kernel, by decide +kernel, by norm_num⟩

/-- Batch independence is false when a stored (already extended) global model is interpolated
with the GOT, FES or ATLAS readers: the extended axis starts below zero, so every longitude
above 180 is moved outside the model unless the batch contains a negative longitude. -/
theorem C15_stored_batch_false :
    adjustGOT (-1 / 4) (1441 / 4) [(200 : ℚ)] = .ok [-160] ∧
    adjustGOT (-1 / 4) (1441 / 4) [(200 : ℚ), -1] = .ok [200, 359] ∧
    ¬ ((-1 / 4 : ℚ) ≤ -160) := by
  refine ⟨by decide +kernel, by decide +kernel, by norm_num⟩

/-- For such stored models every batch without negative longitudes loses all its points above
180 degrees. -/
theorem C15_stored_model_false (lo hi : K) (hlo : lo < 0) (hlo' : -180 < lo) (x : List K)
    (hx : x ≠ []) (hpos : ∀ v ∈ x, 0 ≤ v) (y : List K) (hy : adjustGOT lo hi x = .ok y)
    (i : ℕ) (v : K) (hv : x[i]? = some v) (h180 : 180 < v) (h360 : v < 360 + lo) :
    ∃ w, y[i]? = some w ∧ w < lo := by
  obtain ⟨mn, h1, hm, _⟩ := exists_min x hx
  obtain ⟨mx, h2, _, hmax⟩ := exists_max x hx
  have h3 : mx > 180 := lt_of_lt_of_le h180 (hmax v (List.mem_of_getElem? hv))
  simp only [adjustGOT, h1, h2] at hy
  rw [if_neg (fun e => absurd e.1 (not_lt.mpr (hpos mn hm))), if_pos ⟨h3, hlo⟩] at hy
  rw [← Except.ok.inj hy, List.getElem?_map, hv]
  refine ⟨_, rfl, ?_⟩
  change (if v > 180 then v - 360 else v) < lo
  rw [if_pos h180]
  linarith

/-- Non-vacuity of the pointwise theorems. -/
example : adjustGOT (1 / 8) (2879 / 8) [-10, (200 : ℚ), 350] = .ok [350, 200, 350] ∧
    adjustGOT (-180) (720 / 4) [-10, (200 : ℚ), 350] = .ok [-10, -160, -10] ∧
    adjustOTIS (1 / 4) (1439 / 4) [-10, (200 : ℚ)] = .ok [350, 200] ∧
    adjustOTIS (-180) (179) [-10, (200 : ℚ)] = .ok [-10, -160] := by
  decide +kernel

end Verif.Grid
