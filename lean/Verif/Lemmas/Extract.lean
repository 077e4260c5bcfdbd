import Verif.Model.Extract
import Verif.Lemmas.Chart
import Verif.Lemmas.Interpolate
import Verif.Lemmas.Py
import Verif.Props.Bilinear
import Mathlib.Tactic.FieldSimp
/-! Interpolation in a matrix that shows a part of a chart. -/
namespace Verif.Extract
open Verif Verif.Spec

variable {K : Type} [Field K] [LinearOrder K] [IsStrictOrderedRing K]

/-- The value of an element, if it is not masked. -/
def Fld.number (c : Fld K) : Option (K × K) := if c.masked then none else some (c.re, c.im)

/-- The matrix shows the part of the chart that begins with column `k0` and row `j0`. -/
structure Shows (x y : List K) (hc : List (List (Fld K))) (C : Chart K) (k0 j0 : ℤ) : Prop where
  asc : Ascending x y
  two : 2 ≤ x.length
  two' : 2 ≤ y.length
  height : hc.length = y.length
  width : ∀ r ∈ hc, r.length = x.length
  lon : ∀ c : ℕ, c < x.length → x.getD c 0 = C.lon (k0 + c)
  lat : ∀ r : ℕ, r < y.length → y.getD r 0 = C.lat (j0 + r)
  col : ∀ c : ℕ, c < x.length → C.cols (k0 + c)
  row : ∀ r : ℕ, r < y.length → C.rows (j0 + r)
  value : ∀ r c : ℕ, r < y.length → c < x.length → C.value (k0 + c) (j0 + r) = (entry hc r c).number

theorem ofList_increasing {x : List K} (h : x.Pairwise (· < ·)) (h2 : 2 ≤ x.length) :
    (ofList x).Increasing := by
  refine ⟨h2, fun i hi => ?_⟩
  have hi' : i + 1 < x.length := hi
  unfold ofList
  simp only [List.getD_eq_getElem?_getD, List.getElem?_eq_getElem (show i < x.length by omega),
    List.getElem?_eq_getElem hi', Option.getD_some]
  exact List.pairwise_iff_getElem.1 h i (i + 1) (by omega) hi' (by omega)

theorem ofList_toList (x : List K) : (ofList x).toList = x := by
  refine List.ext_getElem? fun i => ?_
  unfold Interp.Axis.toList ofList
  simp only [List.getElem?_map]
  by_cases h : i < x.length
  · rw [List.getElem?_range h, List.getElem?_eq_getElem h]
    simp [List.getElem?_eq_getElem h]
  · rw [List.getElem?_eq_none (by simpa using h), List.getElem?_eq_none (by omega)]
    rfl

theorem headD_getD (x : List K) : x.headD 0 = x.getD 0 0 := by cases x <;> rfl

theorem getLastD_getD (x : List K) : x.getLastD 0 = x.getD (x.length - 1) 0 := by
  rw [List.getD_eq_getElem?_getD, ← List.getLast?_eq_getElem?, List.getLastD_eq_getLast?]

theorem min?_increasing {x : List K} (h : x.Pairwise (· < ·)) (h2 : 2 ≤ x.length) :
    x.min? = some (x.getD 0 0) := by
  have := (ofList_increasing h h2).min
  rwa [ofList_toList] at this

theorem max?_increasing {x : List K} (h : x.Pairwise (· < ·)) (h2 : 2 ≤ x.length) :
    x.max? = some (x.getD (x.length - 1) 0) := by
  have := (ofList_increasing h h2).max
  rwa [ofList_toList] at this

theorem length_filter_range (m c : ℕ) (h : c ≤ m) (p : ℕ → Bool) (hp : ∀ k < m, (p k = true ↔ k < c)) :
    ((List.range m).filter p).length = c := by
  have : (List.range m).filter p = List.range c := by
    obtain ⟨d, rfl⟩ := Nat.exists_eq_add_of_le h
    rw [List.range_add, List.filter_append, List.filter_eq_self.2, List.filter_eq_nil_iff.2,
      List.append_nil]
    · intro k hk
      obtain ⟨b, hb, rfl⟩ := List.mem_map.1 hk
      have := List.mem_range.1 hb
      rw [hp _ (by omega)]
      omega
    · intro k hk
      have := List.mem_range.1 hk
      rw [hp _ (by omega)]
      exact this
  rw [this, List.length_range]

theorem inner (x : List K) :
    (x.drop 1).dropLast = (List.range (x.length - 2)).map fun k : ℕ => x.getD (k + 1) 0 := by
  refine List.ext_getElem? fun k => ?_
  rw [List.dropLast_eq_take, List.getElem?_take, List.getElem?_drop, List.length_drop,
    List.getElem?_map]
  by_cases h : k < x.length - 2
  · rw [if_pos (by omega), List.getElem?_range h, Option.map_some, List.getD_eq_getElem?_getD,
      Nat.add_comm, List.getElem?_eq_getElem (by omega)]
    rfl
  · rw [if_neg (by omega), List.getElem?_eq_none (by simpa using h)]
    rfl

/-- The cell of a place on an increasing axis, and linear interpolation in it. -/
theorem lerp_increasing {x : List K} (h : x.Pairwise (· < ·)) (h2 : 2 ≤ x.length) (q : K)
    (q1 : x.getD 0 0 ≤ q) (q2 : q ≤ x.getD (x.length - 1) 0) :
    ∃ (c : ℕ) (t : K), c + 1 < x.length ∧ 0 ≤ t ∧ t ≤ 1 ∧
      q = (1 - t) * x.getD c 0 + t * x.getD (c + 1) 0 ∧ ∀ vs : List K,
      Spline.lerp x vs (Spline.bracket x q) q = (1 - t) * vs.getD c 0 + t * vs.getD (c + 1) 0 := by
  have inc := ofList_increasing h h2
  have hc : ∃ c : ℕ, c + 1 < x.length ∧ x.getD c 0 ≤ q ∧ q ≤ x.getD (c + 1) 0 ∧
      ∀ k < x.length - 2, (x.getD (k + 1) 0 ≤ q ↔ k < c) := by
    rcases lt_or_eq_of_le q2 with g | g
    · obtain ⟨i, i1, i2, i3⟩ := inc.exists_cell q q1 (x.length - 1)
        (by show x.length - 1 < x.length; omega) g
      refine ⟨i, by omega, i2, i3.le, fun k hk => ⟨fun hh => ?_, fun hh => ?_⟩⟩
      · by_contra hn
        have : x.getD (i + 1) 0 ≤ x.getD (k + 1) 0 :=
          inc.le (by omega) (by show k + 1 < x.length; omega)
        exact absurd (lt_of_lt_of_le i3 (le_trans this hh)) (lt_irrefl _)
      · exact le_trans (inc.le (i := k + 1) (j := i) (by omega) (by show i < x.length; omega)) i2
    · refine ⟨x.length - 2, by omega, ?_, ?_, fun k hk => ⟨fun _ => hk, fun _ => ?_⟩⟩
      · rw [g]; exact inc.le (by omega) (by show x.length - 1 < x.length; omega)
      · rw [g, show x.length - 2 + 1 = x.length - 1 by omega]
      · rw [g]; exact inc.le (by omega) (by show x.length - 1 < x.length; omega)
  obtain ⟨c, c1, c2, c3, c4⟩ := hc
  have hb : Spline.bracket x q = c := by
    unfold Spline.bracket
    rw [inner, List.filter_map, List.length_map]
    refine length_filter_range _ c (by omega) _ fun k hk => ?_
    rw [← c4 k hk]
    simp
  have hlt : x.getD c 0 < x.getD (c + 1) 0 := inc.step c c1
  have hpos : 0 < x.getD (c + 1) 0 - x.getD c 0 := by linarith
  refine ⟨c, (q - x.getD c 0) / (x.getD (c + 1) 0 - x.getD c 0), c1,
    div_nonneg (by linarith) hpos.le, (div_le_one hpos).2 (by linarith), ?_, fun vs => ?_⟩
  · field_simp
    ring
  · unfold Spline.lerp
    rw [hb]
    ring

theorem getD_map_lt {α β : Type} (f : α → β) (l : List α) (i : ℕ) (a : α) (b : β) (h : i < l.length) :
    (l.map f).getD i b = f (l.getD i a) := by
  rw [List.getD_eq_getElem?_getD, List.getD_eq_getElem?_getD, List.getElem?_map,
    List.getElem?_eq_getElem h]
  rfl

theorem entry_row {x y : List K} {hc : List (List (Fld K))} (hh : hc.length = y.length)
    (hw : ∀ r ∈ hc, r.length = x.length) {r : ℕ} (hr : r < y.length) :
    (hc.getD r []).length = x.length := by
  rw [List.getD_eq_getElem?_getD, List.getElem?_eq_getElem (by omega)]
  exact hw _ (List.getElem_mem _)

/-- A degree-one spline of numbers taken from the elements of a matrix. -/
theorem bilinear_nodes {x y : List K} {hc : List (List (Fld K))} (asc : Ascending x y)
    (h2 : 2 ≤ x.length) (h2' : 2 ≤ y.length) (hh : hc.length = y.length)
    (hw : ∀ r ∈ hc, r.length = x.length) (a b : K)
    (a1 : x.getD 0 0 ≤ a) (a2 : a ≤ x.getD (x.length - 1) 0)
    (b1 : y.getD 0 0 ≤ b) (b2 : b ≤ y.getD (y.length - 1) 0) :
    ∃ (c r : ℕ) (t s : K), c + 1 < x.length ∧ r + 1 < y.length ∧ 0 ≤ t ∧ t ≤ 1 ∧ 0 ≤ s ∧ s ≤ 1 ∧
      a = (1 - t) * x.getD c 0 + t * x.getD (c + 1) 0 ∧
      b = (1 - s) * y.getD r 0 + s * y.getD (r + 1) 0 ∧ ∀ φ : Fld K → K,
      Spline.bilinear x y (hc.map fun r => r.map φ) a b =
        (1 - t) * (1 - s) * φ (entry hc r c) + t * (1 - s) * φ (entry hc r (c + 1)) +
          (1 - t) * s * φ (entry hc (r + 1) c) + t * s * φ (entry hc (r + 1) (c + 1)) := by
  obtain ⟨c, t, c1, t0, t1, ea, la⟩ := lerp_increasing asc.1 h2 a a1 a2
  obtain ⟨r, s, r1, s0, s1, eb, lb⟩ := lerp_increasing asc.2 h2' b b1 b2
  refine ⟨c, r, t, s, c1, r1, t0, t1, s0, s1, ea, eb, fun φ => ?_⟩
  unfold Spline.bilinear
  rw [lb, List.map_map, getD_map_lt _ _ _ [] _ (by omega), getD_map_lt _ _ _ [] _ (by omega)]
  simp only [Function.comp]
  rw [la, la]
  have w1 := entry_row hh hw (show r < y.length by omega)
  have w2 := entry_row hh hw r1
  unfold entry
  rw [getD_map_lt φ _ _ ⟨0, 0, true⟩ _ (by omega), getD_map_lt φ _ _ ⟨0, 0, true⟩ _ (by omega),
    getD_map_lt φ _ _ ⟨0, 0, true⟩ _ (by omega), getD_map_lt φ _ _ ⟨0, 0, true⟩ _ (by omega)]
  ring

theorem clamp_inside {x : List K} (q : K) (q1 : x.getD 0 0 ≤ q) (q2 : q ≤ x.getD (x.length - 1) 0) :
    Spline.clamp x q = q := by
  unfold Spline.clamp
  rw [headD_getD, getLastD_getD, min_eq_right q2, max_eq_right q1]

/-- The four products of the weights, none negative. -/
theorem positive_mask {a b c d : K} (ha : 0 ≤ a) (hb : 0 ≤ b) (hc : 0 ≤ c) (hd : 0 ≤ d)
    (p q r s : Bool) :
    0 < a * (if p then 1 else 0) + b * (if q then 1 else 0) + c * (if r then 1 else 0) +
        d * (if s then (1 : K) else 0) ↔
      (a ≠ 0 ∧ p = true) ∨ (b ≠ 0 ∧ q = true) ∨ (c ≠ 0 ∧ r = true) ∨ (d ≠ 0 ∧ s = true) := by
  have f : ∀ (w : K) (m : Bool), 0 ≤ w →
      0 ≤ w * (if m then (1 : K) else 0) ∧ (0 < w * (if m then (1 : K) else 0) ↔ w ≠ 0 ∧ m = true) := by
    intro w m hw
    cases m
    · simp
    · simp only [if_true, mul_one, and_true]
      exact ⟨hw, hw.lt_iff_ne'⟩
  have fa := f a p ha
  have fb := f b q hb
  have fc := f c r hc
  have fd := f d s hd
  rw [← fa.2, ← fb.2, ← fc.2, ← fd.2]
  constructor
  · intro h
    by_contra hn
    simp only [not_or, not_lt] at hn
    linarith [hn.1, hn.2.1, hn.2.2.1, hn.2.2.2]
  · rintro (h | h | h | h)
    · linarith [fa.1, fb.1, fc.1, fd.1]
    · linarith [fa.1, fb.1, fc.1, fd.1]
    · linarith [fa.1, fb.1, fc.1, fd.1]
    · linarith [fa.1, fb.1, fc.1, fd.1]

/-- What a weighted sum of masks and numbers says about a chart. -/
theorem blend_nodes {C : Chart K} {k j : ℤ} {t s : K} (t0 : 0 ≤ t) (t1 : t ≤ 1) (s0 : 0 ≤ s)
    (s1 : s ≤ 1) (A B D E : Fld K) (hA : C.value k j = A.number) (hB : C.value (k + 1) j = B.number)
    (hD : C.value k (j + 1) = D.number) (hE : C.value (k + 1) (j + 1) = E.number) :
    Chart.blend (C.corners k j t s) =
      if 0 < (1 - t) * (1 - s) * (if A.masked then 1 else 0) + t * (1 - s) * (if B.masked then 1 else 0) +
          (1 - t) * s * (if D.masked then 1 else 0) + t * s * (if E.masked then (1 : K) else 0) then none
      else some ((1 - t) * (1 - s) * A.re + t * (1 - s) * B.re + (1 - t) * s * D.re + t * s * E.re,
        (1 - t) * (1 - s) * A.im + t * (1 - s) * B.im + (1 - t) * s * D.im + t * s * E.im) := by
  have n1 : 0 ≤ 1 - t := by linarith
  have n2 : 0 ≤ 1 - s := by linarith
  have g : ∀ (w : K) (c : Fld K), ¬ (w ≠ 0 ∧ c.masked = true) →
      w * (c.number.getD (0, 0)).1 = w * c.re ∧ w * (c.number.getD (0, 0)).2 = w * c.im := by
    intro w c h
    unfold Fld.number
    cases hm : c.masked
    · simp
    · have : w = 0 := by
        by_contra hw
        exact h ⟨hw, hm⟩
      simp [this]
  have m : ∀ (w : K) (c : Fld K), (w ≠ 0 → c.number ≠ none) ↔ ¬ (w ≠ 0 ∧ c.masked = true) := by
    intro w c
    unfold Fld.number
    cases c.masked <;> simp
  unfold Chart.blend Chart.corners
  rw [hA, hB, hD, hE]
  have key := positive_mask (mul_nonneg n1 n2) (mul_nonneg t0 n2) (mul_nonneg n1 s0)
    (mul_nonneg t0 s0) A.masked B.masked D.masked E.masked
  by_cases h : 0 < (1 - t) * (1 - s) * (if A.masked then 1 else 0) + t * (1 - s) * (if B.masked then 1 else 0) +
          (1 - t) * s * (if D.masked then 1 else 0) + t * s * (if E.masked then (1 : K) else 0)
  · rw [if_pos h, if_neg]
    intro hall
    simp only [List.mem_cons, List.not_mem_nil, or_false, forall_eq_or_imp, forall_eq] at hall
    rw [m, m, m, m] at hall
    rcases key.1 h with h | h | h | h
    · exact hall.1 h
    · exact hall.2.1 h
    · exact hall.2.2.1 h
    · exact hall.2.2.2 h
  · have hn := mt key.2 h
    simp only [not_or] at hn
    rw [if_neg h, if_pos]
    · simp only [List.map_cons, List.map_nil, List.sum_cons, List.sum_nil, add_zero]
      rw [(g _ A hn.1).1, (g _ A hn.1).2, (g _ B hn.2.1).1, (g _ B hn.2.1).2, (g _ D hn.2.2.1).1,
        (g _ D hn.2.2.1).2, (g _ E hn.2.2.2).1, (g _ E hn.2.2.2).2]
      simp only [add_assoc]
    · simp only [List.mem_cons, List.not_mem_nil, or_false, forall_eq_or_imp, forall_eq]
      rw [m, m, m, m]
      exact hn

/-- Interpolation by `regulargrid` or `spline` at a place inside a matrix that shows a chart. -/
theorem splines_value {x y : List K} {hc : List (List (Fld K))} {C : Chart K} {k0 j0 : ℤ}
    (h : Shows x y hc C k0 j0) (a b : K) (a1 : x.getD 0 0 ≤ a) (a2 : a ≤ x.getD (x.length - 1) 0)
    (b1 : y.getD 0 0 ≤ b) (b2 : b ≤ y.getD (y.length - 1) 0) :
    ∃ (o : Option (K × K)), C.Value a b o ∧ ∃ z m, splineC x y hc a b = .ok (z, m) ∧
      regularC x y hc a b = .ok (z, m) ∧ m = o.isNone ∧ ∀ w, o = some w → z = w := by
  obtain ⟨c, r, t, s, c1, r1, t0, t1, s0, s1, ea, eb, hφ⟩ :=
    bilinear_nodes h.asc h.two h.two' h.height h.width a b a1 a2 b1 b2
  have ec : k0 + (c : ℤ) + 1 = k0 + ((c + 1 : ℕ) : ℤ) := by push_cast; ring
  have er : j0 + (r : ℤ) + 1 = j0 + ((r + 1 : ℕ) : ℤ) := by push_cast; ring
  have hat : C.At a b (k0 + c) (j0 + r) t s := by
    refine ⟨h.col c (by omega), ?_, h.row r (by omega), ?_, t0, t1, s0, s1, ?_, ?_⟩
    · rw [ec]; exact h.col _ c1
    · rw [er]; exact h.row _ r1
    · rw [ec, ← h.lon c (by omega), ← h.lon _ c1]; exact ea
    · rw [er, ← h.lat r (by omega), ← h.lat _ r1]; exact eb
  have hb := blend_nodes (C := C) t0 t1 s0 s1 (k := k0 + c) (j := j0 + r) (entry hc r c)
    (entry hc r (c + 1)) (entry hc (r + 1) c) (entry hc (r + 1) (c + 1))
    (h.value r c (by omega) (by omega)) (by rw [ec]; exact h.value r _ (by omega) c1)
    (by rw [er]; exact h.value _ c r1 (by omega)) (by rw [ec, er]; exact h.value _ _ r1 c1)
  refine ⟨_, ⟨_, _, t, s, hat, rfl⟩,
    (Spline.bilinear x y (reRows hc) a b, Spline.bilinear x y (imRows hc) a b),
    decide (0 < Spline.bilinear x y (maskRows hc) a b), ?_, ?_, ?_, ?_⟩
  · unfold splineC Spline.spline
    rw [if_pos ⟨h.asc, h.two, h.two'⟩, clamp_inside a a1 a2, clamp_inside b b1 b2]
  · unfold regularC Spline.linear
    rw [if_pos h.asc, if_pos ⟨clamp_inside a a1 a2, clamp_inside b b1 b2⟩,
      if_pos ⟨clamp_inside a a1 a2, clamp_inside b b1 b2⟩,
      if_pos ⟨clamp_inside a a1 a2, clamp_inside b b1 b2⟩]
  · have hm : Spline.bilinear x y (maskRows hc) a b = _ := hφ fun c => if c.masked then 1 else 0
    rw [← hm] at hb
    rw [hb]
    by_cases hp : 0 < Spline.bilinear x y (maskRows hc) a b
    · rw [if_pos hp, decide_eq_true hp]; rfl
    · rw [if_neg hp, decide_eq_false hp]; rfl
  · intro w hw
    rw [hb] at hw
    rw [ite_eq_iff] at hw
    have hw := (hw.resolve_left fun e => absurd e.2 (by simp)).2
    unfold reRows imRows
    rw [hφ, hφ]
    exact Option.some.inj hw

/-! ## The quick bilinear interpolation -/

/-- The sums over the corners that are valid. -/
theorem validPairs_sums (W : K) (f : K × K → K) : ∀ cs : List (K × Option (K × K)),
    ((Interp.validPairs (cs.map fun p => (W * p.1, (⟨p.2.map f, p.2.isNone⟩ : Interp.Cell K)))).map
        (·.1)).sum = W * (cs.map Chart.share).sum ∧
      ((Interp.validPairs (cs.map fun p => (W * p.1, (⟨p.2.map f, p.2.isNone⟩ : Interp.Cell K)))).map
        (fun p => p.1 * p.2)).sum = W * (cs.map fun p => Chart.share p * f (p.2.getD (0, 0))).sum
  | [] => by simp [Interp.validPairs]
  | ⟨w, none⟩ :: cs => by
    have ih := validPairs_sums W f cs
    rw [List.map_cons, List.map_cons, List.map_cons, List.sum_cons, List.sum_cons]
    have e : Chart.share (w, (none : Option (K × K))) = 0 := if_pos rfl
    rw [e, zero_add, zero_mul, zero_add]
    exact ih
  | ⟨w, some v⟩ :: cs => by
    have ih := validPairs_sums W f cs
    rw [List.map_cons, List.map_cons, List.map_cons, List.sum_cons, List.sum_cons]
    have e : Chart.share (w, some v) = w := if_neg (by simp)
    rw [e, mul_add, mul_add, ← ih.1, ← ih.2, ← mul_assoc]
    exact ⟨rfl, rfl⟩

theorem weighted_mean (W : K) (hW : W ≠ 0) (f : K × K → K) (cs : List (K × Option (K × K))) :
    Interp.weighted (Interp.validPairs (cs.map fun p =>
        (W * p.1, (⟨p.2.map f, p.2.isNone⟩ : Interp.Cell K)))) =
      if (cs.map Chart.share).sum = 0 then none
      else some ((cs.map fun p => Chart.share p * f (p.2.getD (0, 0))).sum / (cs.map Chart.share).sum) := by
  have h := validPairs_sums W f cs
  unfold Interp.weighted
  rw [h.1, h.2]
  by_cases h0 : (cs.map Chart.share).sum = 0
  · rw [if_pos h0, h0, mul_zero, if_pos rfl]
  · rw [if_neg h0, if_neg (mul_ne_zero hW h0), mul_div_mul_left _ _ hW]

theorem nanCell_eq (c : Fld K) : nanCell c = (c.number, c.number.isNone) := by
  unfold nanCell Fld.number
  cases c.masked <;> rfl

/-- What `bilinear` and the mask of NaN make of a place inside the matrix: the mean of the points with
a value, or, very close to a point, its value. -/
theorem bilinearC_value {x y : List K} {hc : List (List (Fld K))} {C : Chart K} {k0 j0 : ℤ}
    (h : Shows x y hc C k0 j0) (a b : K) (a1 : x.getD 0 0 ≤ a) (a2 : a < x.getD (x.length - 1) 0)
    (b1 : y.getD 0 0 < b) (b2 : b < y.getD (y.length - 1) 0) :
    ∃ v m, bilinearC x y (fun j i => nanCell (entry hc j i)) a b = .ok (v, m) ∧
      (C.Mean a b (if m then none else v) ∨ ∃ c r : ℕ, c < x.length ∧ r < y.length ∧
        Interp.isclose a (x.getD c 0) = true ∧ Interp.isclose b (y.getD r 0) = true ∧
        (if m then none else v) = C.value (k0 + c) (j0 + r)) := by
  have ix := ofList_increasing h.asc.1 h.two
  have iy := ofList_increasing h.asc.2 h.two'
  obtain ⟨c, r, hin, -⟩ := Interp.C10_inside_never_raises_partial (ofList x) (ofList y) ix iy
    (fun _ _ => ⟨none, true⟩) none a b a1 a2 b1 b2
  have hR := Interp.bilinear_inCell (ofList x) (ofList y) ix iy
    (fun j i => ⟨(nanCell (entry hc j i)).1.map Prod.fst, (nanCell (entry hc j i)).2⟩)
    (some fillRe) a b c r hin
  have hI := Interp.bilinear_inCell (ofList x) (ofList y) ix iy
    (fun j i => ⟨(nanCell (entry hc j i)).1.map Prod.snd, (nanCell (entry hc j i)).2⟩)
    (some 0) a b c r hin
  obtain ⟨c1, r1, c2, c3, r2, r3, -⟩ := hin
  simp only [ofList] at c1 r1 c2 c3 r2 r3
  have node : ∀ c' r' : ℕ, c' < x.length → r' < y.length →
      C.value (k0 + c') (j0 + r') = (entry hc r' c').number := fun c' r' p q => h.value r' c' q p
  unfold bilinearC
  rw [hR, hI, ok_bind, ok_bind]
  by_cases hn : Interp.NearCorner (ofList x) (ofList y) a b c r
  · -- a point of the chart itself
    have pick : ∃ c' r' : ℕ, (c' = c ∨ c' = c + 1) ∧ (r' = r ∨ r' = r + 1) ∧
        Interp.isclose a (x.getD c' 0) = true ∧ Interp.isclose b (y.getD r' 0) = true ∧
        ∀ (d : ℕ → ℕ → Interp.Cell K) (fill : Option K),
          Interp.cell (ofList x) (ofList y) d fill a b c r = d r' c' := by
      unfold Interp.NearCorner at hn
      simp only [ofList] at hn
      unfold Interp.cell
      simp only [ofList, Bool.and_eq_true]
      by_cases e1 : Interp.isclose b (y.getD r 0) = true ∧ Interp.isclose a (x.getD c 0) = true
      · exact ⟨c, r, Or.inl rfl, Or.inl rfl, e1.2, e1.1, fun d fill => by rw [if_pos e1]⟩
      by_cases e2 : Interp.isclose b (y.getD (r + 1) 0) = true ∧ Interp.isclose a (x.getD c 0) = true
      · exact ⟨c, r + 1, Or.inl rfl, Or.inr rfl, e2.2, e2.1, fun d fill => by
          rw [if_neg e1, if_pos e2]⟩
      by_cases e3 : Interp.isclose b (y.getD r 0) = true ∧ Interp.isclose a (x.getD (c + 1) 0) = true
      · exact ⟨c + 1, r, Or.inr rfl, Or.inl rfl, e3.2, e3.1, fun d fill => by
          rw [if_neg e1, if_neg e2, if_pos e3]⟩
      have e4 : Interp.isclose b (y.getD (r + 1) 0) = true ∧
          Interp.isclose a (x.getD (c + 1) 0) = true := by tauto
      exact ⟨c + 1, r + 1, Or.inr rfl, Or.inr rfl, e4.2, e4.1, fun d fill => by
        rw [if_neg e1, if_neg e2, if_neg e3, if_pos e4]⟩
    obtain ⟨c', r', hc', hr', n1, n2, hd⟩ := pick
    have l1 : c' < x.length := by omega
    have l2 : r' < y.length := by omega
    rw [hd, hd]
    refine ⟨_, _, rfl, Or.inr ⟨c', r', l1, l2, n1, n2, ?_⟩⟩
    rw [node c' r' l1 l2]
    simp only [nanCell_eq]
    cases (entry hc r' c').number <;> rfl
  · -- the mean
    rw [Interp.cell_far _ _ _ _ _ _ _ _ hn, Interp.cell_far _ _ _ _ _ _ _ _ hn]
    simp only [nanCell_eq, ofList]
    have px : 0 < x.getD (c + 1) 0 - x.getD c 0 := by linarith
    have py : 0 < y.getD (r + 1) 0 - y.getD r 0 := by linarith
    obtain ⟨t, ht⟩ : ∃ t, t = (a - x.getD c 0) / (x.getD (c + 1) 0 - x.getD c 0) := ⟨_, rfl⟩
    obtain ⟨s, hs⟩ : ∃ s, s = (b - y.getD r 0) / (y.getD (r + 1) 0 - y.getD r 0) := ⟨_, rfl⟩
    have et : t * (x.getD (c + 1) 0 - x.getD c 0) = a - x.getD c 0 := by
      rw [ht, div_mul_cancel₀ _ px.ne']
    have es : s * (y.getD (r + 1) 0 - y.getD r 0) = b - y.getD r 0 := by
      rw [hs, div_mul_cancel₀ _ py.ne']
    have t0 : 0 ≤ t := by rw [ht]; exact div_nonneg (by linarith) px.le
    have t1 : t ≤ 1 := by rw [ht, div_le_one px]; linarith
    have s0 : 0 ≤ s := by rw [hs]; exact div_nonneg (by linarith) py.le
    have s1 : s ≤ 1 := by rw [hs, div_le_one py]; linarith
    have ec : k0 + (c : ℤ) + 1 = k0 + ((c + 1 : ℕ) : ℤ) := by push_cast; ring
    have er : j0 + (r : ℤ) + 1 = j0 + ((r + 1 : ℕ) : ℤ) := by push_cast; ring
    have hat : C.At a b (k0 + c) (j0 + r) t s := by
      refine ⟨h.col c (by omega), ?_, h.row r (by omega), ?_, t0, t1, s0, s1, ?_, ?_⟩
      · rw [ec]; exact h.col _ c1
      · rw [er]; exact h.row _ r1
      · rw [ec, ← h.lon c (by omega), ← h.lon _ c1]; linear_combination -et
      · rw [er, ← h.lat r (by omega), ← h.lat _ r1]; linear_combination -es
    obtain ⟨W, hW⟩ : ∃ W, W = (x.getD (c + 1) 0 - x.getD c 0) * (y.getD (r + 1) 0 - y.getD r 0) :=
      ⟨_, rfl⟩
    have hW0 : W ≠ 0 := by rw [hW]; exact (mul_pos px py).ne'
    obtain ⟨cs, hcs⟩ : ∃ cs, cs = C.corners (k0 + c) (j0 + r) t s := ⟨_, rfl⟩
    have lst : ∀ f : K × K → K,
        [(|a - x.getD (c + 1) 0| * |b - y.getD (r + 1) 0|, (⟨(entry hc r c).number.map f,
            (entry hc r c).number.isNone⟩ : Interp.Cell K)),
          (|a - x.getD c 0| * |b - y.getD (r + 1) 0|, ⟨(entry hc r (c + 1)).number.map f,
            (entry hc r (c + 1)).number.isNone⟩),
          (|a - x.getD (c + 1) 0| * |b - y.getD r 0|, ⟨(entry hc (r + 1) c).number.map f,
            (entry hc (r + 1) c).number.isNone⟩),
          (|a - x.getD c 0| * |b - y.getD r 0|, ⟨(entry hc (r + 1) (c + 1)).number.map f,
            (entry hc (r + 1) (c + 1)).number.isNone⟩)] =
        cs.map fun p => (W * p.1, (⟨p.2.map f, p.2.isNone⟩ : Interp.Cell K)) := by
      intro f
      rw [hcs]
      unfold Chart.corners
      rw [ec, er, node c r (by omega) (by omega), node (c + 1) r c1 (by omega),
        node c (r + 1) (by omega) r1, node (c + 1) (r + 1) c1 r1]
      simp only [List.map_cons, List.map_nil]
      rw [abs_of_nonneg (show 0 ≤ a - x.getD c 0 by linarith), abs_of_neg (show a - x.getD (c + 1) 0 < 0 by linarith),
        abs_of_nonneg (show 0 ≤ b - y.getD r 0 by linarith), abs_of_neg (show b - y.getD (r + 1) 0 < 0 by linarith)]
      have f1 : x.getD (c + 1) 0 - a = (1 - t) * (x.getD (c + 1) 0 - x.getD c 0) := by
        linear_combination et
      have f2 : y.getD (r + 1) 0 - b = (1 - s) * (y.getD (r + 1) 0 - y.getD r 0) := by
        linear_combination es
      have w1 : -(a - x.getD (c + 1) 0) * -(b - y.getD (r + 1) 0) = W * ((1 - t) * (1 - s)) := by
        rw [neg_sub, neg_sub, f1, f2, hW]; ring
      have w2 : (a - x.getD c 0) * -(b - y.getD (r + 1) 0) = W * (t * (1 - s)) := by
        rw [neg_sub, f2, ← et, hW]; ring
      have w3 : -(a - x.getD (c + 1) 0) * (b - y.getD r 0) = W * ((1 - t) * s) := by
        rw [neg_sub, f1, ← es, hW]; ring
      have w4 : (a - x.getD c 0) * (b - y.getD r 0) = W * (t * s) := by
        rw [← et, ← es, hW]; ring
      rw [w1, w2, w3, w4]
    rw [lst Prod.fst, lst Prod.snd, weighted_mean W hW0, weighted_mean W hW0]
    have anyv : ∀ f : K × K → K, ((cs.map fun p => (W * p.1, (⟨p.2.map f, p.2.isNone⟩ : Interp.Cell K))).any
        fun p => p.2.valid) = cs.any fun p => p.2.isSome := by
      intro f
      rw [List.any_map]
      congr 1
      funext p
      simp only [Function.comp, Interp.Cell.valid]
      cases p.2 <;> rfl
    rw [anyv, anyv]
    refine ⟨_, _, rfl, Or.inl ⟨k0 + c, j0 + r, t, s, hat, ?_⟩⟩
    rw [← hcs]
    unfold Chart.mean
    by_cases hv : (cs.any fun p => p.2.isSome) = true
    · simp only [if_pos hv]
      by_cases h0 : (cs.map Chart.share).sum = 0
      · simp [if_pos h0]
      · simp only [if_neg h0]
        rfl
    · simp only [if_neg hv, if_true]
      have : (cs.map Chart.share).sum = 0 := by
        refine List.sum_eq_zero fun w hw => ?_
        obtain ⟨p, hp, rfl⟩ := List.mem_map.1 hw
        unfold Chart.share
        rw [if_pos]
        by_contra hne
        exact hv (List.any_eq_true.2 ⟨p, hp, Option.isSome_iff_ne_none.2 hne⟩)
      rw [if_pos this]

end Verif.Extract
