import Verif.Lemmas.ExtractATLAS
import Verif.Props.ExtractCrop
import Verif.Props.ExtractOTIS
/-!
C75: the harmonic constants extracted from an ATLAS model in netCDF files are the interpolation of the
field in the files, and velocities are transports divided by the depth.
-/
namespace Verif.AtlasNet
open Verif Verif.Spec Verif.Extract Verif.Grid
open Verif.Staggered (SameMask Positive Sounds number_none zipMatrix_entry zipMatrix zipMatrix_shape entry_getD
  pyMap_from)

variable {K : Type} [Field K] [LinearOrder K] [IsStrictOrderedRing K]

/-! ## What the files say -/

/-- The depth of the point in column `k` and row `j` of a global model. -/
def Site.at (s : Site K) (k j : ℤ) : K := (s.depth.getD j.toNat []).getD (k % s.lon.length).toNat 0

/-- The chart of a quantity of a global model whose first column is at longitude `a`: the columns
repeat, and there is no value where the depth is zero. -/
def sheet (s : Site K) (a : K) (value : ℤ → ℤ → Option (K × K)) : Chart K where
  lon k := a + k * (360 / (s.lon.length : K))
  lat j := s.lat.getD j.toNat 0
  cols _ := True
  rows j := 0 ≤ j ∧ j < s.lat.length
  value k j := if s.at k j = 0 then none else value k j

/-- The chart of depths. -/
def waters (s : Site K) (a : K) : Chart K := sheet s a fun k j => some (s.at k j, 0)

/-- The chart of a constituent. -/
def tides (s : Site K) (a : K) (hc : List (List (K × K))) : Chart K :=
  sheet s a fun k j => some ((hc.getD j.toNat []).getD (k % s.lon.length).toNat (0, 0))

/-- The grid file of a global model: columns every `360 / n` degrees that begin in the first step of the
range from 0 to 360 degrees or of the range from -180 to 180 degrees, rows from south to north, and
depths of that shape. -/
structure Around (s : Site K) (a : K) : Prop where
  three : 3 ≤ s.lon.length
  lon : s.lon = uniform a (360 / (s.lon.length : K)) s.lon.length
  lat : s.lat.Pairwise (· < ·)
  two : 2 ≤ s.lat.length
  shape : CGrid.Shape s.depth s.lat.length s.lon.length
  start : (0 ≤ a ∧ a ≤ 360 / (s.lon.length : K)) ∨ (-180 ≤ a ∧ a ≤ -180 + 360 / (s.lon.length : K))

theorem shape_map {α β : Type} (f : α → β) {m : List (List α)} {ny nx : ℕ} (h : CGrid.Shape m ny nx) :
    CGrid.Shape (m.map fun r => r.map f) ny nx := by
  refine ⟨by rw [List.length_map]; exact h.1, fun r hr => ?_⟩
  obtain ⟨r', hr', rfl⟩ := List.mem_map.1 hr
  rw [List.length_map]
  exact h.2 r' hr'

theorem Around.global {s : Site K} {a : K} (h : Around s a) {m : List (List (Fld K))}
    (sh : CGrid.Shape m s.lat.length s.lon.length) : Global (⟨s.lon, s.lat, m⟩ : Layer K) a :=
  ⟨⟨h.three, h.lon, h.lat, h.two, sh.1, sh.2⟩, h.start⟩

theorem entry_map {α : Type} (f : α → Fld K) (z : α) {m : List (List α)} {ny nx : ℕ} (h : CGrid.Shape m ny nx)
    {j i : ℕ} (hj : j < ny) (hi : i < nx) :
    Extract.entry (m.map fun r => r.map f) j i = f ((m.getD j []).getD i z) := by
  rw [entry_getD, Staggered.entry_some (shape_map f h) hj hi ⟨0, 0, true⟩, Option.getD_some]
  have hj' : j < m.length := by have := h.1; omega
  have hl := h.2 m[j] (List.getElem_mem hj')
  simp only [List.getD_eq_getElem?_getD, List.getElem?_map, List.getElem?_eq_getElem hj', Option.map_some,
    Option.getD_some]
  rw [List.getElem?_eq_getElem (show i < m[j].length by omega)]
  rfl

theorem column_lt {s : Site K} {a : K} (h : Around s a) (k : ℤ) : (k % s.lon.length).toNat < s.lon.length := by
  have h3 := h.three
  have h0 := Int.emod_nonneg k (show (s.lon.length : ℤ) ≠ 0 by omega)
  have h1 := Int.emod_lt_of_pos k (show (0 : ℤ) < s.lon.length by omega)
  omega

/-- A matrix of depths that shows the raw numbers shows the chart after its mask is set. -/
theorem remask_shows {s : Site K} {a : K} (h : Around s a) {x y : List K} {b : List (List (Fld K))} {k0 j0 : ℤ}
    (hs : Shows x y b (globe ⟨s.lon, s.lat, plain s.depth⟩ a) k0 j0) :
    Shows x y (remask b) (waters s a) k0 j0 := by
  have hsh : CGrid.Shape b y.length x.length := ⟨hs.height, hs.width⟩
  have hsh' : CGrid.Shape (remask b) y.length x.length := shape_map _ hsh
  refine ⟨hs.asc, hs.two, hs.two', hsh'.1, hsh'.2, hs.lon, hs.lat, fun _ _ => trivial, hs.row, fun r c hr hc => ?_⟩
  have hv := hs.value r c hr hc
  have hrow := hs.row r hr
  have e1 : Extract.entry (plain s.depth) (j0 + r).toNat ((k0 + c) % s.lon.length).toNat =
      ⟨s.at (k0 + c) (j0 + r), 0, false⟩ :=
    entry_map (fun h : K => (⟨h, 0, false⟩ : Fld K)) 0 h.shape (by have := hrow.1; have := hrow.2; simp only at *; omega)
      (column_lt h _)
  have e2 : Extract.entry (remask b) r c = ⟨(Extract.entry b r c).re, (Extract.entry b r c).im,
      decide ((Extract.entry b r c).re = 0)⟩ := by
    have := entry_map (fun c : Fld K => (⟨c.re, c.im, decide (c.re = 0)⟩ : Fld K)) ⟨0, 0, true⟩ hsh hr hc
    exact this
  have e3 : (Extract.entry b r c).number = some (s.at (k0 + c) (j0 + r), 0) := by
    rw [← hv]
    show (Extract.entry (plain s.depth) (j0 + r).toNat ((k0 + c) % s.lon.length).toNat).number = _
    rw [e1]
    rfl
  rw [e2]
  show (if s.at (k0 + c) (j0 + r) = 0 then none else some (s.at (k0 + c) (j0 + r), (0 : K))) = _
  unfold Fld.number at e3 ⊢
  cases hm : (Extract.entry b r c).masked with
  | true => rw [hm] at e3; cases e3
  | false =>
    rw [hm] at e3
    simp only [Bool.false_eq_true, if_false, Option.some.injEq, Prod.mk.injEq] at e3
    rw [e3.1, e3.2]
    by_cases h0 : s.at (k0 + c) (j0 + r) = 0 <;> simp [h0]

/-- The same with the mask that is set when the depths are read. -/
theorem depths_shows {s : Site K} {a : K} (h : Around s a) {x y : List K} {b : List (List (Fld K))} {k0 j0 : ℤ}
    (hs : Shows x y b (globe ⟨s.lon, s.lat, depths s.depth⟩ a) k0 j0) : Shows x y b (waters s a) k0 j0 := by
  refine ⟨hs.asc, hs.two, hs.two', hs.height, hs.width, hs.lon, hs.lat, fun _ _ => trivial, hs.row,
    fun r c hr hc => ?_⟩
  have hrow := hs.row r hr
  have e1 : Extract.entry (depths s.depth) (j0 + r).toNat ((k0 + c) % s.lon.length).toNat =
      ⟨s.at (k0 + c) (j0 + r), 0, decide (s.at (k0 + c) (j0 + r) = 0)⟩ :=
    entry_map (fun h : K => (⟨h, 0, decide (h = 0)⟩ : Fld K)) 0 h.shape
      (by have := hrow.1; have := hrow.2; simp only at *; omega) (column_lt h _)
  rw [← hs.value r c hr hc]
  show (if s.at (k0 + c) (j0 + r) = 0 then none else some (s.at (k0 + c) (j0 + r), (0 : K))) =
    (Extract.entry (depths s.depth) (j0 + r).toNat ((k0 + c) % s.lon.length).toNat).number
  rw [e1]
  unfold Fld.number
  by_cases h0 : s.at (k0 + c) (j0 + r) = 0 <;> simp [h0]

/-- The matrix of a constituent after its mask is combined with that of the depths. -/
theorem combine_shows {s : Site K} {a : K} (h : Around s a) {hc : List (List (K × K))}
    (sh : CGrid.Shape hc s.lat.length s.lon.length) {x y : List K} {m b : List (List (Fld K))} {k0 j0 : ℤ}
    (hm : Shows x y m (globe ⟨s.lon, s.lat, numbers hc⟩ a) k0 j0) (hb : Shows x y b (waters s a) k0 j0) :
    Shows x y (combine m b) (tides s a hc) k0 j0 ∧ SameMask (combine m b) b := by
  have hsm : CGrid.Shape m y.length x.length := ⟨hm.height, hm.width⟩
  have hsb : CGrid.Shape b y.length x.length := ⟨hb.height, hb.width⟩
  have hsh : CGrid.Shape (combine m b) y.length x.length := zipMatrix_shape _ hsm hsb
  have ent : ∀ r c : ℕ, r < y.length → c < x.length → Extract.entry (combine m b) r c =
      ⟨(Extract.entry m r c).re, (Extract.entry m r c).im, (Extract.entry m r c).masked || (Extract.entry b r c).masked⟩ := by
    intro r c hr hc
    have := zipMatrix_entry (fun c b : Fld K => (⟨c.re, c.im, c.masked || b.masked⟩ : Fld K)) m b r c
    rw [entry_getD]
    show (CGrid.entry (zipMatrix _ m b) r c).getD _ = _
    rw [this, Staggered.entry_some hsm hr hc ⟨0, 0, true⟩, Staggered.entry_some hsb hr hc ⟨0, 0, true⟩]
    rfl
  have raw : ∀ r c : ℕ, r < y.length → c < x.length → (Extract.entry m r c).number =
      some ((hc.getD (j0 + r).toNat []).getD ((k0 + c) % s.lon.length).toNat (0, 0)) := by
    intro r c hr hcc
    have hrow := hm.row r hr
    have e1 : Extract.entry (numbers hc) (j0 + r).toNat ((k0 + c) % s.lon.length).toNat = _ :=
      entry_map (fun z : K × K => (⟨z.1, z.2, false⟩ : Fld K)) (0, 0) sh
        (by have := hrow.1; have := hrow.2; simp only at *; omega) (column_lt h (k0 + c))
    rw [← hm.value r c hr hcc]
    show (Extract.entry (numbers hc) (j0 + r).toNat ((k0 + c) % s.lon.length).toNat).number = _
    rw [e1]
    rfl
  have open_ : ∀ r c : ℕ, r < y.length → c < x.length → (Extract.entry m r c).masked = false := by
    intro r c hr hc
    cases e : (Extract.entry m r c).masked with
    | false => rfl
    | true =>
      have := raw r c hr hc
      rw [number_none.2 e] at this
      cases this
  refine ⟨⟨hm.asc, hm.two, hm.two', hsh.1, hsh.2, hm.lon, hm.lat, fun _ _ => trivial, hm.row, fun r c hr hcc => ?_⟩, ?_⟩
  · have hv := hb.value r c hr hcc
    have hr' := raw r c hr hcc
    rw [ent r c hr hcc]
    show (if s.at (k0 + c) (j0 + r) = 0 then none else _) = _
    change (if s.at (k0 + c) (j0 + r) = 0 then none else some (s.at (k0 + c) (j0 + r), (0 : K))) = _ at hv
    unfold Fld.number at hv hr' ⊢
    rw [open_ r c hr hcc] at hr' ⊢
    simp only [Bool.false_or, Bool.false_eq_true, if_false] at hr' ⊢
    by_cases h0 : s.at (k0 + c) (j0 + r) = 0
    · rw [if_pos h0] at hv ⊢
      cases e : (Extract.entry b r c).masked with
      | true => rfl
      | false => rw [e] at hv; cases hv
    · rw [if_neg h0] at hv ⊢
      cases e : (Extract.entry b r c).masked with
      | true => rw [e] at hv; cases hv
      | false => exact hr'.symm
  · intro r c
    by_cases hin : r < y.length ∧ c < x.length
    · rw [ent r c hin.1 hin.2, open_ r c hin.1 hin.2]
      rfl
    · have o1 : Extract.entry b r c = ⟨0, 0, true⟩ := Staggered.entry_outside hb hin
      have o2 : Extract.entry (combine m b) r c = ⟨0, 0, true⟩ := by
        have hs' : Shows x y (combine m b) (⟨(waters s a).lon, (waters s a).lat, (waters s a).cols, (waters s a).rows,
          fun k j => (Extract.entry (combine m b) (j - j0).toNat (k - k0).toNat).number⟩ : Chart K) k0 j0 :=
          ⟨hb.asc, hb.two, hb.two', hsh.1, hsh.2, hb.lon, hb.lat, hb.col, hb.row, fun r c _ _ => by
            simp only [add_sub_cancel_left, Int.toNat_natCast]⟩
        exact Staggered.entry_outside hs' hin
      rw [o1, o2]

theorem waters_positive {s : Site K} {a : K} (h : ∀ k j, 0 ≤ s.at k j) : Positive (waters s a) := by
  intro k j z hz
  simp only [waters, sheet] at hz
  by_cases h0 : s.at k j = 0
  · rw [if_pos h0] at hz; cases hz
  · rw [if_neg h0] at hz
    cases hz
    exact lt_of_le_of_ne (h k j) (Ne.symm h0)

theorem sheet_round {s : Site K} {a : K} (h : Around s a) (value : ℤ → ℤ → Option (K × K))
    (hv : ∀ k j, value (k + s.lon.length) j = value k j) : (sheet s a value).Round s.lon.length := by
  have h3 := h.three
  have n0 : (0 : K) < (s.lon.length : K) := Nat.cast_pos.2 (by omega)
  have turn : (s.lon.length : K) * (360 / (s.lon.length : K)) = 360 := mul_div_cancel₀ _ n0.ne'
  refine ⟨fun _ => trivial, fun k => ?_, fun k j => ?_⟩
  · simp only [sheet]
    push_cast
    linear_combination turn
  · have e : s.at (k + s.lon.length) j = s.at k j := by simp only [Site.at, Int.add_emod_right]
    show (if s.at (k + s.lon.length) j = 0 then none else value (k + s.lon.length) j) = _
    rw [e, hv]
    rfl

theorem waters_round {s : Site K} {a : K} (h : Around s a) : (waters s a).Round s.lon.length :=
  sheet_round h _ fun k j => by simp only [Site.at, Int.add_emod_right]

theorem tides_round {s : Site K} {a : K} (h : Around s a) (hc : List (List (K × K))) :
    (tides s a hc).Round s.lon.length :=
  sheet_round h _ fun k j => by simp only [Int.add_emod_right]

theorem sheet_ordered {s : Site K} {a : K} (h : Around s a) (value : ℤ → ℤ → Option (K × K)) :
    (sheet s a value).Ordered := by
  have e := globe_ordered (h.global (m := plain s.depth) (shape_map _ h.shape)).toEven
  exact ⟨e.lon, e.lat, e.between_cols, e.between_rows⟩

theorem Agrees.turn {T H : Chart K} {n : ℕ} (hT : T.Round n) (hH : H.Round n) {m : Method} {speed : Bool} {scale : K}
    {x x' y : K} {o : Out K} (hx : SameMeridian 360 x x') (h : Agrees m speed scale T H (x', y) o) :
    Agrees m speed scale T H (x, y) o := by
  obtain ⟨k, hk⟩ := hx
  have e : x = x' + ((-k : ℤ) : K) * 360 := by rw [hk]; push_cast; ring
  rw [e]
  cases m with
  | spline => obtain ⟨v, w, hv, hw, ho⟩ := h; exact ⟨v, w, hv.turn hT (-k), hw.turn hH (-k), ho⟩
  | linear => obtain ⟨v, w, hv, hw, ho⟩ := h; exact ⟨v, w, hv.turn hT (-k), hw.turn hH (-k), ho⟩
  | bilinear =>
    obtain ⟨v, w, hv, hw, ho⟩ := h
    exact ⟨v, w, hv.imp (fun h => h.turn hT (-k)) (fun h => h.turn hT (-k)),
      hw.imp (fun h => h.turn hH (-k)) (fun h => h.turn hH (-k)), ho⟩

theorem sounds_unique {H : Chart K} (hH : H.Ordered) {m : Method} (hm : m ≠ .bilinear) {q : K × K} {d d' : Option K}
    (h : Sounds m H q d) (h' : Sounds m H q d') : d = d' := by
  cases m with
  | bilinear => exact absurd rfl hm
  | spline =>
    obtain ⟨w, hw, rfl⟩ := h
    obtain ⟨w', hw', rfl⟩ := h'
    rw [hw.unique hH hw']
  | linear =>
    obtain ⟨w, hw, rfl⟩ := h
    obtain ⟨w', hw', rfl⟩ := h'
    rw [hw.unique hH hw']

theorem Agrees.unique {T H : Chart K} (hT : T.Ordered) (hH : H.Ordered) {m : Method} (hm : m ≠ .bilinear)
    {speed : Bool} {scale : K} {q : K × K} {o o' : Out K} (h : Agrees m speed scale T H q o)
    (h' : Agrees m speed scale T H q o') : o = o' := by
  cases m with
  | bilinear => exact absurd rfl hm
  | spline =>
    obtain ⟨v, w, hv, hw, rfl⟩ := h
    obtain ⟨v', w', hv', hw', rfl⟩ := h'
    rw [hv.unique hT hv', hw.unique hH hw']
  | linear =>
    obtain ⟨v, w, hv, hw, rfl⟩ := h
    obtain ⟨v', w', hv', hw', rfl⟩ := h'
    rw [hv.unique hT hv', hw.unique hH hw']

/-! ## Axes -/

theorem crop_axes {α : Type} {zero : α} {m m' : List (List α)} {ix iy : List K} {a b c d e : K} {geo : Bool}
    {r r' : List (List α) × List K × List K} (h : Grid.crop zero m ix iy a b c d e geo = .ok r)
    (h' : Grid.crop zero m' ix iy a b c d e geo = .ok r') : r.2 = r'.2 := by
  have core : ∀ (m m' : List (List α)) (ix : List K) (r r' : List (List α) × List K × List K),
      cropCore m ix iy a b c d e = .ok r → cropCore m' ix iy a b c d e = .ok r' → r.2 = r'.2 := by
    intro m m' ix r r' h h'
    unfold cropCore at h h'
    cases h1 : cropSlice (flatnonzero iy (c - e) (d + e)) with
    | error _ => rw [h1] at h; cases h
    | ok rows =>
      rw [h1, ok_bind] at h h'
      cases h2 : cropSlice (flatnonzero ix (a - e) (b + e)) with
      | error _ => rw [h2] at h; cases h
      | ok cols =>
        rw [h2, ok_bind] at h h'
        cases h
        cases h'
        rfl
  have shifted : ∀ (x0 cyclic : K) (dir : Dir) (p p' : List (List α) × List K),
      shiftMatrix zero m ix x0 cyclic dir = .ok p → shiftMatrix zero m' ix x0 cyclic dir = .ok p' → p.2 = p'.2 := by
    intro x0 cyclic dir p p' h h'
    unfold shiftMatrix at h h'
    cases h1 : shift (0 : K) ix ix x0 cyclic dir with
    | error _ => rw [h1] at h; cases h
    | ok q =>
      rw [h1, ok_bind] at h h'
      cases h2 : pyMap (shiftRow zero ix x0 cyclic dir) m with
      | error _ => rw [h2] at h; cases h
      | ok q1 =>
        cases h3 : pyMap (shiftRow zero ix x0 cyclic dir) m' with
        | error _ => rw [h3] at h'; cases h'
        | ok q2 =>
          rw [h2, ok_bind] at h
          rw [h3, ok_bind] at h'
          cases h
          cases h'
          rfl
  have both : ∀ (x0 cyclic : K) (dir : Dir),
      (do let (m', ix') ← shiftMatrix zero m ix x0 cyclic dir
          cropCore m' ix' iy a b c d e) = .ok r →
      (do let (m', ix') ← shiftMatrix zero m' ix x0 cyclic dir
          cropCore m' ix' iy a b c d e) = .ok r' → r.2 = r'.2 := by
    intro x0 cyclic dir h h'
    cases h1 : shiftMatrix zero m ix x0 cyclic dir with
    | error _ => rw [h1] at h; cases h
    | ok q1 =>
      cases h2 : shiftMatrix zero m' ix x0 cyclic dir with
      | error _ => rw [h2] at h'; cases h'
      | ok q2 =>
        rw [h1, ok_bind] at h
        rw [h2, ok_bind] at h'
        have e := shifted _ _ _ _ _ h1 h2
        simp only at h h'
        rw [← e] at h'
        exact core _ _ _ _ _ h h'
  unfold Grid.crop at h h'
  split at h
  · rename_i lo hi e1 e2
    rw [e1, e2] at h'
    simp only at h'
    by_cases c1 : geo = true ∧ min a b < 0 ∧ hi > 180
    · rw [if_pos c1] at h h'
      exact both _ _ _ h h'
    · rw [if_neg c1] at h h'
      by_cases c2 : geo = true ∧ max a b > 180 ∧ lo < 0
      · rw [if_pos c2] at h h'
        exact both _ _ _ h h'
      · rw [if_neg c2] at h h'
        exact core _ _ _ _ _ h h'
  · cases h

theorem extended_axes {f : Fmt} {dlon : K} {x y : List K} {h h' : List (List (Fld K))} {g g' : Layer K}
    (e : extended f dlon ⟨x, y, h⟩ = .ok g) (e' : extended f dlon ⟨x, y, h'⟩ = .ok g') :
    g.lon = g'.lon ∧ g.lat = g'.lat := by
  unfold extended at e e'
  simp only at e e'
  split at e
  · rename_i a b h1 h2
    rw [h1, h2] at e'
    simp only at e'
    by_cases c : Interp.isclose (b - a) (360 - dlon) = true
    · rw [if_pos c] at e e'
      cases h3 : (if f.three then Grid.extendArray3 x dlon else Grid.extendArray x dlon) with
      | error _ => rw [h3] at e; cases e
      | ok l =>
        rw [h3, ok_bind] at e e'
        cases h4 : pyMap (fun r => if f.three then Grid.extendRow3 r else Grid.extendRow r) h with
        | error _ => rw [h4] at e; cases e
        | ok r1 =>
          cases h5 : pyMap (fun r => if f.three then Grid.extendRow3 r else Grid.extendRow r) h' with
          | error _ => rw [h5] at e'; cases e'
          | ok r2 =>
            rw [h4, ok_bind] at e
            rw [h5, ok_bind] at e'
            cases e
            cases e'
            exact ⟨rfl, rfl⟩
    · rw [if_neg c] at e e'
      cases e
      cases e'
      exact ⟨rfl, rfl⟩
  · cases e

theorem place_axes {r : Request K} {box : Box K} {dlon : K} {x y : List K} {h h' : List (List (Fld K))}
    {pts q q' : List (K × K)} {g g' : Layer K} (e : place r box dlon ⟨x, y, h⟩ pts = .ok (g, q))
    (e' : place r box dlon ⟨x, y, h'⟩ pts = .ok (g', q')) : g.lon = g'.lon ∧ g.lat = g'.lat := by
  unfold place at e e'
  by_cases c : r.crop = true ∧ box.any = true
  · rw [if_pos c] at e e'
    simp only at e e'
    cases h1 : Grid.crop (⟨0, 0, false⟩ : Fld K) h x y box.xmin box.xmax box.ymin box.ymax (r.bufferOr dlon) true with
    | error _ => rw [h1] at e; cases e
    | ok p =>
      cases h2 : Grid.crop (⟨0, 0, false⟩ : Fld K) h' x y box.xmin box.xmax box.ymin box.ymax (r.bufferOr dlon) true with
      | error _ => rw [h2] at e'; cases e'
      | ok p' =>
        have := crop_axes h1 h2
        rw [h1, ok_bind] at e
        rw [h2, ok_bind] at e'
        simp only [Except.ok.injEq, Prod.mk.injEq] at e e'
        rw [← e.1, ← e'.1]
        exact ⟨congrArg Prod.fst this, congrArg Prod.snd this⟩
  · rw [if_neg c] at e e'
    simp only at e e'
    split at e
    · rename_i lo hi h1 h2
      rw [h1, h2] at e'
      simp only at e'
      cases h3 : adjustGOT lo hi (pts.map Prod.fst) with
      | error _ => rw [h3] at e; cases e
      | ok l =>
        rw [h3, ok_bind] at e e'
        simp only [Except.ok.injEq, Prod.mk.injEq] at e e'
        rw [← e.1, ← e'.1]
        exact ⟨rfl, rfl⟩
    · cases e

/-- The matrices of two fields on the same axes begin in the same column and row. -/
theorem offsets {s : Site K} {a : K} (h : Around s a) {x y : List K} {m m' b b' : List (List (Fld K))} {k j k' j' : ℤ}
    (hs : Shows x y b (globe ⟨s.lon, s.lat, m⟩ a) k j) (hs' : Shows x y b' (globe ⟨s.lon, s.lat, m'⟩ a) k' j') :
    k = k' ∧ j = j' := by
  have h3 := h.three
  have two := hs.two
  have two' := hs.two'
  have n0 : (0 : K) < (s.lon.length : K) := Nat.cast_pos.2 (by omega)
  have d0 : (0 : K) < 360 / (s.lon.length : K) := div_pos (by norm_num) n0
  constructor
  · have e := (hs.lon 0 (by omega)).symm.trans (hs'.lon 0 (by omega))
    have e' : a + ((k + (0 : ℕ) : ℤ) : K) * (360 / (s.lon.length : K)) =
      a + ((k' + (0 : ℕ) : ℤ) : K) * (360 / (s.lon.length : K)) := e
    have := mul_right_cancel₀ d0.ne' (add_left_cancel e')
    have := Int.cast_injective (α := K) this
    omega
  · have e := (hs.lat 0 (by omega)).symm.trans (hs'.lat 0 (by omega))
    have r1 := hs.row 0 (by omega)
    have r2 := hs'.row 0 (by omega)
    have r1' : 0 ≤ j + (0 : ℕ) ∧ j + (0 : ℕ) < s.lat.length := r1
    have r2' : 0 ≤ j' + (0 : ℕ) ∧ j' + (0 : ℕ) < s.lat.length := r2
    have e' : s.lat.getD (j + (0 : ℕ)).toNat 0 = s.lat.getD (j' + (0 : ℕ)).toNat 0 := e
    have lt : ∀ p q : ℕ, p < q → q < s.lat.length → s.lat.getD p 0 < s.lat.getD q 0 := by
      intro p q h1 h2
      rw [List.getD_eq_getElem?_getD, List.getD_eq_getElem?_getD, List.getElem?_eq_getElem (by omega),
        List.getElem?_eq_getElem h2]
      exact List.pairwise_iff_getElem.1 h.lat p q (by omega) h2 h1
    rcases lt_trichotomy (j + (0 : ℕ)).toNat (j' + (0 : ℕ)).toNat with c | c | c
    · exact absurd e' (lt _ _ c (by omega)).ne
    · omega
    · exact absurd e' (lt _ _ c (by omega)).ne'

/-! ## The points -/

theorem sounding_inside {x y : List K} {hc bath : List (List (Fld K))} {T H : Chart K} {k0 j0 : ℤ}
    (hb : Shows x y bath H k0 j0) (m : Method) (pts : List (K × K))
    (far : ∀ c : ℕ, c < x.length → |x.getD c 0| ≤ 720)
    (hp : ∀ p ∈ pts, x.getD 0 0 ≤ p.1 ∧ p.1 ≤ x.getD (x.length - 1) 0 ∧ y.getD 0 0 ≤ p.2 ∧
      p.2 ≤ y.getD (y.length - 1) 0 ∧ (m = .bilinear → p.1 < x.getD (x.length - 1) 0 ∧
        y.getD 0 0 < p.2 ∧ p.2 < y.getD (y.length - 1) 0)) :
    ∃ ds, pyMap (sounding m x y bath) pts = .ok ds ∧ List.Forall₂ (Sounds m H) pts ds := by
  refine pyMap_rel fun p hpm => ?_
  obtain ⟨p1, p2, p3, p4, p5⟩ := hp p hpm
  obtain ⟨d, k, v, k', e1, -, hs, -⟩ := point hb hb (fun _ _ => rfl) m false false 1 p p1 p2 p3 p4 (fun _ => far) p5
    (by simp)
  refine ⟨_, ?_, hs⟩
  unfold sounding
  rw [e1, ok_bind]

theorem evaluate_inside {x y : List K} {hc bath : List (List (Fld K))} {T H : Chart K} {k0 j0 : ℤ}
    (ht : Shows x y hc T k0 j0) (hb : Shows x y bath H k0 j0) (same : SameMask hc bath) (r : Request K)
    (hn : ∀ x y hc q, r.near x y hc q = none) (stored speed : Bool) (pos : speed = true → Positive H)
    (pts : List (K × K)) (far : ∀ c : ℕ, c < x.length → |x.getD c 0| ≤ 720)
    (hp : ∀ p ∈ pts, x.getD 0 0 ≤ p.1 ∧ p.1 ≤ x.getD (x.length - 1) 0 ∧ y.getD 0 0 ≤ p.2 ∧
      p.2 ≤ y.getD (y.length - 1) 0 ∧ (r.method = .bilinear → p.1 < x.getD (x.length - 1) 0 ∧
        y.getD 0 0 < p.2 ∧ p.2 < y.getD (y.length - 1) 0)) :
    ∃ outs, evaluate r speed stored (fun _ => false) x y bath hc pts = .ok outs ∧
      List.Forall₂ (Agrees r.method speed r.scale T H) pts outs := by
  unfold evaluate
  refine pyMap_rel fun p hpm => ?_
  obtain ⟨p1, p2, p3, p4, p5⟩ := hp p hpm
  obtain ⟨d, k, v, k', e1, e2, -, ha⟩ := point ht hb same r.method stored speed r.scale p p1 p2 p3 p4 (fun _ => far) p5
    pos
  refine ⟨_, ?_, ha⟩
  rw [e1, ok_bind]
  simp only
  rw [e2, ok_bind]
  have hout : outside x y p = .ok false := by
    unfold outside
    rw [min?_increasing ht.asc.1 ht.two, max?_increasing ht.asc.1 ht.two, min?_increasing ht.asc.2 ht.two',
      max?_increasing ht.asc.2 ht.two']
    simp only [Except.ok.injEq, decide_eq_false_iff_not, not_or, not_lt]
    exact ⟨p1, p2, p3, p4⟩
  rw [hout, ok_bind]
  simp only [Bool.false_eq_true, if_false, hn]
  cases v <;> rfl

theorem fieldOf_eq {r : Request K} {box : Box K} {dlon : K} {s : Site K} {hc : List (List (K × K))}
    {pts q : List (K × K)} {g : Layer K} (e : place r box dlon ⟨s.lon, s.lat, numbers hc⟩ pts = .ok (g, q)) :
    fieldOf r box dlon s g.lon g.lat hc = (do
      let g' ← extended fes dlon g
      .ok g'.hc) := by
  unfold place at e
  unfold fieldOf
  by_cases c : r.crop = true ∧ box.any = true
  · rw [if_pos c] at e ⊢
    simp only at e
    cases h1 : Grid.crop (⟨0, 0, false⟩ : Fld K) (numbers hc) s.lon s.lat box.xmin box.xmax box.ymin box.ymax
        (r.bufferOr dlon) true with
    | error _ => rw [h1] at e; cases e
    | ok p =>
      rw [h1, ok_bind] at e
      rw [ok_bind]
      simp only [Except.ok.injEq, Prod.mk.injEq] at e
      rw [← e.1]
      rfl
  · rw [if_neg c] at e ⊢
    simp only at e
    split at e
    · rename_i lo hi h1 h2
      cases h3 : adjustGOT lo hi (pts.map Prod.fst) with
      | error _ => rw [h3] at e; cases e
      | ok l =>
        rw [h3, ok_bind] at e
        simp only [Except.ok.injEq, Prod.mk.injEq] at e
        rw [← e.1]
        rfl
    · cases e

/-- Extraction, given how the grid is cropped and extended. -/
theorem extract_window {s : Site K} {a : K} (h : Around s a) (r : Request K)
    (hn : ∀ x y hc q, r.near x y hc q = none) (speed : Bool) (pos : speed = true → ∀ k j, 0 ≤ s.at k j)
    (fields : List (List (List (K × K)))) (sh : ∀ hc ∈ fields, CGrid.Shape hc s.lat.length s.lon.length)
    (pts pts' : List (K × K))
    (hrel : List.Forall₂ (fun p q : K × K => SameMeridian 360 p.1 q.1 ∧ p.2 = q.2) pts pts') (box : Box K)
    (hbox : r.boundsOr pts = .ok box)
    (win : ∀ m : List (List (Fld K)), CGrid.Shape m s.lat.length s.lon.length →
      ∃ (g₁ g' : Layer K) (k1 j1 : ℤ), place r box (360 / (s.lon.length : K)) ⟨s.lon, s.lat, m⟩ pts = .ok (g₁, pts') ∧
      extended fes (360 / (s.lon.length : K)) g₁ = .ok g' ∧
      Shows g'.lon g'.lat g'.hc (globe ⟨s.lon, s.lat, m⟩ a) k1 j1 ∧
      (∀ c : ℕ, c < g'.lon.length → |g'.lon.getD c 0| ≤ 720) ∧
      ∀ p ∈ pts', g'.lon.getD 0 0 ≤ p.1 ∧ p.1 ≤ g'.lon.getD (g'.lon.length - 1) 0 ∧ g'.lat.getD 0 0 ≤ p.2 ∧
        p.2 ≤ g'.lat.getD (g'.lat.length - 1) 0 ∧ (r.method = .bilinear →
          p.1 < g'.lon.getD (g'.lon.length - 1) 0 ∧ g'.lat.getD 0 0 < p.2 ∧
          p.2 < g'.lat.getD (g'.lat.length - 1) 0)) :
    ∃ ds outs, extract r speed s fields pts = .ok (ds, outs) ∧
      List.Forall₂ (Sounds r.method (waters s a)) pts ds ∧
      List.Forall₂ (fun hc row => List.Forall₂ (Agrees r.method speed r.scale (tides s a hc) (waters s a)) pts row)
        fields outs := by
  obtain ⟨g₁, g', k1, j1, e1, e2, hs, far, hin⟩ := win (plain s.depth) (shape_map _ h.shape)
  have hb := remask_shows h hs
  have hstep : step fes s.lon = .ok (360 / (s.lon.length : K)) :=
    (h.global (m := plain s.depth) (shape_map _ h.shape)).step fes
  obtain ⟨ds, ed, hd⟩ := sounding_inside (hc := g'.hc) (T := waters s a) hb r.method pts' far hin
  have hrows : ∃ outs, pyMap (fun hc => do
      let h ← fieldOf r box (360 / (s.lon.length : K)) s g₁.lon g₁.lat hc
      evaluate r speed false (fun _ => false) g'.lon g'.lat (remask g'.hc) (combine h (remask g'.hc)) pts') fields = .ok outs ∧
      List.Forall₂ (fun hc row => List.Forall₂ (Agrees r.method speed r.scale (tides s a hc) (waters s a)) pts' row)
        fields outs := by
    refine pyMap_rel fun hc hmem => ?_
    obtain ⟨g₂, g'', k2, j2, f1, f2, hs', -, -⟩ := win (numbers hc) (shape_map _ (sh hc hmem))
    obtain ⟨a1, a2⟩ := place_axes e1 f1
    have ax := extended_axes (x := g₁.lon) (y := g₁.lat) (h := g₁.hc) (h' := g₂.hc) e2 (by rw [a1, a2]; exact f2)
    rw [← ax.1, ← ax.2] at hs'
    obtain ⟨rfl, rfl⟩ := offsets h hs hs'
    obtain ⟨ht, same⟩ := combine_shows h (sh hc hmem) hs' hb
    obtain ⟨outs, eo, ho⟩ := evaluate_inside ht hb same r hn false speed (fun e => waters_positive (pos e)) pts' far hin
    refine ⟨outs, ?_, ho⟩
    rw [a1, a2, fieldOf_eq f1, f2, ok_bind, ok_bind, eo]
  obtain ⟨outs, eo, ho⟩ := hrows
  refine ⟨ds, outs, ?_, ?_, ?_⟩
  · unfold extract
    rw [hbox, ok_bind, hstep, ok_bind, e1, ok_bind]
    simp only
    rw [e2, ok_bind, ed, ok_bind, eo, ok_bind]
  · refine forall₂_trans hrel hd ?_
    rintro ⟨p1, p2⟩ ⟨q1, q2⟩ d ⟨s1, s2⟩ hm
    simp only at s1 s2
    subst s2
    exact Staggered.Sounds.turn (waters_round h) s1 hm
  · refine ho.imp fun hc row hrow => forall₂_trans hrel hrow ?_
    rintro ⟨p1, p2⟩ ⟨q1, q2⟩ d ⟨s1, s2⟩ hm
    simp only at s1 s2
    subst s2
    exact Agrees.turn (tides_round h hc) (waters_round h) s1 hm

/-- A place a user asks for: see `Extract.Place`. -/
def Spot (m : Method) (s : Site K) (p : K × K) : Prop := Place m (⟨s.lon, s.lat, []⟩ : Layer K) p

theorem Spot.place {m : Method} {s : Site K} {p : K × K} (h : Spot m s p) (hc : List (List (Fld K))) :
    Place m (⟨s.lon, s.lat, hc⟩ : Layer K) p := ⟨h.1, h.2, h.3, h.4, h.5⟩

theorem bounds_ok (r : Request K) (pts : List (K × K)) (hne : pts ≠ []) : ∃ box, r.boundsOr pts = .ok box := by
  obtain ⟨mn, h1, -⟩ := exists_min (pts.map Prod.fst) (by simpa using hne)
  obtain ⟨mx, h2, -⟩ := exists_max (pts.map Prod.fst) (by simpa using hne)
  obtain ⟨nn, h3, -⟩ := exists_min (pts.map Prod.snd) (by simpa using hne)
  obtain ⟨nx, h4, -⟩ := exists_max (pts.map Prod.snd) (by simpa using hne)
  refine ⟨r.bounds.getD ⟨mn, mx, nn, nx⟩, ?_⟩
  unfold Request.boundsOr
  rw [h1, h2, h3, h4]

/-- C75: depths and harmonic constants of a global ATLAS model.  Whatever the convention of longitude of
the model and the batch of points, every point gets the interpolated depth and the interpolated constant,
which is masked where the depth is, and velocities are transports divided by the depth.  Not covered:
extrapolation, see `C75_extrapolated_false`. -/
theorem C75_global {s : Site K} {a : K} (h : Around s a) (r : Request K) (hr : r.crop = false)
    (hn : ∀ x y hc q, r.near x y hc q = none) (speed : Bool) (pos : speed = true → ∀ k j, 0 ≤ s.at k j)
    (fields : List (List (List (K × K)))) (sh : ∀ hc ∈ fields, CGrid.Shape hc s.lat.length s.lon.length)
    (pts : List (K × K)) (hne : pts ≠ []) (hp : ∀ p ∈ pts, Spot r.method s p) :
    ∃ ds outs, extract r speed s fields pts = .ok (ds, outs) ∧
      List.Forall₂ (Sounds r.method (waters s a)) pts ds ∧
      List.Forall₂ (fun hc row => List.Forall₂ (Agrees r.method speed r.scale (tides s a hc) (waters s a)) pts row)
        fields outs := by
  obtain ⟨box, hbox⟩ := bounds_ok r pts hne
  refine extract_window h r hn speed pos fields sh pts (pts.map (suit a)) ?_ box hbox ?_
  · rw [List.forall₂_map_right_iff]
    exact List.forall₂_same.2 fun p _ => ⟨suit_same a p, rfl⟩
  · intro m hm
    have G := h.global hm
    obtain ⟨g', e, h1, h2, h3⟩ := extended_shows G.toEven fes
    obtain ⟨x0, -, x2, x3⟩ := extended_range G fes
    rw [← h1] at x0 x2 x3
    refine ⟨_, g', -1, 0, place_suit G r hr box _ pts hne, e, h3, x3, ?_⟩
    intro q hq
    obtain ⟨p, hpm, rfl⟩ := List.mem_map.1 hq
    obtain ⟨r1, r2, r3, r4⟩ := suit_range G ((hp p hpm).place m)
    rw [x0, x2 rfl, h2]
    exact ⟨r2, r3, r1.south, r1.north, fun e => ⟨r4 e, (r1.strict e).2.2.2.1, (r1.strict e).2.2.2.2⟩⟩

theorem box_any {pts : List (K × K)} (h0 : ∃ p ∈ pts, p ≠ (0, 0)) : ∃ box : Box K, box.any = true ∧
    (pts.map Prod.fst).min? = some box.xmin ∧ (pts.map Prod.fst).max? = some box.xmax ∧
    (pts.map Prod.snd).min? = some box.ymin ∧ (pts.map Prod.snd).max? = some box.ymax := by
  obtain ⟨p0, hp0, hne0⟩ := h0
  have hne : pts ≠ [] := List.ne_nil_of_mem hp0
  obtain ⟨x0, ex0, -, lx0⟩ := exists_min (pts.map Prod.fst) (by simpa using hne)
  obtain ⟨x1, ex1, -, lx1⟩ := exists_max (pts.map Prod.fst) (by simpa using hne)
  obtain ⟨y0, ey0, -, ly0⟩ := exists_min (pts.map Prod.snd) (by simpa using hne)
  obtain ⟨y1, ey1, -, ly1⟩ := exists_max (pts.map Prod.snd) (by simpa using hne)
  refine ⟨⟨x0, x1, y0, y1⟩, ?_, ex0, ex1, ey0, ey1⟩
  unfold Box.any
  by_contra hcon
  simp only [Bool.not_eq_true, Bool.not_eq_false', Bool.and_eq_true, decide_eq_true_eq] at hcon
  obtain ⟨⟨⟨c1, c2⟩, c3⟩, c4⟩ := hcon
  have m1 : p0.1 ∈ pts.map Prod.fst := List.mem_map.2 ⟨p0, hp0, rfl⟩
  have m2 : p0.2 ∈ pts.map Prod.snd := List.mem_map.2 ⟨p0, hp0, rfl⟩
  refine hne0 (Prod.ext ?_ ?_)
  · have := lx0 p0.1 m1
    have := lx1 p0.1 m1
    show p0.1 = 0
    linarith
  · have := ly0 p0.2 m2
    have := ly1 p0.2 m2
    show p0.2 = 0
    linarith

/-- C75: the same with cropping, if no point lies where the cropped grids are cut (`Extract.Within`).
Missing for the full claim: the other points, see `C72_seam_false` and `C72_mixed_false`. -/
theorem C75_cropped_partial {s : Site K} {a : K} (h : Around s a) (h4 : 4 ≤ s.lon.length)
    (h5 : s.lon.length ≤ 10 ^ 5) (r : Request K) (hr : r.crop = true) (hb : r.bounds = none)
    (hc : r.Covers (⟨s.lon, s.lat, []⟩ : Layer K))
    (hn : ∀ x y hc q, r.near x y hc q = none) (speed : Bool) (pos : speed = true → ∀ k j, 0 ≤ s.at k j)
    (fields : List (List (List (K × K)))) (sh : ∀ hc ∈ fields, CGrid.Shape hc s.lat.length s.lon.length)
    (pts : List (K × K)) (h0 : ∃ p ∈ pts, p ≠ (0, 0)) (hw : Within (⟨s.lon, s.lat, []⟩ : Layer K) a pts)
    (hp : ∀ p ∈ pts, Spot r.method s p) :
    ∃ ds outs, extract r speed s fields pts = .ok (ds, outs) ∧
      List.Forall₂ (Sounds r.method (waters s a)) pts ds ∧
      List.Forall₂ (fun hc row => List.Forall₂ (Agrees r.method speed r.scale (tides s a hc) (waters s a)) pts row)
        fields outs := by
  obtain ⟨box, hany, b1, b2, b3, b4⟩ := box_any h0
  refine extract_window h r hn speed pos fields sh pts pts ?_ box ?_ ?_
  · exact List.forall₂_same.2 fun p _ => ⟨⟨0, by simp⟩, rfl⟩
  · unfold Request.boundsOr
    rw [b1, b2, b3, b4, hb]
    rfl
  · intro m hm
    exact cropped_window (h.global hm) fes r hr h4 h5 pts hw hc box hany b1 b2 b3 b4 fun p hpm =>
      ⟨(hp p hpm).south, (hp p hpm).north, fun e => ⟨((hp p hpm).strict e).2.2.2.1, ((hp p hpm).strict e).2.2.2.2⟩⟩

/-- C75: with the methods `'spline'` and `'linear'` cropping then changes nothing. -/
theorem C75_same_partial {s : Site K} {a : K} (h : Around s a) (h4 : 4 ≤ s.lon.length)
    (h5 : s.lon.length ≤ 10 ^ 5) (r : Request K) (hm : r.method ≠ .bilinear) (hr : r.crop = true)
    (hb : r.bounds = none) (hc : r.Covers (⟨s.lon, s.lat, []⟩ : Layer K))
    (hn : ∀ x y hc q, r.near x y hc q = none) (speed : Bool) (pos : speed = true → ∀ k j, 0 ≤ s.at k j)
    (fields : List (List (List (K × K)))) (sh : ∀ hc ∈ fields, CGrid.Shape hc s.lat.length s.lon.length)
    (pts : List (K × K)) (h0 : ∃ p ∈ pts, p ≠ (0, 0)) (hw : Within (⟨s.lon, s.lat, []⟩ : Layer K) a pts)
    (hp : ∀ p ∈ pts, Spot r.method s p) :
    ∃ out, extract r speed s fields pts = .ok out ∧ extract { r with crop := false } speed s fields pts = .ok out := by
  obtain ⟨ds, outs, e, h1, h2⟩ := C75_cropped_partial h h4 h5 r hr hb hc hn speed pos fields sh pts h0 hw hp
  obtain ⟨p0, hp0, -⟩ := h0
  obtain ⟨ds', outs', e', h1', h2'⟩ := C75_global h { r with crop := false } rfl hn speed pos fields sh pts
    (List.ne_nil_of_mem hp0) hp
  refine ⟨_, e, ?_⟩
  rw [e', forall₂_unique h1' h1 fun p d d' x y => sounds_unique (sheet_ordered h _) hm x y,
    forall₂_unique h2' h2 fun hc row row' x y => forall₂_unique x y fun p o o' x y =>
      Agrees.unique (sheet_ordered h _) (sheet_ordered h _) hm x y]

/-! ## Objects -/

/-- An object read from a global model, whatever it was used for before. -/
structure Holds (s : Site K) (a : K) (fields : List (List (List (K × K)))) (o : Stored K) : Prop where
  lon : o.lon = uniform (a - 360 / (s.lon.length : K)) (360 / (s.lon.length : K)) (s.lon.length + 2)
  lat : o.lat = s.lat
  bath : Shows o.lon o.lat o.bath (waters s a) (-1) 0
  fields : List.Forall₂ (fun hc m => Shows o.lon o.lat m (tides s a hc) (-1) 0 ∧ SameMask m o.bath) fields o.fields

theorem read_holds {s : Site K} {a : K} (h : Around s a) (fields : List (List (List (K × K))))
    (sh : ∀ hc ∈ fields, CGrid.Shape hc s.lat.length s.lon.length) :
    ∃ o, read none s fields = .ok o ∧ Holds s a fields o ∧ o.spoiled = false := by
  have G : Global (⟨s.lon, s.lat, depths s.depth⟩ : Layer K) a := h.global (shape_map _ h.shape)
  obtain ⟨g', e, h1, h2, h3⟩ := extended_shows G.toEven fes
  have hb := depths_shows h h3
  have hstep : step fes s.lon = .ok (360 / (s.lon.length : K)) := G.step fes
  have hrows : ∃ hcs, pyMap (fun hc => do
      let h ← (.ok ⟨s.lon, s.lat, numbers hc⟩ : Except PyErr (Layer K))
      let h ← extended fes (360 / (s.lon.length : K)) ⟨s.lon, s.lat, h.hc⟩
      .ok (combine h.hc g'.hc)) fields = .ok hcs ∧
      List.Forall₂ (fun hc m => Shows g'.lon g'.lat m (tides s a hc) (-1) 0 ∧ SameMask m g'.hc) fields hcs := by
    refine pyMap_rel fun hc hmem => ?_
    have G' : Global (⟨s.lon, s.lat, numbers hc⟩ : Layer K) a := h.global (shape_map _ (sh hc hmem))
    obtain ⟨g'', e', h1', h2', h3'⟩ := extended_shows G'.toEven fes
    have ax := extended_axes e e'
    rw [← ax.1, ← ax.2] at h3'
    refine ⟨_, ?_, combine_shows h (sh hc hmem) h3' hb⟩
    rw [ok_bind]
    simp only at e' ⊢
    rw [e', ok_bind]
  obtain ⟨hcs, eh, hh⟩ := hrows
  refine ⟨⟨g'.lon, g'.lat, g'.hc, false, hcs⟩, ?_, ⟨h1, h2, hb, hh⟩, rfl⟩
  unfold read
  simp only
  rw [ok_bind]
  simp only
  rw [hstep, ok_bind]
  simp only at e
  rw [e, ok_bind, eh, ok_bind]

/-- The batch suits the object: see `Extract.Fits`. -/
def Fits (s : Site K) (a : K) (pts : List (K × K)) : Prop := Extract.Fits fes (⟨s.lon, s.lat, []⟩ : Layer K) a pts

theorem Holds.fresh {s : Site K} {a : K} (h : Around s a) {fields : List (List (List (K × K)))} {o : Stored K}
    (ho : Holds s a fields o) (spread : List K → List K → List (List (Fld K)) → K × K → Bool) (r : Request K)
    (hn : ∀ x y hc q, r.near x y hc q = none) (speed : Bool) (pos : speed = true → ∀ k j, 0 ≤ s.at k j)
    (quiet : ∀ q, o.nan spread r.method q = false)
    (pts : List (K × K)) (hne : pts ≠ []) (hp : ∀ p ∈ pts, Spot r.method s p) (hf : Fits s a pts) :
    ∃ ds outs o', interpolate spread r speed o pts = .ok ((ds.map (Option.map some), outs), o') ∧
      List.Forall₂ (Sounds r.method (waters s a)) pts ds ∧
      List.Forall₂ (fun hc row => List.Forall₂ (Agrees r.method speed r.scale (tides s a hc) (waters s a)) pts row)
        fields outs := by
  have G : Global (⟨s.lon, s.lat, depths s.depth⟩ : Layer K) a := h.global (shape_map _ h.shape)
  obtain ⟨x0, x1, x2, x3⟩ := extended_range G fes
  have hx : o.lon = uniform (a - 360 / ((⟨s.lon, s.lat, depths s.depth⟩ : Layer K).lon.length : K))
    (360 / ((⟨s.lon, s.lat, depths s.depth⟩ : Layer K).lon.length : K))
    ((⟨s.lon, s.lat, depths s.depth⟩ : Layer K).lon.length + fes.extra) := ho.lon
  rw [← hx] at x0 x1 x2 x3
  have zipped : ((pts.map (suit a)).map Prod.fst).zip (pts.map Prod.snd) = pts.map (suit a) := by
    rw [List.map_map, List.zip_map']
    exact List.map_congr_left fun p _ => rfl
  have adj := stored_adjust G fes pts hne hf _ x1 x2
  have hin : ∀ p ∈ pts.map (suit a), o.lon.getD 0 0 ≤ p.1 ∧ p.1 ≤ o.lon.getD (o.lon.length - 1) 0 ∧
      o.lat.getD 0 0 ≤ p.2 ∧ p.2 ≤ o.lat.getD (o.lat.length - 1) 0 ∧ (r.method = .bilinear →
        p.1 < o.lon.getD (o.lon.length - 1) 0 ∧ o.lat.getD 0 0 < p.2 ∧ p.2 < o.lat.getD (o.lat.length - 1) 0) := by
    intro q hq
    obtain ⟨p, hpm, rfl⟩ := List.mem_map.1 hq
    obtain ⟨r1, r2, r3, r4⟩ := suit_range G ((hp p hpm).place (depths s.depth))
    rw [x0, x2 rfl, ho.lat]
    exact ⟨r2, r3, r1.south, r1.north, fun e => ⟨r4 e, (r1.strict e).2.2.2.1, (r1.strict e).2.2.2.2⟩⟩
  have hnan : o.nan spread r.method = fun _ => false := funext quiet
  have hd : ∃ ds, pyMap (fun q => do
      let d ← sounding r.method o.lon o.lat o.bath q
      .ok (level false d)) (pts.map (suit a)) = .ok (ds.map (Option.map some)) ∧
      List.Forall₂ (Sounds r.method (waters s a)) (pts.map (suit a)) ds := by
    obtain ⟨ds, ed, hd⟩ := sounding_inside (hc := o.bath) (T := waters s a) ho.bath r.method (pts.map (suit a)) x3 hin
    refine ⟨ds, ?_, hd⟩
    clear hd
    generalize pts.map (suit a) = l at ed
    induction l generalizing ds with
    | nil => cases ed; rfl
    | cons p l ih =>
      simp only [pyMap] at ed ⊢
      cases h1 : sounding r.method o.lon o.lat o.bath p with
      | error _ => rw [h1] at ed; cases ed
      | ok d =>
        rw [h1] at ed
        cases h2 : pyMap (sounding r.method o.lon o.lat o.bath) l with
        | error _ => rw [h2] at ed; cases ed
        | ok rest =>
          rw [h2] at ed
          cases ed
          rw [ih rest h2, ok_bind]
          cases d <;> rfl
  obtain ⟨ds, ed, hd⟩ := hd
  have hrows : ∃ outs, pyMap (fun hc => evaluate r speed true (fun _ => false) o.lon o.lat o.bath hc
      (pts.map (suit a))) o.fields = .ok outs ∧
      List.Forall₂ (fun hc row => List.Forall₂ (Agrees r.method speed r.scale (tides s a hc) (waters s a))
        (pts.map (suit a)) row) fields outs := by
    have hbath := ho.bath
    have hfields := ho.fields
    clear ho
    generalize o.fields = ms at hfields
    induction hfields with
    | nil => exact ⟨[], rfl, .nil⟩
    | cons x _ ih =>
      obtain ⟨rest, e1, h1⟩ := ih
      obtain ⟨row, e2, h2⟩ := evaluate_inside x.1 hbath x.2 r hn true speed (fun e => waters_positive (pos e))
        (pts.map (suit a)) x3 hin
      exact ⟨row :: rest, by rw [pyMap, e2, e1], .cons h2 h1⟩
  obtain ⟨outs, eo, hout⟩ := hrows
  refine ⟨ds, outs, { o with spoiled := o.spoiled || decide (r.method = .bilinear) }, ?_, ?_, ?_⟩
  · unfold interpolate
    rw [min?_increasing ho.bath.asc.1 ho.bath.two, max?_increasing ho.bath.asc.1 ho.bath.two]
    simp only
    rw [x0, adj, ok_bind, zipped, hnan]
    simp only
    rw [ed, ok_bind, eo, ok_bind]
  · rw [List.forall₂_map_left_iff] at hd
    exact hd.imp fun p d hm => Staggered.Sounds.turn (waters_round h) (suit_same a p) hm
  · refine hout.imp fun hc row hrow => ?_
    rw [List.forall₂_map_left_iff] at hrow
    exact hrow.imp fun p d hm => Agrees.turn (tides_round h hc) (waters_round h) (suit_same a p) hm

/-- One use of an object: the request, whether it is for velocities, and the points. -/
structure Use (K : Type) where
  request : Request K
  speed : Bool
  pts : List (K × K)

/-- The object after a number of uses. -/
def after (spread : List K → List K → List (List (Fld K)) → K × K → Bool) :
    Stored K → List (Use K) → Except PyErr (Stored K)
  | o, [] => .ok o
  | o, u :: us => do
    let (_, o) ← interpolate spread u.request u.speed o u.pts
    after spread o us

theorem interpolate_keeps {spread : List K → List K → List (List (Fld K)) → K × K → Bool} {r : Request K}
    {speed : Bool} {o o' : Stored K} {pts : List (K × K)} {out : List (Option (Option K)) × List (List (Out K))}
    (e : interpolate spread r speed o pts = .ok (out, o')) :
    o' = { o with spoiled := o.spoiled || decide (r.method = .bilinear) } := by
  unfold interpolate at e
  split at e
  · rename_i lo hi h1 h2
    cases h3 : adjustGOT lo hi (pts.map Prod.fst) with
    | error _ => rw [h3] at e; cases e
    | ok l =>
      rw [h3, ok_bind] at e
      simp only at e
      cases h4 : pyMap (fun q => do
          let d ← sounding r.method o.lon o.lat o.bath q
          .ok (level (o.nan spread r.method q) d)) (l.zip (pts.map Prod.snd)) with
      | error _ => rw [h4] at e; cases e
      | ok d =>
        rw [h4, ok_bind] at e
        cases h5 : pyMap (fun hc => evaluate r speed true (o.nan spread r.method) o.lon o.lat o.bath hc
            (l.zip (pts.map Prod.snd))) o.fields with
        | error _ => rw [h5] at e; cases e
        | ok outs =>
          rw [h5, ok_bind] at e
          cases e
          rfl
  · cases e

theorem after_keeps (spread : List K → List K → List (List (Fld K)) → K × K → Bool) (us : List (Use K)) :
    ∀ {o o' : Stored K}, after spread o us = .ok o' → ∃ b, o' = { o with spoiled := b } ∧
      ((∀ u ∈ us, u.request.method ≠ .bilinear) → b = o.spoiled) := by
  induction us with
  | nil =>
    intro o o' e
    cases e
    exact ⟨o.spoiled, rfl, fun _ => rfl⟩
  | cons u us ih =>
    intro o o' e
    unfold after at e
    cases h1 : interpolate spread u.request u.speed o u.pts with
    | error _ => rw [h1] at e; cases e
    | ok p =>
      rw [h1, ok_bind] at e
      obtain ⟨out, o1⟩ := p
      simp only at e
      obtain ⟨b, hb, hq⟩ := ih e
      have k := interpolate_keeps h1
      refine ⟨b, by rw [hb, k], fun hu => ?_⟩
      rw [hq fun v hv => hu v (by simp [hv]), k]
      have := hu u (by simp)
      simp [this]

/-- C76: an object read from a global ATLAS model gives, at any batch of points that suits it, what the
files say, after any number of uses of the object before, as long as none of these used the method
`'bilinear'` or as this one does.  Missing for the full claim: the other batches, see `C76_batch_false`,
and the other histories, see `C76_history_false`. -/
theorem C76_stored_partial {s : Site K} {a : K} (h : Around s a) (fields : List (List (List (K × K))))
    (sh : ∀ hc ∈ fields, CGrid.Shape hc s.lat.length s.lon.length)
    (spread : List K → List K → List (List (Fld K)) → K × K → Bool) (us : List (Use K))
    (r : Request K) (hn : ∀ x y hc q, r.near x y hc q = none) (speed : Bool)
    (pos : speed = true → ∀ k j, 0 ≤ s.at k j)
    (hist : r.method = .bilinear ∨ ∀ u ∈ us, u.request.method ≠ .bilinear)
    (pts : List (K × K)) (hne : pts ≠ []) (hp : ∀ p ∈ pts, Spot r.method s p) (hf : Fits s a pts) :
    ∃ o, read none s fields = .ok o ∧ ∀ o1, after spread o us = .ok o1 →
      ∃ ds outs o2, interpolate spread r speed o1 pts = .ok ((ds.map (Option.map some), outs), o2) ∧
        List.Forall₂ (Sounds r.method (waters s a)) pts ds ∧
        List.Forall₂ (fun hc row => List.Forall₂ (Agrees r.method speed r.scale (tides s a hc) (waters s a)) pts row)
          fields outs := by
  obtain ⟨o, e, ho, hq⟩ := read_holds h fields sh
  refine ⟨o, e, fun o1 e1 => ?_⟩
  obtain ⟨b, rfl, hb⟩ := after_keeps spread us e1
  refine Holds.fresh (o := { o with spoiled := b }) h ⟨ho.lon, ho.lat, ho.bath, ho.fields⟩ spread r hn speed pos ?_ pts hne hp hf
  intro q
  unfold Stored.nan
  rcases hist with hm | hu
  · rw [hm]
    simp
  · simp [hb hu, hq]

/-- C76: with the methods `'spline'` and `'linear'` these are the depths and constants that extraction
gives. -/
theorem C76_same_partial {s : Site K} {a : K} (h : Around s a) (fields : List (List (List (K × K))))
    (sh : ∀ hc ∈ fields, CGrid.Shape hc s.lat.length s.lon.length)
    (spread : List K → List K → List (List (Fld K)) → K × K → Bool)
    (r : Request K) (hm : r.method ≠ .bilinear) (hr : r.crop = false) (hn : ∀ x y hc q, r.near x y hc q = none)
    (speed : Bool) (pos : speed = true → ∀ k j, 0 ≤ s.at k j)
    (pts : List (K × K)) (hne : pts ≠ []) (hp : ∀ p ∈ pts, Spot r.method s p) (hf : Fits s a pts) :
    ∃ o ds outs o', read none s fields = .ok o ∧
      interpolate spread r speed o pts = .ok ((ds.map (Option.map some), outs), o') ∧
      extract r speed s fields pts = .ok (ds, outs) := by
  obtain ⟨o, e, key⟩ := C76_stored_partial h fields sh spread [] r hn speed pos (Or.inr (by simp)) pts hne hp hf
  obtain ⟨ds, outs, o', e2, h1, h2⟩ := key o rfl
  obtain ⟨ds', outs', e', h1', h2'⟩ := C75_global h r hr hn speed pos fields sh pts hne hp
  refine ⟨o, ds, outs, o', e, e2, ?_⟩
  rw [e', forall₂_unique h1' h1 fun p d d' x y => sounds_unique (sheet_ordered h _) hm x y,
    forall₂_unique h2' h2 fun hc row row' x y => forall₂_unique x y fun p o o' x y =>
      Agrees.unique (sheet_ordered h _) (sheet_ordered h _) hm x y]

theorem evaluate_nan' (r : Request K) (stored : Bool) (nan nan' : K × K → Bool) (x y : List K)
    (bath : List (List (Fld K))) (pts : List (K × K)) (l : List (List (List (Fld K)))) :
    pyMap (fun hc => evaluate r false stored nan x y bath hc pts) l =
      pyMap (fun hc => evaluate r false stored nan' x y bath hc pts) l := rfl

/-- C76: the elevations and transports that an object gives never depend on what it was used for before,
nor do the velocities with the method `'bilinear'`. -/
theorem C76_history_partial (spread : List K → List K → List (List (Fld K)) → K × K → Bool) (o o1 : Stored K)
    (us : List (Use K)) (e : after spread o us = .ok o1) (r : Request K) (speed : Bool)
    (hs : speed = false ∨ r.method = .bilinear) (pts : List (K × K)) :
    (interpolate spread r speed o1 pts).map (fun z => z.1.2) = (interpolate spread r speed o pts).map (fun z => z.1.2) := by
  obtain ⟨b, rfl, -⟩ := after_keeps spread us e
  have hd : ∀ (nan nan' : K × K → Bool) (l : List (K × K)), (pyMap (fun q => do
      let d ← sounding r.method o.lon o.lat o.bath q
      .ok (level (nan q) d)) l).map (fun _ => ()) = (pyMap (fun q => do
      let d ← sounding r.method o.lon o.lat o.bath q
      .ok (level (nan' q) d)) l).map (fun _ => ()) := by
    intro nan nan' l
    induction l with
    | nil => rfl
    | cons p l ih =>
      simp only [pyMap]
      cases h1 : sounding r.method o.lon o.lat o.bath p with
      | error _ => rfl
      | ok d =>
        simp only [ok_bind]
        cases h2 : pyMap (fun q => do
            let d ← sounding r.method o.lon o.lat o.bath q
            .ok (level (nan q) d)) l <;>
          cases h3 : pyMap (fun q => do
            let d ← sounding r.method o.lon o.lat o.bath q
            .ok (level (nan' q) d)) l <;> rw [h2, h3] at ih
        · exact ih
        · cases ih
        · cases ih
        · rfl
  unfold interpolate
  simp only
  cases h1 : o.lon.min? with
  | none => rfl
  | some lo =>
    cases h2 : o.lon.max? with
    | none => rfl
    | some hi =>
      simp only
      cases h3 : adjustGOT lo hi (pts.map Prod.fst) with
      | error _ => rfl
      | ok l =>
        simp only [ok_bind]
        rcases hs with rfl | hm
        · have := hd (({ o with spoiled := b } : Stored K).nan spread r.method) (o.nan spread r.method)
            (l.zip (pts.map Prod.snd))
          cases h4 : pyMap (fun q => do
              let d ← sounding r.method o.lon o.lat o.bath q
              .ok (level (({ o with spoiled := b } : Stored K).nan spread r.method q) d))
              (l.zip (pts.map Prod.snd)) <;>
            cases h5 : pyMap (fun q => do
              let d ← sounding r.method o.lon o.lat o.bath q
              .ok (level (o.nan spread r.method q) d)) (l.zip (pts.map Prod.snd)) <;> rw [h4, h5] at this
          · cases this; rfl
          · cases this
          · cases this
          · simp only [ok_bind]
            rw [evaluate_nan' r true _ (o.nan spread r.method)]
            cases pyMap (fun hc => evaluate r false true (o.nan spread r.method) o.lon o.lat o.bath hc
              (l.zip (pts.map Prod.snd))) o.fields <;> rfl
        · have q1 : ({ o with spoiled := b } : Stored K).nan spread r.method = fun _ => false := by
            funext q; unfold Stored.nan; rw [hm]; simp
          have q2 : o.nan spread r.method = fun _ => false := by
            funext q; unfold Stored.nan; rw [hm]; simp
          rw [q1, q2]
          cases pyMap (fun q => do
              let d ← sounding r.method o.lon o.lat o.bath q
              .ok (level false d)) (l.zip (pts.map Prod.snd)) with
          | error _ => rfl
          | ok d =>
            simp only [ok_bind]
            cases pyMap (fun hc => evaluate r speed true (fun _ => false) o.lon o.lat o.bath hc
              (l.zip (pts.map Prod.snd))) o.fields <;> rfl

/-! ## A model with land -/

/-- A model with columns every 30 degrees and land at 150 and 180 degrees east. -/
def basin : Site ℚ where
  lon := [0, 30, 60, 90, 120, 150, 180, 210, 240, 270, 300, 330]
  lat := [-60, 0, 60]
  depth := List.replicate 3 [100, 200, 300, 400, 500, 0, 0, 300, 200, 100, 200, 300]

/-- A constituent whose real part is the number of the column. -/
def flow : List (List (ℚ × ℚ)) := List.replicate 3 ((List.range 12).map fun k : ℕ => ((k : ℚ), 1))

def splines : Request ℚ := ⟨.spline, false, none, none, fun _ _ _ _ => none, 1⟩

/-- No NaN from splines. -/
def calm : List ℚ → List ℚ → List (List (Fld ℚ)) → ℚ × ℚ → Bool := fun _ _ _ _ => false

theorem basin_around : Around basin 0 := by
  have e : (360 : ℚ) / (basin.lon.length : ℚ) = 30 := by
    show (360 : ℚ) / ((12 : ℕ) : ℚ) = 30
    norm_num
  refine ⟨by show 3 ≤ 12; omega, ?_, by decide +kernel, by decide +kernel, ⟨rfl, by decide +kernel⟩, ?_⟩
  · rw [e]; decide +kernel
  · rw [e]; norm_num

theorem flow_shape : CGrid.Shape flow basin.lat.length basin.lon.length := ⟨rfl, by decide +kernel⟩

theorem basin_positive (k j : ℤ) : 0 ≤ basin.at k j := by
  have h : ∀ r ∈ basin.depth, ∀ d ∈ r, 0 ≤ d := by decide +kernel
  unfold Site.at
  rw [List.getD_eq_getElem?_getD, List.getD_eq_getElem?_getD]
  cases h1 : basin.depth[j.toNat]? with
  | none => simp
  | some r =>
    rw [Option.getD_some]
    cases h2 : r[(k % basin.lon.length).toNat]? with
    | none => simp
    | some d => exact h r (List.mem_of_getElem? h1) d (List.mem_of_getElem? h2)

theorem basin_spot (m : Method) {x y : ℚ} (h1 : -180 < x) (h2 : x < 360) (h3 : -60 < y) (h4 : y < 60)
    (h5 : x ≠ 180) : Spot m basin (x, y) := by
  have e1 : (⟨basin.lon, basin.lat, []⟩ : Layer ℚ).lat.getD 0 0 = -60 := rfl
  have e2 : (⟨basin.lon, basin.lat, []⟩ : Layer ℚ).lat.getD
      ((⟨basin.lon, basin.lat, []⟩ : Layer ℚ).lat.length - 1) 0 = 60 := rfl
  refine ⟨h1.le, h2.le, ?_, ?_, fun _ => ⟨h2, h5, h1.ne', ?_, ?_⟩⟩
  · rw [e1]; exact h3.le
  · rw [e2]; exact h4.le
  · rw [e1]; exact h3
  · rw [e2]; exact h4

/-- The model and points on both sides of Greenwich and next to land meet the hypotheses of `C75_global`
for velocities, and those of `C76_stored_partial` with a history. -/
example : (∀ k j, 0 ≤ basin.at k j) ∧ (∀ hc ∈ [flow], CGrid.Shape hc basin.lat.length basin.lon.length) ∧
    (∀ p ∈ [((15 : ℚ), (10 : ℚ)), (-15, 10), (165, 0)], Spot .spline basin p) ∧
    Fits basin 0 [((15 : ℚ), (10 : ℚ)), (-15, 10), (165, 0)] ∧
    extract splines true basin [flow] [(15, 10), (-15, 10), (165, 0)] =
      .ok ([some 150, some 200, none], [[.val (1 / 2) 1 (2 / 3), .val (11 / 2) 1 (1 / 2), .masked]]) ∧
    (do let o ← read none basin [flow]
        let o ← after calm o [⟨splines, true, [(15, 10)]⟩, ⟨{ splines with method := .linear }, false, [(225, 10)]⟩]
        let z ← interpolate calm splines true o [(15, 10), (-15, 10), (165, 0)]
        pure z.1) = (.ok ([some (some 150), some (some 200), none],
          [[.val (1 / 2) 1 (2 / 3), .val (11 / 2) 1 (1 / 2), .masked]]) : Except PyErr _) := by
  refine ⟨basin_positive, ?_, ?_, ?_, by decide +kernel, by decide +kernel⟩
  · intro hc hmem
    rw [List.mem_singleton.1 hmem]
    exact flow_shape
  · intro p hp
    simp only [List.mem_cons, List.not_mem_nil, or_false] at hp
    rcases hp with rfl | rfl | rfl <;>
      exact basin_spot _ (by norm_num) (by norm_num) (by norm_num) (by norm_num) (by norm_num)
  · exact Or.inl ⟨le_refl _, Or.inl ⟨(-15, 10), by simp, by norm_num⟩⟩

/-- The hypotheses of `C75_cropped_partial` can be met as well. -/
example : ({ splines with crop := true } : Request ℚ).Covers ⟨basin.lon, basin.lat, []⟩ ∧
    Within (⟨basin.lon, basin.lat, []⟩ : Layer ℚ) 0 [((-20 : ℚ), (10 : ℚ)), (40, -20)] ∧
    extract { splines with crop := true } true basin [flow] [(-20, 10), (40, -20)] =
      .ok ([some (700 / 3), some (700 / 3)], [[.val (22 / 3) 1 (3 / 7), .val (4 / 3) 1 (3 / 7)]]) := by
  have e : (360 : ℚ) / ((⟨basin.lon, basin.lat, []⟩ : Layer ℚ).lon.length : ℚ) = 30 := by
    show (360 : ℚ) / ((12 : ℕ) : ℚ) = 30
    norm_num
  refine ⟨?_, ?_, by decide +kernel⟩
  · unfold Request.Covers
    rw [e]
    refine ⟨by decide +kernel, fun i hi => ?_⟩
    replace hi : i + 1 < 3 := hi
    obtain rfl | rfl : i = 0 ∨ i = 1 := by omega
    · decide +kernel
    · decide +kernel
  · refine Or.inr (Or.inl ⟨le_refl _, ⟨(-20, 10), by simp, by norm_num⟩, ?_⟩)
    rw [e]
    intro p hp
    simp only [List.mem_cons, List.not_mem_nil, or_false] at hp
    rcases hp with rfl | rfl <;> norm_num

/-- C75 does not hold with extrapolation: an extrapolated transport is divided by the number under the mask
of the depth, which is the fill value `1e20` for `'bilinear'`, so that the current is nearly zero, and a
mean with the zeros on land for the other methods, so that it may be infinite. -/
theorem C75_extrapolated_false :
    (let r : Request ℚ := { splines with near := fun _ _ _ _ => some (2, 1) }
    extract r false basin [flow] [(165, 10)] = .ok ([none], [[.val 2 1 1]]) ∧
    extract r true basin [flow] [(165, 10)] = .ok ([none], [[.nan]]) ∧
    extract { r with method := .bilinear } true basin [flow] [(165, 10)] =
      .ok ([none], [[.val 2 1 (1 / 10 ^ 18)]])) := by
  decide +kernel

/-- What `interpolate` gives. -/
abbrev Answer := List (Option (Option ℚ)) × List (List (Out ℚ))

/-- C76 does not hold for every batch: a place at 225 degrees east of a model that begins at Greenwich is
lost, and its depth is that of the first column, unless there is a place with a negative longitude in the
batch. -/
theorem C76_batch_false :
    (do let o ← read none basin [flow]
        let z ← interpolate calm splines true o [(225, 10)]
        pure z.1) = (.ok ([some (some 300)], [[.masked]]) : Except PyErr Answer) ∧
    (do let o ← read none basin [flow]
        let z ← interpolate calm splines true o [(225, 10), (-10, 10)]
        pure z.1) = (.ok ([some (some 250), some (some (500 / 3))],
          [[.val (15 / 2) 1 (2 / 5), .val (11 / 3) 1 (3 / 5)]]) : Except PyErr Answer) := by
  decide +kernel

/-- C76 does not hold for every history: the depth and the velocity at a place become NaN when the object
has been used with the method `'bilinear'`. -/
theorem C76_history_false :
    (do let o ← read none basin [flow]
        let z ← interpolate calm { splines with method := .linear } true o [(120, 10)]
        pure z.1) = (.ok ([some (some 500)], [[.val 4 1 (1 / 5)]]) : Except PyErr Answer) ∧
    (do let o ← read none basin [flow]
        let o ← after calm o [⟨{ splines with method := .bilinear }, false, [(15, 10)]⟩]
        let z ← interpolate calm { splines with method := .linear } true o [(120, 10)]
        pure z.1) = (.ok ([some none], [[.nan]]) : Except PyErr Answer) := by
  decide +kernel

end Verif.AtlasNet
