import Verif.Props.Extract
import Verif.Props.GridCrop
/-!
C72: cropping a global model to the neighbourhood of the points does not change the constants, unless
a point lies where the cropped grid has been cut.
-/
namespace Verif.Extract
open Verif Verif.Spec Verif.Grid

variable {K : Type} [Field K] [LinearOrder K] [IsStrictOrderedRing K]

/-! ## One axis -/

theorem getD_lt {l : List K} (h : l.Pairwise (· < ·)) {i j : ℕ} (hij : i < j) (hj : j < l.length) :
    l.getD i 0 < l.getD j 0 := by
  rw [List.getD_eq_getElem?_getD, List.getD_eq_getElem?_getD, List.getElem?_eq_getElem (by omega),
    List.getElem?_eq_getElem hj]
  exact List.pairwise_iff_getElem.1 h i j (by omega) hj hij

theorem getD_le {l : List K} (h : l.Pairwise (· < ·)) {i j : ℕ} (hij : i ≤ j) (hj : j < l.length) :
    l.getD i 0 ≤ l.getD j 0 := by
  rcases Nat.lt_or_eq_of_le hij with e | e
  · exact (getD_lt h e hj).le
  · rw [e]

/-- The cell west of or around a coordinate. -/
theorem cell_left {l : List K} (h2 : 2 ≤ l.length) (q : K)
    (h0 : l.getD 0 0 ≤ q) (h1 : q ≤ l.getD (l.length - 1) 0) :
    ∃ i : ℕ, i + 1 < l.length ∧ l.getD i 0 ≤ q ∧ q ≤ l.getD (i + 1) 0 ∧
      (l.getD 0 0 < q → l.getD i 0 < q) := by
  classical
  have ex : ∃ i : ℕ, q ≤ l.getD (i + 1) 0 := ⟨l.length - 2, by
    rw [show l.length - 2 + 1 = l.length - 1 by omega]; exact h1⟩
  have le : Nat.find ex ≤ l.length - 2 := Nat.find_min' ex (by
    rw [show l.length - 2 + 1 = l.length - 1 by omega]; exact h1)
  have lt : ∀ m : ℕ, m + 1 = Nat.find ex → l.getD (m + 1) 0 < q := fun m hm =>
    not_le.1 (Nat.find_min ex (m := m) (by omega))
  refine ⟨Nat.find ex, by omega, ?_, Nat.find_spec ex, fun hs => ?_⟩
  · cases e : Nat.find ex with
    | zero => exact h0
    | succ m => exact (lt m e.symm).le
  · cases e : Nat.find ex with
    | zero => exact hs
    | succ m => exact lt m e.symm

/-- The cell east of or around a coordinate. -/
theorem cell_right {l : List K} (h2 : 2 ≤ l.length) (q : K)
    (h0 : l.getD 0 0 ≤ q) (h1 : q ≤ l.getD (l.length - 1) 0) :
    ∃ i : ℕ, i + 1 < l.length ∧ l.getD i 0 ≤ q ∧ q ≤ l.getD (i + 1) 0 ∧
      (q < l.getD (l.length - 1) 0 → q < l.getD (i + 1) 0) := by
  classical
  by_cases hs : q < l.getD (l.length - 1) 0
  · have ex : ∃ i : ℕ, q < l.getD (i + 1) 0 := ⟨l.length - 2, by
      rw [show l.length - 2 + 1 = l.length - 1 by omega]; exact hs⟩
    have le : Nat.find ex ≤ l.length - 2 := Nat.find_min' ex (by
      rw [show l.length - 2 + 1 = l.length - 1 by omega]; exact hs)
    refine ⟨Nat.find ex, by omega, ?_, (Nat.find_spec ex).le, fun _ => Nat.find_spec ex⟩
    cases e : Nat.find ex with
    | zero => exact h0
    | succ m => exact not_lt.1 (Nat.find_min ex (m := m) (by omega))
  · obtain ⟨i, a, b, c, -⟩ := cell_left h2 q h0 h1
    exact ⟨i, a, b, c, fun e => absurd e hs⟩

/-- The part of an axis around a range of coordinates. -/
theorem axis_crop {l : List K} (h : l.Pairwise (· < ·)) (h2 : 2 ≤ l.length) (lo hi buf : K)
    (hb : 0 < buf) (h0 : l.getD 0 0 ≤ lo) (hl : lo ≤ hi) (h1 : hi ≤ l.getD (l.length - 1) 0)
    (hs : ∀ i : ℕ, i + 1 < l.length → l.getD (i + 1) 0 - l.getD i 0 ≤ buf) :
    ∃ a b : ℕ, cropSlice (flatnonzero l (lo - buf) (hi + buf)) = .ok (a, b) ∧ a + 2 ≤ b ∧ b ≤ l.length ∧
      l.getD a 0 ≤ lo ∧ hi ≤ l.getD (b - 1) 0 ∧ (l.getD 0 0 < lo → l.getD a 0 < lo) ∧
      (hi < l.getD (l.length - 1) 0 → hi < l.getD (b - 1) 0) := by
  have mem : ∀ i : ℕ, i ∈ flatnonzero l (lo - buf) (hi + buf) ↔
      i < l.length ∧ lo - buf ≤ l.getD i 0 ∧ l.getD i 0 ≤ hi + buf := by
    intro i
    unfold flatnonzero
    rw [List.mem_filter, List.mem_range]
    refine and_congr_right fun hi' => ?_
    rw [List.getElem?_eq_getElem hi', List.getD_eq_getElem?_getD, List.getElem?_eq_getElem hi']
    simp only [decide_eq_true_eq, Option.getD_some]
  obtain ⟨i, i1, i2, i3, i4⟩ := cell_left h2 lo h0 (le_trans hl h1)
  obtain ⟨j, j1, j2, j3, j4⟩ := cell_right h2 hi (le_trans h0 hl) h1
  have mi : i ∈ flatnonzero l (lo - buf) (hi + buf) :=
    (mem i).2 ⟨by omega, by linarith [hs i i1], by linarith⟩
  have mj : j + 1 ∈ flatnonzero l (lo - buf) (hi + buf) :=
    (mem _).2 ⟨j1, by linarith, by linarith [hs j j1]⟩
  obtain ⟨⟨a, b⟩, e⟩ : ∃ ab, cropSlice (flatnonzero l (lo - buf) (hi + buf)) = .ok ab := by
    rcases cropSlice_monotonic (lo - buf) (hi + buf) l (Or.inl h) with ⟨e1, -⟩ | ⟨-, ab, e1, -⟩
    · exfalso
      have : l.getD i 0 ∈ l.filter (inside (lo - buf) (hi + buf)) := by
        rw [List.mem_filter]
        refine ⟨?_, ?_⟩
        · rw [List.getD_eq_getElem?_getD, List.getElem?_eq_getElem (by omega)]
          exact List.getElem_mem _
        · obtain ⟨-, p, q⟩ := (mem i).1 mi
          simp only [inside, decide_eq_true_eq]
          exact ⟨p, q⟩
      rw [e1] at this
      simp at this
    · exact ⟨ab, e1⟩
  have bd := cropSlice_bounds _ (flatnonzero_sorted l _ _) (a, b) e
  obtain ⟨ai, -⟩ := bd i mi
  obtain ⟨-, jb⟩ := bd (j + 1) mj
  simp only at ai jb
  have last : b - 1 ∈ flatnonzero l (lo - buf) (hi + buf) ∧ 0 < b := by
    unfold cropSlice at e
    split at e
    · rename_i x y hx hy
      cases e
      exact ⟨List.mem_of_getLast? hy, by omega⟩
    · cases e
  obtain ⟨bl, -, -⟩ := (mem _).1 last.1
  have first : a ≤ j := by
    rcases Nat.lt_or_ge i (j + 1) with c | c
    · omega
    · have e1 := getD_le h c (by omega)
      have : j ∈ flatnonzero l (lo - buf) (hi + buf) :=
        (mem _).2 ⟨by omega, by linarith [hs j j1], by linarith⟩
      exact (bd j this).1
  refine ⟨a, b, e, by omega, by omega, le_trans (getD_le h ai (by omega)) i2,
    le_trans j3 (getD_le h (by omega) (by omega)), fun c => lt_of_le_of_lt (getD_le h ai (by omega)) (i4 c),
    fun c => lt_of_lt_of_le (j4 c) (getD_le h (by omega) (by omega))⟩

theorem sliceNat_getD {α : Type} (l : List α) (a b c : ℕ) (z : α) (hc : a + c < b) :
    (sliceNat l (a, b)).getD c z = l.getD (a + c) z := by
  unfold sliceNat
  simp only
  rw [List.getD_eq_getElem?_getD, List.getElem?_take_of_lt (by omega), List.getElem?_drop,
    ← List.getD_eq_getElem?_getD]

theorem sliceNat_length {α : Type} (l : List α) (a b : ℕ) (hb : b ≤ l.length) :
    (sliceNat l (a, b)).length = b - a := by
  unfold sliceNat
  simp only [List.length_take, List.length_drop]
  omega

/-! ## The cropped matrix -/

/-- The part of a matrix around the points shows the same chart. -/
theorem cropCore_shows {x y : List K} {hc : List (List (Fld K))} {C : Chart K} {k0 j0 : ℤ}
    (h : Shows x y hc C k0 j0) (xmin xmax ymin ymax buf : K) (hb : 0 < buf)
    (x0 : x.getD 0 0 ≤ xmin) (xl : xmin ≤ xmax) (x1 : xmax ≤ x.getD (x.length - 1) 0)
    (xs : ∀ i : ℕ, i + 1 < x.length → x.getD (i + 1) 0 - x.getD i 0 ≤ buf)
    (y0 : y.getD 0 0 ≤ ymin) (yl : ymin ≤ ymax) (y1 : ymax ≤ y.getD (y.length - 1) 0)
    (ys : ∀ i : ℕ, i + 1 < y.length → y.getD (i + 1) 0 - y.getD i 0 ≤ buf) :
    ∃ (a b r s : ℕ) (hc' : List (List (Fld K))),
      cropCore hc x y xmin xmax ymin ymax buf = .ok (hc', sliceNat x (a, b), sliceNat y (r, s)) ∧
      a + 2 ≤ b ∧ b ≤ x.length ∧ r + 2 ≤ s ∧ s ≤ y.length ∧
      Shows (sliceNat x (a, b)) (sliceNat y (r, s)) hc' C (k0 + a) (j0 + r) ∧
      x.getD a 0 ≤ xmin ∧ xmax ≤ x.getD (b - 1) 0 ∧ y.getD r 0 ≤ ymin ∧ ymax ≤ y.getD (s - 1) 0 ∧
      (xmax < x.getD (x.length - 1) 0 → xmax < x.getD (b - 1) 0) ∧
      (y.getD 0 0 < ymin → y.getD r 0 < ymin) ∧
      (ymax < y.getD (y.length - 1) 0 → ymax < y.getD (s - 1) 0) := by
  obtain ⟨a, b, e1, ab, bx, g1, g2, -, g4⟩ := axis_crop h.asc.1 h.two xmin xmax buf hb x0 xl x1 xs
  obtain ⟨r, s, e2, rs, sy, f1, f2, f3, f4⟩ := axis_crop h.asc.2 h.two' ymin ymax buf hb y0 yl y1 ys
  refine ⟨a, b, r, s, (sliceNat hc (r, s)).map fun row => sliceNat row (a, b), ?_, ab, bx, rs, sy, ?_,
    g1, g2, f1, f2, g4, f3, f4⟩
  · unfold cropCore
    rw [e2, ok_bind, e1, ok_bind]
  · have lx := sliceNat_length x a b bx
    have ly := sliceNat_length y r s sy
    have lh := sliceNat_length hc r s (by rw [h.height]; exact sy)
    refine ⟨⟨?_, ?_⟩, by omega, by omega, by rw [List.length_map, lh, ly], ?_, ?_, ?_, ?_, ?_, ?_⟩
    · exact (h.asc.1.sublist (List.drop_sublist _ _)).sublist (List.take_sublist _ _)
    · exact (h.asc.2.sublist (List.drop_sublist _ _)).sublist (List.take_sublist _ _)
    · intro row hrow
      obtain ⟨row', hr', rfl⟩ := List.mem_map.1 hrow
      have : row' ∈ hc := by
        unfold sliceNat at hr'
        exact List.mem_of_mem_drop (List.mem_of_mem_take hr')
      rw [sliceNat_length _ _ _ (by rw [h.width _ this]; exact bx), lx]
    · intro c hc'
      rw [sliceNat_getD _ _ _ _ _ (by omega), h.lon _ (by omega)]
      congr 1
      push_cast; ring
    · intro c hc'
      rw [sliceNat_getD _ _ _ _ _ (by omega), h.lat _ (by omega)]
      congr 1
      push_cast; ring
    · intro c hc'
      rw [show k0 + (a : ℤ) + (c : ℤ) = k0 + ((a + c : ℕ) : ℤ) by push_cast; ring]
      exact h.col _ (by omega)
    · intro c hc'
      rw [show j0 + (r : ℤ) + (c : ℤ) = j0 + ((r + c : ℕ) : ℤ) by push_cast; ring]
      exact h.row _ (by omega)
    · intro i c hi hc'
      rw [show k0 + (a : ℤ) + (c : ℤ) = k0 + ((a + c : ℕ) : ℤ) by push_cast; ring,
        show j0 + (r : ℤ) + (i : ℤ) = j0 + ((r + i : ℕ) : ℤ) by push_cast; ring,
        h.value _ _ (by omega) (by omega)]
      unfold entry
      rw [getD_map_lt _ _ _ [] _ (by omega), sliceNat_getD _ _ _ _ _ (by omega),
        sliceNat_getD _ _ _ _ _ (by omega)]

/-! ## The change of convention -/

theorem rotate_getD {α : Type} (row : List α) (i c : ℕ) (z : α) (hi : i ≤ row.length)
    (hc : c < row.length) : (row.drop i ++ row.take i).getD c z = row.getD ((i + c) % row.length) z := by
  rw [List.getD_eq_getElem?_getD, List.getD_eq_getElem?_getD]
  rcases Nat.lt_or_ge c (row.length - i) with h | h
  · rw [List.getElem?_append_left (by rw [List.length_drop]; exact h), List.getElem?_drop,
      Nat.mod_eq_of_lt (by omega)]
  · rw [List.getElem?_append_right (by rw [List.length_drop]; exact h), List.length_drop,
      List.getElem?_take_of_lt (by omega), Nat.mod_eq_sub_mod (by omega), Nat.mod_eq_of_lt (by omega)]
    congr 2
    omega

/-- How far a longitude moves by `_shift`: columns before the new first one keep their longitude when
shifting west and gain a turn when shifting east. -/
def turnOf : Dir → ℤ
  | .west => 1
  | _ => 0

theorem rotate_uniform (a d : K) (n i : ℕ) (hi : i < n) (ht : (n : K) * d = 360) (dir : Dir)
    (hd : dir = .east ∨ dir = .west) :
    (match dir with
      | .east => (uniform a d n).drop i ++ (((uniform a d n).drop 0).take i).map (fun v => v + 360)
      | .west => ((uniform a d n).drop i).map (fun v => v - 360) ++ ((uniform a d n).drop 0).take i
      | .other => (uniform a d n).drop i ++ ((uniform a d n).drop 0).take i) =
      uniform (a + i * d - turnOf dir * 360) d n := by
  have len : (uniform a d n).length = n := uniform_length _ _ _
  rcases hd with rfl | rfl
  · simp only [List.drop_zero]
    refine List.ext_getElem (by simp [len, uniform_length]; omega) fun c h1 h2 => ?_
    rw [uniform_length] at h2
    rw [List.getElem_append]
    split_ifs with h
    · simp only [uniform, List.getElem_drop, List.getElem_map, List.getElem_range, turnOf]
      push_cast
      ring
    · simp only [List.length_drop, len, not_lt] at h
      simp only [uniform, List.getElem_take, List.getElem_map, List.getElem_range, turnOf,
        List.length_drop, List.length_map, List.length_range]
      rw [Nat.cast_sub h, Nat.cast_sub hi.le]
      push_cast
      linear_combination -ht
  · simp only [List.drop_zero]
    refine List.ext_getElem (by simp [len, uniform_length]; omega) fun c h1 h2 => ?_
    rw [uniform_length] at h2
    rw [List.getElem_append]
    split_ifs with h
    · simp only [uniform, List.getElem_drop, List.getElem_map, List.getElem_range, turnOf]
      push_cast
      ring
    · simp only [List.length_drop, List.length_map, len, not_lt] at h
      simp only [uniform, List.getElem_take, List.getElem_map, List.getElem_range, turnOf,
        List.length_drop, List.length_map, List.length_range]
      rw [Nat.cast_sub h, Nat.cast_sub hi.le]
      push_cast
      linear_combination -ht

/-- A grid around the globe after the change of convention shows the same chart. -/
theorem shifted {g : Layer K} {a : K} (h : Even g a) (hn : g.lon.length ≤ 10 ^ 5) (x0 : K) (dir : Dir)
    (hd : dir = .east ∨ dir = .west) (hx : x0 ≤ a + 360 - 360 / (g.lon.length : K))
    (hf : 360 / (g.lon.length : K) / 2 < x0 - a) :
    ∃ (i : ℕ) (rows : List (List (Fld K))), |a + i * (360 / (g.lon.length : K)) - x0| ≤
        360 / (g.lon.length : K) / 2 ∧
      shiftMatrix ⟨0, 0, false⟩ g.hc g.lon x0 360 dir = .ok (rows,
        uniform (a + i * (360 / (g.lon.length : K)) - turnOf dir * 360) (360 / (g.lon.length : K)) g.lon.length) ∧
      Even ⟨uniform (a + i * (360 / (g.lon.length : K)) - turnOf dir * 360) (360 / (g.lon.length : K))
          g.lon.length, g.lat, rows⟩ (a + i * (360 / (g.lon.length : K)) - turnOf dir * 360) ∧
      Shows (uniform (a + i * (360 / (g.lon.length : K)) - turnOf dir * 360) (360 / (g.lon.length : K))
          g.lon.length) g.lat rows (globe g a) (i - turnOf dir * g.lon.length) 0 := by
  have h3 := h.three
  have t := h.turn
  have d0 := h.step0
  have n0 := h.n0
  obtain ⟨d, hdd⟩ : ∃ d, d = 360 / (g.lon.length : K) := ⟨_, rfl⟩
  have big : (1 : K) / 10 ^ 4 < d := by
    rw [hdd, lt_div_iff₀ n0]
    have : (g.lon.length : K) ≤ ((10 ^ 5 : ℕ) : K) := Nat.cast_le.2 hn
    push_cast at this
    linarith
  obtain ⟨i, hi⟩ := argmin_ok (g.lon.map fun v => |v - x0|) (by
    intro e
    rw [List.map_eq_nil_iff] at e
    rw [e] at h3
    simp at h3)
  obtain ⟨m, m1, m2, -⟩ := argmin_spec _ _ hi
  have il : i < g.lon.length := by
    by_contra c
    rw [List.getElem?_eq_none (by simpa using c)] at m1
    cases m1
  have at_i : ∀ c : ℕ, c < g.lon.length → g.lon.getD c 0 = a + c * (360 / (g.lon.length : K)) := by
    intro c hc
    conv_lhs => rw [h.lon]
    exact uniform_getD _ _ _ _ hc
  have mi : m = |a + i * (360 / (g.lon.length : K)) - x0| := by
    rw [List.getElem?_map, List.getElem?_eq_getElem il] at m1
    have e := at_i i il
    rw [List.getD_eq_getElem?_getD, List.getElem?_eq_getElem il] at e
    simp only [Option.map_some, Option.some.injEq, Option.getD_some] at m1 e
    rw [← m1, e]
  have near : m ≤ 360 / (g.lon.length : K) / 2 := by
    obtain ⟨c, c1, c2, c3, -⟩ := cell_left (l := g.lon) (by omega) x0
      (by rw [at_i 0 (by omega)]; push_cast; linarith)
      (by
        rw [at_i _ (by omega), Nat.cast_sub (by omega)]
        push_cast
        linarith)
    have mem : ∀ c : ℕ, c < g.lon.length → m ≤ |g.lon.getD c 0 - x0| := fun c hc => m2 _ (by
      rw [List.mem_map]
      refine ⟨g.lon.getD c 0, ?_, rfl⟩
      rw [List.getD_eq_getElem?_getD, List.getElem?_eq_getElem hc]
      exact List.getElem_mem _)
    have l1 := mem c (by omega)
    have l2 := mem (c + 1) c1
    rw [abs_of_nonpos (by linarith)] at l1
    rw [abs_of_nonneg (by linarith)] at l2
    rw [at_i _ (by omega)] at l1 c2
    rw [at_i _ c1] at l2 c3
    push_cast at l2 c3
    linarith
  have i0 : 0 < i := by
    rcases Nat.eq_zero_or_pos i with e | e
    · exfalso
      rw [e] at mi
      push_cast at mi
      rw [zero_mul, add_zero, abs_of_neg (by linarith)] at mi
      linarith
    · exact e
  have off : offset g.lon 360 = .ok 0 := by
    unfold offset
    rw [h.first, h.last]
    simp only
    rw [if_pos]
    have : a + 360 - 360 / (g.lon.length : K) - a - 360 = -d := by rw [hdd]; ring
    rw [this, abs_neg, abs_of_pos (by rw [hdd]; exact d0)]
    exact big
  have sh : ∀ {α : Type} (zero : α) (row : List α), row.length = g.lon.length →
      shift zero row g.lon x0 360 dir = .ok (row.drop i ++ row.take i,
        uniform (a + i * (360 / (g.lon.length : K)) - turnOf dir * 360) (360 / (g.lon.length : K))
          g.lon.length) := by
    intro α zero row hrow
    rw [(shift_eq zero row g.lon x0 360 dir i 0 hrow off hi i0).2]
    congr 2
    conv_lhs => rw [h.lon]
    rcases hd with rfl | rfl
    · exact rotate_uniform a _ _ _ il t .east (Or.inl rfl)
    · exact rotate_uniform a _ _ _ il t .west (Or.inr rfl)
  refine ⟨i, g.hc.map fun r => r.drop i ++ r.take i, by rw [← mi]; exact near, ?_, ?_, ?_⟩
  · unfold shiftMatrix
    rw [sh (0 : K) g.lon rfl, ok_bind, pyMap_ok_of_forall (g := fun r => r.drop i ++ r.take i), ok_bind]
    intro r hr
    unfold shiftRow
    rw [sh _ r (h.width r hr)]
  · refine ⟨by rw [uniform_length]; exact h3, by simp only [uniform_length], h.lat, h.two,
      by rw [List.length_map]; exact h.height, ?_⟩
    intro r hr
    obtain ⟨r', hr', rfl⟩ := List.mem_map.1 hr
    simp only [List.length_append, List.length_drop, List.length_take, uniform_length]
    have := h.width r' hr'
    omega
  · have S := h.shows
    have ul : (uniform (a + i * (360 / (g.lon.length : K)) - turnOf dir * 360) (360 / (g.lon.length : K))
      g.lon.length).length = g.lon.length := uniform_length _ _ _
    have wid : ∀ r ∈ g.hc.map fun r => r.drop i ++ r.take i, r.length = g.lon.length := by
      intro r hr
      obtain ⟨r', hr', rfl⟩ := List.mem_map.1 hr
      simp only [List.length_append, List.length_drop, List.length_take]
      have := h.width r' hr'
      omega
    refine ⟨⟨uniform_increasing _ _ d0 _, h.lat⟩, by rw [ul]; omega, h.two,
      by rw [List.length_map]; exact h.height, by rw [ul]; exact wid, ?_, S.lat, fun _ _ => trivial, S.row, ?_⟩
    · intro c hc
      rw [ul] at hc
      rw [uniform_getD _ _ _ _ hc]
      show _ = a + (((i : ℤ) - turnOf dir * (g.lon.length : ℤ) + (c : ℤ) : ℤ) : K) * _
      push_cast
      linear_combination (turnOf dir : K) * t
    · intro r c hr hc
      rw [ul] at hc
      show (entry g.hc (0 + (r : ℤ)).toNat _).number = _
      rw [zero_add, Int.toNat_natCast]
      have e : ((i : ℤ) - turnOf dir * (g.lon.length : ℤ) + (c : ℤ)) % (g.lon.length : ℤ) =
          (((i + c) % g.lon.length : ℕ) : ℤ) := by
        rw [show (i : ℤ) - turnOf dir * (g.lon.length : ℤ) + (c : ℤ) =
          ((i + c : ℕ) : ℤ) + (g.lon.length : ℤ) * (-turnOf dir) by push_cast; ring, Int.add_mul_emod_self_left]
        push_cast
        rfl
      rw [e, Int.toNat_natCast]
      unfold entry
      have hr' : r < g.hc.length := by rw [h.height]; exact hr
      rw [getD_map_lt _ _ _ [] _ hr']
      have w := entry_row h.height h.width hr
      rw [rotate_getD _ _ _ _ (by rw [w]; exact il.le) (by rw [w]; exact hc), w]

/-! ## Cropping a global model -/

/-- The points of a batch are away from where the grid is cut.  If their longitudes are written like
those of the model: between its first and last column.  Otherwise: between the first and last column
that the model has after the change of convention, which is near -180 or 0 degrees. -/
def Within (g : Layer K) (a : K) (pts : List (K × K)) : Prop :=
  (∀ p ∈ pts, a ≤ p.1 ∧ p.1 < a + 360 - 360 / (g.lon.length : K) ∧ (0 ≤ a → 0 ≤ p.1) ∧ (a < 0 → p.1 ≤ 180)) ∨
  (0 ≤ a ∧ (∃ p ∈ pts, p.1 < 0) ∧ ∀ p ∈ pts, -180 + 360 / (g.lon.length : K) / 2 ≤ p.1 ∧
    p.1 < 180 - 3 * (360 / (g.lon.length : K) / 2)) ∨
  (a < 0 ∧ (∃ p ∈ pts, 180 < p.1) ∧ ∀ p ∈ pts, 360 / (g.lon.length : K) / 2 ≤ p.1 ∧
    p.1 < 360 - 3 * (360 / (g.lon.length : K) / 2))

/-- The model in the convention of the points. -/
theorem crop_convention {g : Layer K} {a : K} (h : Global g a) (h4 : 4 ≤ g.lon.length)
    (hn : g.lon.length ≤ 10 ^ 5) (pts : List (K × K)) (hw : Within g a pts) (xmin xmax ymin ymax buf : K)
    (emin : (pts.map Prod.fst).min? = some xmin) (emax : (pts.map Prod.fst).max? = some xmax) :
    ∃ (s : Layer K) (b : K) (k0 : ℤ), s.lat = g.lat ∧ s.lon.length = g.lon.length ∧ Even s b ∧
      Shows s.lon s.lat s.hc (globe g a) k0 0 ∧ -225 ≤ b ∧ b ≤ 90 ∧
      b ≤ xmin ∧ xmax < b + 360 - 360 / (g.lon.length : K) ∧
      crop (⟨0, 0, false⟩ : Fld K) g.hc g.lon g.lat xmin xmax ymin ymax buf true =
        cropCore s.hc s.lon s.lat xmin xmax ymin ymax buf := by
  have d0 := h.step0
  have d1 : 360 / (g.lon.length : K) ≤ 90 := by
    rw [div_le_iff₀ h.n0]
    have : ((4 : ℕ) : K) ≤ (g.lon.length : K) := Nat.cast_le.2 h4
    push_cast at this
    linarith
  have lmin : ∀ p ∈ pts, xmin ≤ p.1 := fun p hp =>
    (List.min?_eq_some_iff.1 emin).2 _ (List.mem_map.2 ⟨p, hp, rfl⟩)
  have lmax : ∀ p ∈ pts, p.1 ≤ xmax := fun p hp =>
    (List.max?_eq_some_iff.1 emax).2 _ (List.mem_map.2 ⟨p, hp, rfl⟩)
  obtain ⟨p, hp, ep⟩ := List.mem_map.1 (List.min?_eq_some_iff.1 emin).1
  obtain ⟨q, hq, eq⟩ := List.mem_map.1 (List.max?_eq_some_iff.1 emax).1
  have le : xmin ≤ xmax := by rw [← eq]; exact lmin q hq
  rcases hw with hw | ⟨ha, ⟨w, hw1, hw2⟩, hw⟩ | ⟨ha, ⟨w, hw1, hw2⟩, hw⟩
  · obtain ⟨p1, -, p3, -⟩ := hw p hp
    obtain ⟨-, q2, -, q4⟩ := hw q hq
    rw [ep] at p1 p3
    rw [eq] at q2 q4
    refine ⟨g, a, 0, rfl, rfl, h.toEven, h.shows, ?_, ?_, p1, q2, ?_⟩
    · rcases h.start with e | e <;> linarith
    · rcases h.start with e | e <;> linarith
    · unfold crop
      rw [h.min, h.max]
      simp only
      rw [if_neg, if_neg]
      · rintro ⟨-, c1, c2⟩
        rw [max_eq_right le] at c1
        linarith [q4 c2]
      · rintro ⟨-, c1, c2⟩
        rw [min_eq_left le] at c1
        rcases h.start with e | e
        · linarith [p3 e.1]
        · linarith [e.2]
  · have hs : a ≤ 360 / (g.lon.length : K) := by
      rcases h.start with e | e
      · exact e.2
      · linarith [e.2]
    obtain ⟨i, rows, n1, n2, n3, n4⟩ := shifted h.toEven hn 180 .west (Or.inr rfl) (by linarith) (by linarith)
    rw [abs_le] at n1
    simp only [turnOf, Int.cast_one, one_mul] at n2 n3 n4
    refine ⟨⟨_, g.lat, rows⟩, _, _, rfl, uniform_length _ _ _, n3, n4, ?_, ?_, ?_, ?_, ?_⟩
    · linarith [n1.1]
    · linarith [n1.2]
    · have := (hw p hp).1
      rw [ep] at this
      linarith [n1.2]
    · have := (hw q hq).2
      rw [eq] at this
      linarith [n1.1]
    · unfold crop
      rw [h.min, h.max]
      simp only
      rw [if_pos ⟨trivial, by rw [min_eq_left le]; linarith [lmin w hw1], by linarith⟩, n2, ok_bind]
      rfl
  · have hs : -180 ≤ a ∧ a ≤ -180 + 360 / (g.lon.length : K) :=
      h.start.resolve_left fun e => by linarith [e.1]
    obtain ⟨i, rows, n1, n2, n3, n4⟩ := shifted h.toEven hn 0 .east (Or.inl rfl) (by linarith [hs.1])
      (by linarith [hs.2])
    rw [abs_le] at n1
    simp only [turnOf, Int.cast_zero, zero_mul, sub_zero] at n2 n3 n4
    refine ⟨⟨_, g.lat, rows⟩, _, _, rfl, uniform_length _ _ _, n3, n4, ?_, ?_, ?_, ?_, ?_⟩
    · linarith [n1.1]
    · linarith [n1.2]
    · have := (hw p hp).1
      rw [ep] at this
      linarith [n1.2]
    · have := (hw q hq).2
      rw [eq] at this
      linarith [n1.1]
    · unfold crop
      rw [h.min, h.max]
      simp only
      rw [if_neg, if_pos ⟨trivial, by rw [max_eq_right le]; linarith [lmax w hw1], ha⟩, n2, ok_bind]
      · rfl
      rintro ⟨-, -, c2⟩
      linarith [hs.2]

/-- What is left of a grid around the globe is extended only if it still goes around the globe. -/
theorem extended_part {s : Layer K} {b : K} (h : Even s b) (hn : s.lon.length ≤ 10 ^ 5) {C : Chart K}
    {k0 j0 : ℤ} (c e : ℕ) (hce : c + 2 ≤ e) (he : e ≤ s.lon.length) {y : List K}
    {hc : List (List (Fld K))} (hC : C.Round s.lon.length)
    (hs : Shows (sliceNat s.lon (c, e)) y hc C (k0 + c) j0) (f : Fmt) (lo : -225 ≤ b) (hi : b ≤ 90) :
    ∃ g' : Layer K, ∃ k1 : ℤ, extended f (360 / (s.lon.length : K)) ⟨sliceNat s.lon (c, e), y, hc⟩ = .ok g' ∧
      g'.lat = y ∧ Shows g'.lon y g'.hc C k1 j0 ∧ g'.lon.getD 0 0 ≤ s.lon.getD c 0 ∧
      s.lon.getD (e - 1) 0 ≤ g'.lon.getD (g'.lon.length - 1) 0 ∧
      ∀ c : ℕ, c < g'.lon.length → |g'.lon.getD c 0| ≤ 720 := by
  have h3 := h.three
  have d0 := h.step0
  have d1 := h.step180
  have n0 := h.n0
  have t := h.turn
  have at_i : ∀ c : ℕ, c < s.lon.length → s.lon.getD c 0 = b + c * (360 / (s.lon.length : K)) := by
    intro c hc
    conv_lhs => rw [h.lon]
    exact uniform_getD _ _ _ _ hc
  have sl := sliceNat_length s.lon c e he
  have small : (360 : K) / 10 ^ 5 ≤ 360 / (s.lon.length : K) := by
    have : (s.lon.length : K) ≤ ((10 ^ 5 : ℕ) : K) := Nat.cast_le.2 hn
    rw [Nat.cast_pow, Nat.cast_ofNat] at this
    exact div_le_div_of_nonneg_left (by norm_num) n0 this
  by_cases hall : c = 0 ∧ e = s.lon.length
  · obtain ⟨rfl, rfl⟩ := hall
    have es : sliceNat s.lon (0, s.lon.length) = s.lon := by
      unfold sliceNat
      simp
    rw [es] at hs ⊢
    obtain ⟨g', e1, e2, e3, e4⟩ := extended_round (g := ⟨s.lon, y, hc⟩) (a := b)
      ⟨h3, h.lon, hs.asc.2, hs.two', hs.height, hs.width⟩ hs hC f
    simp only at e1 e2 e3
    have ul : g'.lon.length = s.lon.length + f.extra := by rw [e2, uniform_length]
    have ex : 2 ≤ f.extra ∧ f.extra ≤ 3 := by unfold Fmt.extra; split_ifs <;> omega
    have at_g : ∀ c : ℕ, c < g'.lon.length →
        g'.lon.getD c 0 = b - 360 / (s.lon.length : K) + c * (360 / (s.lon.length : K)) := by
      intro c hc
      rw [ul] at hc
      rw [e2]
      exact uniform_getD _ _ _ _ hc
    refine ⟨g', _, e1, e3, by rw [e3] at e4; exact e4, ?_, ?_, fun c hc' => ?_⟩
    · rw [at_g 0 (by omega), at_i 0 (by omega)]
      push_cast
      linarith
    · rw [at_g _ (by omega), at_i _ (by omega)]
      have : ((s.lon.length - 1 : ℕ) : K) + 1 ≤ ((g'.lon.length - 1 : ℕ) : K) := by
        exact_mod_cast (show s.lon.length - 1 + 1 ≤ g'.lon.length - 1 by omega)
      have := mul_le_mul_of_nonneg_right this d0.le
      linarith
    · rw [at_g c hc']
      have c1 : (c : K) ≤ (s.lon.length : K) + 2 := by
        exact_mod_cast (show c ≤ s.lon.length + 2 by omega)
      have c2 := mul_le_mul_of_nonneg_right c1 d0.le
      have c3 : (0 : K) ≤ c * (360 / (s.lon.length : K)) := mul_nonneg (Nat.cast_nonneg _) d0.le
      have d2 : 360 / (s.lon.length : K) ≤ 120 := by
        rw [div_le_iff₀ n0]
        have : ((3 : ℕ) : K) ≤ (s.lon.length : K) := Nat.cast_le.2 h3
        push_cast at this
        linarith
      rw [abs_le]
      constructor <;> linarith
  · have hd : (sliceNat s.lon (c, e)).head? = some (s.lon.getD c 0) := by
      rw [List.head?_eq_getElem?]
      have := sliceNat_getD s.lon c e 0 0 (by omega)
      rw [List.getD_eq_getElem?_getD, List.getElem?_eq_getElem (by omega)] at this
      rw [List.getElem?_eq_getElem (by omega)]
      exact congrArg some this
    have lst : (sliceNat s.lon (c, e)).getLast? = some (s.lon.getD (e - 1) 0) := by
      rw [List.getLast?_eq_getElem?, sl]
      have := sliceNat_getD s.lon c e (e - c - 1) 0 (by omega)
      rw [List.getD_eq_getElem?_getD, List.getElem?_eq_getElem (by omega)] at this
      rw [List.getElem?_eq_getElem (by omega)]
      rw [show c + (e - c - 1) = e - 1 by omega] at this
      exact congrArg some this
    refine ⟨⟨sliceNat s.lon (c, e), y, hc⟩, _, ?_, rfl, hs, ?_, ?_, fun i hi' => ?_⟩
    · unfold extended
      simp only
      rw [hd, lst]
      simp only
      rw [if_neg]
      unfold Interp.isclose
      rw [decide_eq_true_eq, not_le, at_i c (by omega), at_i (e - 1) (by omega)]
      have c1 : ((e - 1 : ℕ) : K) + 2 ≤ (c : K) + s.lon.length := by
        exact_mod_cast (show e - 1 + 2 ≤ c + s.lon.length by omega)
      have c2 := mul_le_mul_of_nonneg_right c1 d0.le
      rw [abs_of_pos (by linarith), abs_of_nonpos (by linarith)]
      linarith
    · simp only
      rw [sliceNat_getD _ _ _ _ _ (by omega)]
      exact le_refl _
    · simp only
      rw [sl, sliceNat_getD _ _ _ _ _ (by omega), show c + (e - c - 1) = e - 1 by omega]
    · simp only at hi' ⊢
      rw [sl] at hi'
      rw [sliceNat_getD _ _ _ _ _ (by omega), at_i _ (by omega)]
      have c1 : ((c + i : ℕ) : K) ≤ (s.lon.length : K) := by
        exact_mod_cast (show c + i ≤ s.lon.length by omega)
      have c2 := mul_le_mul_of_nonneg_right c1 d0.le
      have c3 : (0 : K) ≤ ((c + i : ℕ) : K) * (360 / (s.lon.length : K)) := mul_nonneg (Nat.cast_nonneg _) d0.le
      rw [abs_le]
      constructor <;> linarith

/-- The buffer reaches the next row. -/
def Request.Covers (r : Request K) (g : Layer K) : Prop :=
  360 / (g.lon.length : K) ≤ r.bufferOr (360 / (g.lon.length : K)) ∧
    ∀ i : ℕ, i + 1 < g.lat.length → g.lat.getD (i + 1) 0 - g.lat.getD i 0 ≤
      r.bufferOr (360 / (g.lon.length : K))

/-- What is left of a file after cropping, extended if it still goes around the globe: the points lie
inside. -/
theorem cropped_window {g : Layer K} {a : K} (h : Global g a) (f : Fmt) (r : Request K)
    (hr : r.crop = true) (h4 : 4 ≤ g.lon.length)
    (h5 : g.lon.length ≤ 10 ^ 5) (pts : List (K × K)) (hw : Within g a pts) (hc : r.Covers g)
    (box : Box K) (hbox : box.any = true)
    (b1 : (pts.map Prod.fst).min? = some box.xmin) (b2 : (pts.map Prod.fst).max? = some box.xmax)
    (b3 : (pts.map Prod.snd).min? = some box.ymin) (b4 : (pts.map Prod.snd).max? = some box.ymax)
    (hp : ∀ p ∈ pts, g.lat.getD 0 0 ≤ p.2 ∧ p.2 ≤ g.lat.getD (g.lat.length - 1) 0 ∧
      (r.method = .bilinear → g.lat.getD 0 0 < p.2 ∧ p.2 < g.lat.getD (g.lat.length - 1) 0)) :
    ∃ (g₁ g' : Layer K) (k1 j1 : ℤ), place r box (360 / (g.lon.length : K)) g pts = .ok (g₁, pts) ∧
      extended f (360 / (g.lon.length : K)) g₁ = .ok g' ∧ Shows g'.lon g'.lat g'.hc (globe g a) k1 j1 ∧
      (∀ c : ℕ, c < g'.lon.length → |g'.lon.getD c 0| ≤ 720) ∧
      ∀ p ∈ pts, g'.lon.getD 0 0 ≤ p.1 ∧ p.1 ≤ g'.lon.getD (g'.lon.length - 1) 0 ∧ g'.lat.getD 0 0 ≤ p.2 ∧
        p.2 ≤ g'.lat.getD (g'.lat.length - 1) 0 ∧ (r.method = .bilinear →
          p.1 < g'.lon.getD (g'.lon.length - 1) 0 ∧ g'.lat.getD 0 0 < p.2 ∧
          p.2 < g'.lat.getD (g'.lat.length - 1) 0) := by
  obtain ⟨buf, ebuf⟩ : ∃ buf, buf = r.bufferOr (360 / (g.lon.length : K)) := ⟨_, rfl⟩
  obtain ⟨s, b, k0, s1, s2, s3, s4, s5, s6, s7, s8, s9⟩ := crop_convention h h4 h5 pts hw box.xmin box.xmax
    box.ymin box.ymax buf b1 b2
  have d0 := h.step0
  have h3 := h.three
  have at_i : ∀ c : ℕ, c < s.lon.length → s.lon.getD c 0 = b + c * (360 / (g.lon.length : K)) := by
    intro c hc
    conv_lhs => rw [s3.lon]
    rw [uniform_getD _ _ _ _ hc, s2]
  have xlast : s.lon.getD (s.lon.length - 1) 0 = b + 360 - 360 / (g.lon.length : K) := by
    rw [at_i _ (by omega), Nat.cast_sub (by omega), s2]
    have := h.turn
    push_cast
    linear_combination this
  have lmin : ∀ p ∈ pts, box.xmin ≤ p.1 := fun p hp =>
    (List.min?_eq_some_iff.1 b1).2 _ (List.mem_map.2 ⟨p, hp, rfl⟩)
  have lmax : ∀ p ∈ pts, p.1 ≤ box.xmax := fun p hp =>
    (List.max?_eq_some_iff.1 b2).2 _ (List.mem_map.2 ⟨p, hp, rfl⟩)
  have mmin : ∀ p ∈ pts, box.ymin ≤ p.2 := fun p hp =>
    (List.min?_eq_some_iff.1 b3).2 _ (List.mem_map.2 ⟨p, hp, rfl⟩)
  have mmax : ∀ p ∈ pts, p.2 ≤ box.ymax := fun p hp =>
    (List.max?_eq_some_iff.1 b4).2 _ (List.mem_map.2 ⟨p, hp, rfl⟩)
  obtain ⟨p, hp', ep⟩ := List.mem_map.1 (List.min?_eq_some_iff.1 b3).1
  obtain ⟨q, hq', eq⟩ := List.mem_map.1 (List.max?_eq_some_iff.1 b4).1
  obtain ⟨c, e, u, v, hc', ec, o1, o2, o3, o4, o5, o6, o7, o8, o9, o10, o11, o12⟩ := cropCore_shows s4
    box.xmin box.xmax box.ymin box.ymax buf (by rw [ebuf]; exact lt_of_lt_of_le d0 hc.1)
    (by rw [at_i 0 (by omega)]; push_cast; linarith) (le_trans (lmin p hp') (lmax p hp'))
    (by rw [xlast]; exact s8.le)
    (by
      intro i hi
      rw [at_i _ hi, at_i _ (by omega), ebuf]
      have := hc.1
      push_cast
      linarith)
    (by rw [s1, ← ep]; exact (hp p hp').1) (le_trans (mmin p hp') (mmax p hp'))
    (by rw [s1, ← eq]; exact (hp q hq').2.1)
    (by rw [s1, ebuf]; exact hc.2)
  rw [← s2] at h5
  obtain ⟨g', k1, g1, g2, g3, g4, g5, g6⟩ := extended_part s3 h5 c e o1 o2 (by rw [s2]; exact globe_round h.toEven)
    o5 f s5 s6
  have y0 : (sliceNat s.lat (u, v)).getD 0 0 = s.lat.getD u 0 := by
    rw [sliceNat_getD _ _ _ _ _ (by omega)]
    rfl
  have y1 : (sliceNat s.lat (u, v)).getD ((sliceNat s.lat (u, v)).length - 1) 0 = s.lat.getD (v - 1) 0 := by
    rw [sliceNat_length _ _ _ o4, sliceNat_getD _ _ _ _ _ (by omega)]
    congr 1
    omega
  refine ⟨⟨sliceNat s.lon (c, e), sliceNat s.lat (u, v), hc'⟩, g', k1, _, ?_, by rw [← s2]; exact g1,
    by rw [g2]; exact g3, g6, ?_⟩
  · unfold place
    rw [if_pos ⟨hr, hbox⟩, ← ebuf, s9, ec, ok_bind]
  · intro z hz
    rw [g2, y0, y1]
    refine ⟨le_trans g4 (le_trans o6 (lmin z hz)), le_trans (lmax z hz) (le_trans o7 g5),
      le_trans o8 (mmin z hz), le_trans (mmax z hz) o9, fun hb => ⟨?_, ?_, ?_⟩⟩
    · exact lt_of_le_of_lt (lmax z hz) (lt_of_lt_of_le (o10 (by rw [xlast]; exact s8)) g5)
    · refine lt_of_lt_of_le (o11 ?_) (mmin z hz)
      rw [s1, ← ep]
      exact ((hp p hp').2.2 hb).1
    · refine lt_of_le_of_lt (mmax z hz) (o12 ?_)
      rw [s1, ← eq]
      exact ((hp q hq').2.2 hb).2

/-- One file with cropping. -/
theorem extractFile_cropped {g : Layer K} {a : K} (h : Global g a) (f : Fmt) (r : Request K)
    (hr : r.crop = true) (hn : ∀ x y hc q, r.near x y hc q = none) (h4 : 4 ≤ g.lon.length)
    (h5 : g.lon.length ≤ 10 ^ 5) (pts : List (K × K)) (hw : Within g a pts) (hc : r.Covers g)
    (box : Box K) (hbox : box.any = true)
    (b1 : (pts.map Prod.fst).min? = some box.xmin) (b2 : (pts.map Prod.fst).max? = some box.xmax)
    (b3 : (pts.map Prod.snd).min? = some box.ymin) (b4 : (pts.map Prod.snd).max? = some box.ymax)
    (hp : ∀ p ∈ pts, g.lat.getD 0 0 ≤ p.2 ∧ p.2 ≤ g.lat.getD (g.lat.length - 1) 0 ∧
      (r.method = .bilinear → g.lat.getD 0 0 < p.2 ∧ p.2 < g.lat.getD (g.lat.length - 1) 0)) :
    ∃ outs, extractFile f r box g pts = .ok (outs, pts) ∧
      List.Forall₂ (Meets r.method (globe g a) r.scale) pts outs := by
  obtain ⟨g₁, g', k1, j1, e1, e2, hs, far, hin⟩ := cropped_window h f r hr h4 h5 pts hw hc box hbox b1 b2 b3 b4 hp
  obtain ⟨outs, eo, ho⟩ := evaluate_inside hs f r hn false far pts hin
  refine ⟨outs, ?_, ho⟩
  unfold extractFile
  rw [h.step, ok_bind, e1, ok_bind]
  simp only
  rw [e2, ok_bind, eo, ok_bind]

/-- C72: extraction with cropping gives what the field in the files says, if no point lies where the
cropped grids are cut.  Missing for the full claim: the other points, see `C72_seam_false` and
`C72_mixed_false`. -/
theorem C72_cropped_partial (f : Fmt) (r : Request K) (hr : r.crop = true) (hb : r.bounds = none)
    (hn : ∀ x y hc q, r.near x y hc q = none) (files : List (Layer K × K))
    (hg : ∀ g ∈ files, Global g.1 g.2 ∧ 4 ≤ g.1.lon.length ∧ g.1.lon.length ≤ 10 ^ 5 ∧ r.Covers g.1)
    (pts : List (K × K)) (h0 : ∃ p ∈ pts, p ≠ (0, 0))
    (hp : ∀ g ∈ files, Within g.1 g.2 pts ∧ ∀ p ∈ pts, Place r.method g.1 p) :
    ∃ outs, extract f r (files.map Prod.fst) pts = .ok outs ∧
      List.Forall₂ (fun (g : Layer K × K) row =>
        List.Forall₂ (Meets r.method (globe g.1 g.2) r.scale) pts row) files outs := by
  obtain ⟨p0, hp0, hne0⟩ := h0
  have hne : pts ≠ [] := List.ne_nil_of_mem hp0
  have n1 : pts.map Prod.fst ≠ [] := by simpa using hne
  have n2 : pts.map Prod.snd ≠ [] := by simpa using hne
  obtain ⟨x0, ex0, -, lx0⟩ := exists_min _ n1
  obtain ⟨x1, ex1, -, lx1⟩ := exists_max _ n1
  obtain ⟨y0, ey0, -, ly0⟩ := exists_min _ n2
  obtain ⟨y1, ey1, -, ly1⟩ := exists_max _ n2
  have hany : (⟨x0, x1, y0, y1⟩ : Box K).any = true := by
    unfold Box.any
    by_contra hcon
    simp only [Bool.not_eq_true, Bool.not_eq_false', Bool.and_eq_true, decide_eq_true_eq] at hcon
    obtain ⟨⟨⟨c1, c2⟩, c3⟩, c4⟩ := hcon
    have m1 : p0.1 ∈ pts.map Prod.fst := List.mem_map.2 ⟨p0, hp0, rfl⟩
    have m2 : p0.2 ∈ pts.map Prod.snd := List.mem_map.2 ⟨p0, hp0, rfl⟩
    refine hne0 (Prod.ext ?_ ?_)
    · have := lx0 p0.1 m1
      have := lx1 p0.1 m1
      show p0.1 = 0
      linarith
    · have := ly0 p0.2 m2
      have := ly1 p0.2 m2
      show p0.2 = 0
      linarith
  have loop : ∀ fs : List (Layer K × K), (∀ g ∈ fs, g ∈ files) →
      ∃ outs, extractFiles f r ⟨x0, x1, y0, y1⟩ (fs.map Prod.fst) pts = .ok outs ∧
        List.Forall₂ (fun (g : Layer K × K) row =>
          List.Forall₂ (Meets r.method (globe g.1 g.2) r.scale) pts row) fs outs := by
    intro fs
    induction fs with
    | nil => exact fun _ => ⟨[], rfl, .nil⟩
    | cons g fs ih =>
      intro hmem
      obtain ⟨g1, g2, g3, g4⟩ := hg g (hmem g (by simp))
      obtain ⟨w, pl⟩ := hp g (hmem g (by simp))
      obtain ⟨row, e, hrow⟩ := extractFile_cropped g1 f r hr hn g2 g3 pts w g4 ⟨x0, x1, y0, y1⟩ hany
        ex0 ex1 ey0 ey1 (fun p hpm => ⟨(pl p hpm).south, (pl p hpm).north, fun e =>
          ⟨((pl p hpm).strict e).2.2.2.1, ((pl p hpm).strict e).2.2.2.2⟩⟩)
      obtain ⟨rest, e', hrest⟩ := ih fun g' hg' => hmem g' (by simp [hg'])
      refine ⟨row :: rest, ?_, .cons hrow hrest⟩
      rw [List.map_cons, extractFiles, e, ok_bind]
      simp only
      rw [e', ok_bind]
  obtain ⟨outs, e, ho⟩ := loop files fun _ h => h
  refine ⟨outs, ?_, ho⟩
  unfold extract Request.boundsOr
  rw [ex0, ex1, ey0, ey1]
  simp only
  rw [ok_bind, hb]
  exact e

/-- C72: with the methods `'spline'` and `'linear'` cropping then changes nothing. -/
theorem C72_same_partial (f : Fmt) (r : Request K) (hm : r.method ≠ .bilinear) (hr : r.crop = true)
    (hb : r.bounds = none) (hn : ∀ x y hc q, r.near x y hc q = none) (files : List (Layer K × K))
    (hg : ∀ g ∈ files, Global g.1 g.2 ∧ 4 ≤ g.1.lon.length ∧ g.1.lon.length ≤ 10 ^ 5 ∧ r.Covers g.1)
    (pts : List (K × K)) (h0 : ∃ p ∈ pts, p ≠ (0, 0))
    (hp : ∀ g ∈ files, Within g.1 g.2 pts ∧ ∀ p ∈ pts, Place r.method g.1 p) :
    ∃ outs, extract f r (files.map Prod.fst) pts = .ok outs ∧
      extract f { r with crop := false } (files.map Prod.fst) pts = .ok outs := by
  obtain ⟨outs, e, ho⟩ := C72_cropped_partial f r hr hb hn files hg pts h0 hp
  obtain ⟨p0, hp0, -⟩ := h0
  obtain ⟨outs', e', ho'⟩ := C70_got_fes f { r with crop := false } rfl hn files (fun g h => (hg g h).1) pts
    (List.ne_nil_of_mem hp0) (fun g h => (hp g h).2)
  refine ⟨outs, e, ?_⟩
  rw [e']
  congr 1
  refine forall₂_unique (forall₂_mem ho') ho ?_
  rintro g row row' ⟨h1, h2⟩ h3
  exact forall₂_unique h2 h3 fun p o o' x y => Meets.unique (globe_ordered (hg g h1).1.toEven) hm x y

/-! ### Points where the grid is cut -/

/-- A model with columns every 30 degrees whose constant at a point is the number of its column. -/
def twelve : Layer ℚ where
  lon := [0, 30, 60, 90, 120, 150, 180, 210, 240, 270, 300, 330]
  lat := [-60, 0, 60]
  hc := List.replicate 3 ((List.range 12).map fun k => ⟨k, 0, false⟩)

def cropped : Request ℚ := { plain with crop := true }

/-- The model and the requests meet the hypotheses of `C72_cropped_partial`, with points on both sides
of Greenwich. -/
example : (Global twelve 0 ∧ 4 ≤ twelve.lon.length ∧ twelve.lon.length ≤ 10 ^ 5 ∧ cropped.Covers twelve) ∧
    Within twelve 0 [((-20 : ℚ), (10 : ℚ)), (40, -20)] ∧
    (∀ p ∈ [((-20 : ℚ), (10 : ℚ)), (40, -20)], Place .spline twelve p) ∧
    extract fes cropped [twelve] [((-20 : ℚ), (10 : ℚ)), (40, -20)] = .ok [[.val (22 / 3) 0 1, .val (4 / 3) 0 1]] := by
  have e : (360 : ℚ) / (twelve.lon.length : ℚ) = 30 := by
    show (360 : ℚ) / ((12 : ℕ) : ℚ) = 30
    norm_num
  refine ⟨⟨⟨⟨by show 3 ≤ 12; omega, ?_, by decide +kernel, by decide +kernel, rfl, by decide +kernel⟩, ?_⟩,
    by show 4 ≤ 12; omega, by show 12 ≤ 10 ^ 5; omega, ?_⟩, ?_, ?_, by decide +kernel⟩
  · rw [e]; decide +kernel
  · rw [e]; norm_num
  · unfold Request.Covers
    rw [e]
    refine ⟨by decide +kernel, fun i hi => ?_⟩
    replace hi : i + 1 < 3 := hi
    obtain rfl | rfl : i = 0 ∨ i = 1 := by omega
    · decide +kernel
    · decide +kernel
  · refine Or.inr (Or.inl ⟨le_refl _, ⟨(-20, 10), by simp, by norm_num⟩, ?_⟩)
    rw [e]
    intro p hp
    simp only [List.mem_cons, List.not_mem_nil, or_false] at hp
    rcases hp with rfl | rfl <;> norm_num
  · intro p hp
    simp only [List.mem_cons, List.not_mem_nil, or_false] at hp
    rcases hp with rfl | rfl <;>
      exact ⟨by norm_num, by norm_num, by simp [twelve]; norm_num, by simp [twelve]; norm_num, by simp⟩

/-- East of the last column: FES masks the point, GOT gives the constant of the last column.  Without
cropping both interpolate across the seam. -/
theorem C72_seam_false :
    extract fes plain [twelve] [(345, 10)] = .ok [[.val (11 / 2) 0 1]] ∧
    extract fes cropped [twelve] [(345, 10)] = .ok [[.masked]] ∧
    extract got cropped [twelve] [(345, 10)] = .ok [[.val 11 0 1]] := by
  decide +kernel

/-- A batch with the same place written in two ways: the second is lost. -/
theorem C72_mixed_false :
    extract fes plain [twelve] [(-40, 10), (320, 10)] = .ok [[.val (32 / 3) 0 1, .val (32 / 3) 0 1]] ∧
    extract fes cropped [twelve] [(-40, 10), (320, 10)] = .ok [[.val (32 / 3) 0 1, .masked]] := by
  decide +kernel

end Verif.Extract
