import Verif.Lemmas.Grid
import Verif.Spec.Grid
import Mathlib.Algebra.Order.Field.Rat
import Mathlib.Tactic.LinearCombination
/-!
C12 (extension of global grids) and C13 (shifting of grids).
-/
namespace Verif.Grid
open Verif Verif.Spec

variable {K : Type} [Field K] [LinearOrder K] [IsStrictOrderedRing K]
variable {α : Type}

/-! ### C12 -/

theorem uniform_succ_left (x0 d : K) (n : ℕ) :
    uniform x0 d (n + 1) = x0 :: uniform (x0 + d) d n := by
  simp only [uniform, List.range_succ_eq_map, List.map_cons, List.map_map]
  refine List.cons_eq_cons.mpr ⟨by simp, List.map_congr_left ?_⟩
  intro k _
  simp only [Function.comp]
  push_cast
  ring

theorem uniform_succ_right (x0 d : K) (n : ℕ) :
    uniform x0 d (n + 1) = uniform x0 d n ++ [x0 + n * d] := by
  simp [uniform, List.range_succ]

theorem uniform_increasing (x0 d : K) (hd : 0 < d) (n : ℕ) : Increasing (uniform x0 d n) := by
  refine List.Pairwise.map _ (S := (· < ·)) (R := (· < ·)) ?_ List.pairwise_lt_range
  intro a b hab
  have : (a : K) < b := by exact_mod_cast hab
  nlinarith

theorem uniform_length (x0 d : K) (n : ℕ) : (uniform x0 d n).length = n := by
  simp [uniform]

/-- Extending the longitudes of an equally spaced grid gives an equally spaced grid with one more
longitude on each side. -/
theorem C12_extended_longitudes (x0 d : K) (n : ℕ) (hn : 0 < n) :
    extendArray (uniform x0 d n) d = .ok (uniform (x0 - d) d (n + 2)) := by
  obtain ⟨m, rfl⟩ : ∃ m, n = m + 1 := ⟨n - 1, by omega⟩
  have h1 : (uniform x0 d (m + 1)).head? = some x0 := by rw [uniform_succ_left]; rfl
  have h2 : (uniform x0 d (m + 1)).getLast? = some (x0 + m * d) := by
    rw [uniform_succ_right]; simp
  simp only [extendArray, h1, h2]
  congr 1
  rw [uniform_succ_left (x0 - d) d (m + 1 + 1), uniform_succ_right _ d (m + 1), sub_add_cancel]
  simp only [List.cons_append, List.nil_append]
  congr 3
  push_cast
  ring

/-- The same for the variant of the GOT reader with two extra longitudes at the end. -/
theorem C12_extended_longitudes_got (x0 d : K) (n : ℕ) (hn : 0 < n) :
    extendArray3 (uniform x0 d n) d = .ok (uniform (x0 - d) d (n + 3)) := by
  obtain ⟨m, rfl⟩ : ∃ m, n = m + 1 := ⟨n - 1, by omega⟩
  have h1 : (uniform x0 d (m + 1)).head? = some x0 := by rw [uniform_succ_left]; rfl
  have h2 : (uniform x0 d (m + 1)).getLast? = some (x0 + m * d) := by
    rw [uniform_succ_right]; simp
  simp only [extendArray3, h1, h2]
  congr 1
  rw [uniform_succ_left (x0 - d) d (m + 1 + 2), uniform_succ_right _ d (m + 1 + 1),
    uniform_succ_right _ d (m + 1), sub_add_cancel]
  simp only [List.cons_append, List.nil_append, List.append_assoc]
  have e1 : x0 + (m : K) * d + d = x0 + ((m + 1 : ℕ) : K) * d := by push_cast; ring
  have e2 : x0 + (m : K) * d + 2 * d = x0 + ((m + 1 + 1 : ℕ) : K) * d := by push_cast; ring
  rw [e1, e2]

/-- Pairs of a uniform axis and a row, by index. -/
theorem mem_uniform_zip (x0 d : K) (row : List α) (k : ℕ) (v : α) (h : row[k]? = some v) :
    (x0 + (k : K) * d, v) ∈ (uniform x0 d row.length).zip row := by
  obtain ⟨hk, rfl⟩ := List.getElem?_eq_some_iff.mp h
  refine List.mem_iff_getElem.mpr ⟨k, by simp [uniform, hk], ?_⟩
  simp [uniform]

/-- On a global grid (`n` columns of width `d`, `n * d` equal to one turn) every column of the
extended row carries the value of the original column on the same meridian. -/
theorem C12_extension_faithful (x0 d : K) (row : List α) (hn : row ≠ [])
    (hd : 0 < d) (hg : (row.length : K) * d = 360) :
    ∃ lon ext, extendArray (uniform x0 d row.length) d = .ok lon ∧ extendRow row = .ok ext ∧
      lon.length = row.length + 2 ∧ ext.length = row.length + 2 ∧ Increasing lon ∧
      Covers 360 (lon.zip ext) ((uniform x0 d row.length).zip row) ∧
      ((uniform x0 d row.length).zip row).Sublist (lon.zip ext) := by
  have hpos : 0 < row.length := List.length_pos_iff.mpr hn
  obtain ⟨a, ha⟩ : ∃ a, row.head? = some a := ⟨row.head hn, List.head?_eq_some_head hn⟩
  obtain ⟨b, hb⟩ : ∃ b, row.getLast? = some b := ⟨row.getLast hn, List.getLast?_eq_some_getLast hn⟩
  have hlon := C12_extended_longitudes x0 d row.length hpos
  have hU : uniform (x0 - d) d (row.length + 2)
      = (x0 - d) :: (uniform x0 d row.length ++ [x0 + row.length * d]) := by
    rw [uniform_succ_left, uniform_succ_right, sub_add_cancel]
  have hz : ((x0 - d) :: (uniform x0 d row.length ++ [x0 + row.length * d])).zip
      (b :: (row ++ [a])) = (x0 - d, b) :: ((uniform x0 d row.length).zip row ++
        [(x0 + row.length * d, a)]) := by
    rw [List.zip_cons_cons, List.zip_append (by simp [uniform])]
    simp
  refine ⟨_, b :: (row ++ [a]), hlon, by simp [extendRow, ha, hb], uniform_length _ _ _,
    by simp, uniform_increasing _ _ hd _, ?_, ?_⟩
  · rw [hU, hz]
    intro p hp
    rcases List.mem_cons.mp hp with h | h
    · subst h
      have hk : row[row.length - 1]? = some b := by
        rw [← List.getLast?_eq_getElem?]; exact hb
      refine ⟨_, mem_uniform_zip x0 d row _ b hk, rfl, 1, ?_⟩
      have : ((row.length - 1 : ℕ) : K) = row.length - 1 := by
        rw [Nat.cast_sub hpos]; simp
      rw [this]
      push_cast
      linear_combination hg
    · rcases List.mem_append.mp h with h | h
      · exact ⟨p, h, rfl, 0, by simp⟩
      · rw [List.mem_singleton] at h
        subst h
        have hk : row[0]? = some a := by rw [← List.head?_eq_getElem?]; exact ha
        refine ⟨_, mem_uniform_zip x0 d row 0 a hk, rfl, -1, ?_⟩
        push_cast
        linear_combination -hg
  · rw [hU, hz]
    exact List.Sublist.cons _ (List.sublist_append_left _ _)

/-- The same for the variant of the GOT reader, which needs at least two columns. -/
theorem C12_extension_faithful_got (x0 d : K) (row : List α) (hn : 2 ≤ row.length)
    (hd : 0 < d) (hg : (row.length : K) * d = 360) :
    ∃ lon ext, extendArray3 (uniform x0 d row.length) d = .ok lon ∧ extendRow3 row = .ok ext ∧
      lon.length = row.length + 3 ∧ ext.length = row.length + 3 ∧ Increasing lon ∧
      Covers 360 (lon.zip ext) ((uniform x0 d row.length).zip row) ∧
      ((uniform x0 d row.length).zip row).Sublist (lon.zip ext) := by
  have hpos : 0 < row.length := by omega
  have hne : row ≠ [] := List.length_pos_iff.mp hpos
  obtain ⟨a, ha⟩ : ∃ a, row.head? = some a := ⟨row.head hne, List.head?_eq_some_head hne⟩
  obtain ⟨b, hb⟩ : ∃ b, row.getLast? = some b :=
    ⟨row.getLast hne, List.getLast?_eq_some_getLast hne⟩
  obtain ⟨c, hc⟩ : ∃ c, row[1]? = some c := ⟨row[1], by simp⟩
  have hlon := C12_extended_longitudes_got x0 d row.length hpos
  have hU : uniform (x0 - d) d (row.length + 3)
      = (x0 - d) :: (uniform x0 d row.length ++ [x0 + row.length * d,
          x0 + (row.length + 1 : ℕ) * d]) := by
    rw [uniform_succ_left, uniform_succ_right, uniform_succ_right, sub_add_cancel]
    simp
  have hz : ((x0 - d) :: (uniform x0 d row.length ++ [x0 + row.length * d,
        x0 + (row.length + 1 : ℕ) * d])).zip
      (b :: (row ++ [a, c])) = (x0 - d, b) :: ((uniform x0 d row.length).zip row ++
        [(x0 + row.length * d, a), (x0 + (row.length + 1 : ℕ) * d, c)]) := by
    rw [List.zip_cons_cons, List.zip_append (by simp [uniform])]
    simp
  refine ⟨_, b :: (row ++ [a, c]), hlon, by simp [extendRow3, ha, hb, hc], uniform_length _ _ _,
    by simp, uniform_increasing _ _ hd _, ?_, ?_⟩
  · rw [hU, hz]
    intro p hp
    rcases List.mem_cons.mp hp with h | h
    · subst h
      have hk : row[row.length - 1]? = some b := by
        rw [← List.getLast?_eq_getElem?]; exact hb
      refine ⟨_, mem_uniform_zip x0 d row _ b hk, rfl, 1, ?_⟩
      have : ((row.length - 1 : ℕ) : K) = row.length - 1 := by
        rw [Nat.cast_sub hpos]; simp
      rw [this]
      push_cast
      linear_combination hg
    · rcases List.mem_append.mp h with h | h
      · exact ⟨p, h, rfl, 0, by simp⟩
      · rcases List.mem_cons.mp h with h | h
        · subst h
          have hk : row[0]? = some a := by rw [← List.head?_eq_getElem?]; exact ha
          refine ⟨_, mem_uniform_zip x0 d row 0 a hk, rfl, -1, ?_⟩
          push_cast
          linear_combination -hg
        · rw [List.mem_singleton] at h
          subst h
          refine ⟨_, mem_uniform_zip x0 d row 1 c hc, rfl, -1, ?_⟩
          push_cast
          linear_combination -hg
  · rw [hU, hz]
    exact List.Sublist.cons _ (List.sublist_append_left _ _)

/-- A one-column global grid cannot be extended by the GOT reader. -/
theorem C12_got_single_column (a : α) : extendRow3 [a] = .error .indexError := rfl

/-- A grid of four columns of 90 degrees meets the hypotheses. -/
example : ((["a", "b", "c", "d"].length : ℕ) : ℚ) * 90 = 360 ∧
    extendRow ["a", "b", "c", "d"] = .ok ["d", "a", "b", "c", "d", "a"] ∧
    extendRow3 ["a", "b", "c", "d"] = .ok ["d", "a", "b", "c", "d", "a", "b"] := by
  refine ⟨by norm_num, rfl, rfl⟩

/-! ### C13 -/

theorem offset_le (ix : List K) (c : K) (off : ℕ) (h : offset ix c = .ok off) : off ≤ 1 := by
  simp only [offset] at h
  split at h
  · simp only [Except.ok.injEq] at h
    split_ifs at h <;> omega
  · cases h

/-- Closed form of `_shift` when the nearest longitude is not the first one. -/
theorem shift_eq (zero : α) (row : List α) (ix : List K) (x0 c : K) (dir : Dir) (i0 off : ℕ)
    (hlen : row.length = ix.length) (hoff : offset ix c = .ok off)
    (hi : argmin (ix.map (fun v => |v - x0|)) = .ok i0) (h0 : 0 < i0) :
    i0 < ix.length ∧
    shift zero row ix x0 c dir = .ok (row.drop i0 ++ (row.drop off).take i0,
      match dir with
      | .east => ix.drop i0 ++ ((ix.drop off).take i0).map (fun v => v + c)
      | .west => (ix.drop i0).map (fun v => v - c) ++ (ix.drop off).take i0
      | .other => ix.drop i0 ++ (ix.drop off).take i0) := by
  have hoff1 := offset_le ix c off hoff
  have hlt : i0 < ix.length := by
    obtain ⟨m, hm, _⟩ := argmin_spec _ _ hi
    by_contra hh
    rw [List.getElem?_eq_none (by simpa using hh)] at hm
    cases hm
  refine ⟨hlt, ?_⟩
  have r1 := rotateArray_pos (0 : K) ix i0 off h0 (by omega) hlt
  have r2 := rotateArray_pos zero row i0 off h0 (by omega) (by omega)
  have hl : (ix.drop i0 ++ (ix.drop off).take i0).length = ix.length := by
    simp only [List.length_append, List.length_drop, List.length_take]; omega
  have hd : ix.length - i0 = (ix.drop i0).length := by simp
  simp only [shift, hoff, hi, r1, r2, bind, Except.bind]
  cases dir with
  | east =>
    simp only
    rw [mapSlice_tail _ _ h0 (by omega), hl, hd, List.take_left', List.drop_left'] <;> rfl
  | west =>
    simp only
    rw [mapSlice_head _ _ h0 (by omega), hl, hd, List.take_left', List.drop_left'] <;> rfl
  | other => rfl

/-- Shifting a grid keeps it intact.  For a strictly increasing axis spanning at most one turn,
when some longitude is strictly nearer to the base longitude than the first one, and for a grid
that is closed (spans one turn) the duplicated first and last columns agree: the shifted axis is
strictly increasing and as long as before, it starts at a nearest longitude (one turn lower when
shifting west) and covers one turn from there, and the shifted grid holds exactly the same values on the same meridians. -/
theorem C13_shift_faithful (zero : α) (row : List α) (ix : List K) (x0 c : K) (dir : Dir)
    (first last : K) (hdir : dir = .east ∨ dir = .west)
    (hlen : row.length = ix.length) (hinc : Increasing ix)
    (hfirst : ix.head? = some first) (hlast : ix.getLast? = some last)
    (hnear : ∃ v ∈ ix, |v - x0| < |first - x0|)
    (hspan : last - first ≤ c)
    (hclosed : |last - first - c| ≤ 1 / 10 ^ 4 → last - first = c ∧ row.head? = row.getLast?) :
    ∃ row' ix', shift zero row ix x0 c dir = .ok (row', ix') ∧
      row'.length = row.length ∧ ix'.length = ix.length ∧ Increasing ix' ∧
      Covers c (ix.zip row) (ix'.zip row') ∧ Covers c (ix'.zip row') (ix.zip row) ∧
      ∃ v ∈ ix, (∀ w ∈ ix, |v - x0| ≤ |w - x0|) ∧
        ix'.head? = some (if dir = .west then v - c else v) ∧
        ∀ w ∈ ix', (if dir = .west then v - c else v) ≤ w ∧
          w ≤ (if dir = .west then v - c else v) + c := by
  have hne : ix ≠ [] := by intro h; rw [h] at hfirst; cases hfirst
  obtain ⟨i0, hi⟩ := argmin_ok (ix.map (fun v => |v - x0|)) (by simpa using hne)
  have h0 : 0 < i0 := by
    rcases Nat.eq_zero_or_pos i0 with h | h
    · exfalso
      obtain ⟨m, hm, hmin, _⟩ := argmin_spec _ _ hi
      obtain ⟨v, hv, hlt⟩ := hnear
      rw [h, List.getElem?_map, ← List.head?_eq_getElem?, hfirst] at hm
      simp only [Option.map_some, Option.some.injEq] at hm
      have := hmin _ (List.mem_map_of_mem hv)
      rw [← hm] at this
      exact absurd hlt (not_lt.mpr this)
    · exact h
  obtain ⟨off, hoff, hcase⟩ : ∃ off, offset ix c = .ok off ∧
      ((off = 0 ∧ last - first < c) ∨ (off = 1 ∧ last - first = c ∧ row.head? = row.getLast?)) := by
    simp only [offset, hfirst, hlast]
    split_ifs with h
    · refine ⟨0, rfl, Or.inl ⟨rfl, lt_of_le_of_ne hspan ?_⟩⟩
      intro e
      rw [e, sub_self, abs_zero] at h
      have : (0 : K) < 1 / 10 ^ 4 := by positivity
      exact absurd h (not_lt.mpr (le_of_lt this))
    · exact ⟨1, rfl, Or.inr ⟨rfl, hclosed (not_lt.mp h)⟩⟩
  obtain ⟨hlt, hshift⟩ := shift_eq zero row ix x0 c dir i0 off hlen hoff hi h0
  have hoffle : off ≤ 1 := offset_le ix c off hoff
  -- order of the two parts
  have hsubP : (ix.drop i0).Sublist ix := List.drop_sublist _ _
  have hsubQ : ((ix.drop off).take i0).Sublist ix :=
    (List.take_sublist _ _).trans (List.drop_sublist _ _)
  have hPinc : Increasing (ix.drop i0) := List.Pairwise.sublist hsubP hinc
  have hQinc : Increasing ((ix.drop off).take i0) := List.Pairwise.sublist hsubQ hinc
  have hle_last : ∀ a ∈ ix, a ≤ last := by
    intro a ha
    obtain ⟨l', hl'⟩ := List.getLast?_eq_some_iff.mp hlast
    rw [hl'] at ha hinc
    rcases List.mem_append.mp ha with h | h
    · exact le_of_lt ((List.pairwise_append.mp hinc).2.2 a h last (by simp))
    · rw [List.mem_singleton] at h; exact le_of_eq h
  have hcross : ∀ a ∈ ix.drop i0, ∀ b ∈ (ix.drop off).take i0, a < b + c := by
    intro a ha b hb
    have h1 := hle_last a (hsubP.subset ha)
    obtain ⟨t, ht⟩ : ∃ t, ix = first :: t := by
      cases ix with
      | nil => cases hfirst
      | cons x t => simp at hfirst; exact ⟨t, by rw [hfirst]⟩
    rcases hcase with ⟨ho, hs⟩ | ⟨ho, hs, _⟩
    · have h2 : first ≤ b := by
        have := hsubQ.subset hb
        rw [ht] at this hinc
        rcases List.mem_cons.mp this with h | h
        · exact le_of_eq h.symm
        · exact le_of_lt ((List.pairwise_cons.mp hinc).1 b h)
      linarith
    · have h2 : first < b := by
        have := List.mem_of_mem_take hb
        rw [ht] at this hinc
        rw [ho, List.drop_one, List.tail_cons] at this
        exact (List.pairwise_cons.mp hinc).1 b this
      linarith
  -- the zipped lists
  have hzP : (ix.drop i0).zip (row.drop i0) = (ix.zip row).drop i0 := by
    simp [List.zip_eq_zipWith, List.drop_zipWith]
  have hzQ : ((ix.drop off).take i0).zip ((row.drop off).take i0)
      = ((ix.zip row).drop off).take i0 := by
    simp [List.zip_eq_zipWith, List.drop_zipWith, List.take_zipWith]
  have hPl : (ix.drop i0).length = (row.drop i0).length := by simp [hlen]
  -- any pair of the original grid is in one of the two parts, up to one turn
  have hsplit : ∀ p ∈ ix.zip row, (p ∈ (ix.zip row).drop i0 ∨ p ∈ ((ix.zip row).drop off).take i0)
      ∨ ∃ q ∈ (ix.zip row).drop i0, q.2 = p.2 ∧ q.1 = p.1 + c := by
    intro p hp
    rcases hcase with ⟨ho, hs⟩ | ⟨ho, hs, hr⟩
    · left
      rw [← List.take_append_drop i0 (ix.zip row)] at hp
      rcases List.mem_append.mp hp with h | h
      · right; rw [ho]; exact h
      · left; exact h
    · obtain ⟨k, hk, hpk⟩ := List.mem_iff_getElem.mp hp
      rcases Nat.eq_zero_or_pos k with hk0 | hk0
      · right
        have hzl : (ix.zip row).length = ix.length := by simp [hlen]
        have hlt' : ix.length - 1 < (ix.zip row).length := by omega
        refine ⟨(ix.zip row)[ix.length - 1], ?_, ?_, ?_⟩
        · refine List.mem_iff_getElem.mpr ⟨ix.length - 1 - i0, ?_, ?_⟩
          · rw [List.length_drop]; omega
          · rw [List.getElem_drop]
            congr 1; omega
        · subst hk0
          rw [← hpk]
          simp only [List.getElem_zip]
          rw [List.head?_eq_getElem?, List.getLast?_eq_getElem?] at hr
          rw [List.getElem?_eq_getElem (by omega), List.getElem?_eq_getElem (by omega)] at hr
          have := Option.some.inj hr
          rw [this]
          congr 1; omega
        · subst hk0
          rw [← hpk]
          simp only [List.getElem_zip]
          rw [List.head?_eq_getElem?, List.getElem?_eq_getElem (by omega)] at hfirst
          rw [List.getLast?_eq_getElem?, List.getElem?_eq_getElem (by omega)] at hlast
          rw [Option.some.inj hfirst, Option.some.inj hlast]
          linarith
      · left
        by_cases hki : k < i0
        · right
          refine List.mem_iff_getElem.mpr ⟨k - 1, ?_, ?_⟩
          · rw [List.length_take, List.length_drop]; omega
          · rw [List.getElem_take, List.getElem_drop, ← hpk]
            congr 1; omega
        · left
          refine List.mem_iff_getElem.mpr ⟨k - i0, ?_, ?_⟩
          · rw [List.length_drop]; omega
          · rw [List.getElem_drop, ← hpk]
            congr 1; omega
  -- the nearest longitude
  obtain ⟨m, hm, hmin, _⟩ := argmin_spec _ _ hi
  rw [List.getElem?_map] at hm
  obtain ⟨v, hv, hvm⟩ := Option.map_eq_some_iff.mp hm
  have hvmin : ∀ w ∈ ix, |v - x0| ≤ |w - x0| := by
    intro w hw
    rw [hvm]
    exact hmin _ (List.mem_map_of_mem hw)
  have hhead : (ix.drop i0).head? = some v := by rw [List.head?_drop]; exact hv
  have hfirst_le : ∀ w ∈ ix, first ≤ w := by
    intro w hw
    cases ix with
    | nil => cases hw
    | cons x t =>
      simp only [List.head?_cons, Option.some.injEq] at hfirst
      rw [← hfirst]
      rcases List.mem_cons.mp hw with e | e
      · exact le_of_eq e.symm
      · exact le_of_lt ((List.pairwise_cons.mp hinc).1 w e)
  have hPge : ∀ w ∈ ix.drop i0, v ≤ w := by
    intro w hw
    cases hd : ix.drop i0 with
    | nil => rw [hd] at hw; cases hw
    | cons x t =>
      rw [hd] at hw hhead hPinc
      simp only [List.head?_cons, Option.some.injEq] at hhead
      rw [← hhead]
      rcases List.mem_cons.mp hw with e | e
      · exact le_of_eq e.symm
      · exact le_of_lt ((List.pairwise_cons.mp hPinc).1 w e)
  have hQle : ∀ w ∈ (ix.drop off).take i0, w ≤ v := by
    intro w hw
    obtain ⟨k, hk⟩ := List.mem_iff_getElem?.mp hw
    by_cases hki : k < i0
    · rw [List.getElem?_take_of_lt hki, List.getElem?_drop] at hk
      obtain ⟨hk1, hk2⟩ := List.getElem?_eq_some_iff.mp hk
      obtain ⟨hv1, hv2⟩ := List.getElem?_eq_some_iff.mp hv
      rcases Nat.lt_or_ge (off + k) i0 with h | h
      · rw [← hk2, ← hv2]
        exact le_of_lt (List.pairwise_iff_getElem.mp hinc _ _ hk1 hv1 h)
      · have : off + k = i0 := by omega
        rw [← hk2, ← hv2]
        simp only [this]
        exact le_rfl
    · rw [List.getElem?_take_eq_none (by omega)] at hk; cases hk
  have hvmem := List.mem_of_getElem? hv
  rcases hdir with hd | hd
  · subst hd
    refine ⟨_, _, hshift, ?_, ?_, ?_, ?_, ?_, v, List.mem_of_getElem? hv, hvmin, ?_, ?_⟩
    · simp only [List.length_append, List.length_drop, List.length_take]; omega
    · simp only [List.length_append, List.length_drop, List.length_take, List.length_map]; omega
    · refine List.pairwise_append.mpr ⟨hPinc, ?_, ?_⟩
      · exact List.Pairwise.map _ (fun a b h => by simpa using h) hQinc
      · intro a ha b hb
        obtain ⟨b', hb', rfl⟩ := List.mem_map.mp hb
        exact hcross a ha b' hb'
    · rw [List.zip_append hPl, List.zip_map_left, hzP, hzQ]
      intro p hp
      rcases hsplit p hp with (h | h) | ⟨q, hq, hq2, hq1⟩
      · exact ⟨p, List.mem_append_left _ h, rfl, 0, by simp⟩
      · exact ⟨_, List.mem_append_right _ (List.mem_map_of_mem h), rfl, 1, by simp⟩
      · exact ⟨q, List.mem_append_left _ hq, hq2, 1, by rw [hq1]; simp⟩
    · rw [List.zip_append hPl, List.zip_map_left, hzP, hzQ]
      intro p hp
      rcases List.mem_append.mp hp with h | h
      · exact ⟨p, List.mem_of_mem_drop h, rfl, 0, by simp⟩
      · obtain ⟨q, hq, rfl⟩ := List.mem_map.mp h
        exact ⟨q, List.mem_of_mem_drop (List.mem_of_mem_take hq), rfl, -1, by simp⟩
    · simp [hhead]
    · intro w hw
      simp only [reduceCtorEq, if_false]
      rcases List.mem_append.mp hw with h | h
      · have h1 := hPge w h
        have h2 := hle_last w (hsubP.subset h)
        have h3 := hfirst_le v hvmem
        exact ⟨h1, by linarith⟩
      · obtain ⟨b, hb, rfl⟩ := List.mem_map.mp h
        have h1 := hQle b hb
        have h2 := hfirst_le b (hsubQ.subset hb)
        have h3 := hcross v (List.mem_of_mem_head? hhead) b hb
        exact ⟨le_of_lt h3, by linarith⟩
  · subst hd
    refine ⟨_, _, hshift, ?_, ?_, ?_, ?_, ?_, v, List.mem_of_getElem? hv, hvmin, ?_, ?_⟩
    · simp only [List.length_append, List.length_drop, List.length_take]; omega
    · simp only [List.length_append, List.length_drop, List.length_take, List.length_map]; omega
    · refine List.pairwise_append.mpr ⟨?_, hQinc, ?_⟩
      · exact List.Pairwise.map _ (fun a b h => by simpa using h) hPinc
      · intro a ha b hb
        obtain ⟨a', ha', rfl⟩ := List.mem_map.mp ha
        exact sub_lt_iff_lt_add.mpr (hcross a' ha' b hb)
    · rw [List.zip_append (by simpa using hPl), List.zip_map_left, hzP, hzQ]
      intro p hp
      rcases hsplit p hp with (h | h) | ⟨q, hq, hq2, hq1⟩
      · exact ⟨_, List.mem_append_left _ (List.mem_map_of_mem h), rfl, -1, by simp [sub_eq_add_neg]⟩
      · exact ⟨p, List.mem_append_right _ h, rfl, 0, by simp⟩
      · exact ⟨_, List.mem_append_left _ (List.mem_map_of_mem hq), hq2, 0, by simp [hq1]⟩
    · rw [List.zip_append (by simpa using hPl), List.zip_map_left, hzP, hzQ]
      intro p hp
      rcases List.mem_append.mp hp with h | h
      · obtain ⟨q, hq, rfl⟩ := List.mem_map.mp h
        exact ⟨q, List.mem_of_mem_drop hq, rfl, 1, by simp⟩
      · exact ⟨p, List.mem_of_mem_drop (List.mem_of_mem_take h), rfl, 0, by simp⟩
    · simp [hv]
    · intro w hw
      simp only [if_true]
      rcases List.mem_append.mp hw with h | h
      · obtain ⟨b, hb, rfl⟩ := List.mem_map.mp h
        have h1 := hPge b hb
        have h2 := hle_last b (hsubP.subset hb)
        have h3 := hfirst_le v hvmem
        exact ⟨by linarith, by linarith⟩
      · have h1 := hQle w h
        have h3 := hcross v (List.mem_of_mem_head? hhead) w h
        exact ⟨by linarith, by linarith⟩

/-- On an open grid the values are only permuted: nothing is lost or repeated. -/
theorem C13_shift_permutes (zero : α) (row : List α) (ix : List K) (x0 c : K) (dir : Dir)
    (first last : K) (hlen : row.length = ix.length)
    (hfirst : ix.head? = some first) (hlast : ix.getLast? = some last)
    (hopen : 1 / 10 ^ 4 < |last - first - c|)
    (row' : List α) (ix' : List K) (hs : shift zero row ix x0 c dir = .ok (row', ix')) :
    row'.Perm row := by
  have hne : ix ≠ [] := by intro h; rw [h] at hfirst; cases hfirst
  obtain ⟨i0, hi⟩ := argmin_ok (ix.map (fun v => |v - x0|)) (by simpa using hne)
  have hoff : offset ix c = .ok 0 := by simp only [offset, hfirst, hlast]; rw [if_pos hopen]
  rcases Nat.eq_zero_or_pos i0 with h | h
  · subst h
    simp [shift, hoff, hi, rotateArray_zero (0 : K) ix 0 hne, bind, Except.bind] at hs
  · obtain ⟨_, he⟩ := shift_eq zero row ix x0 c dir i0 0 hlen hoff hi h
    rw [he] at hs
    have := (Prod.mk.inj (Except.ok.inj hs)).1
    rw [← this, List.drop_zero]
    exact List.perm_append_comm.trans (by rw [List.take_append_drop])

/-- `_shift` fails exactly when the first longitude is a nearest one to the base longitude
(including every grid that is already in the requested convention). -/
theorem C13_shift_fails_iff (zero : α) (row : List α) (ix : List K) (x0 c : K) (dir : Dir)
    (first : K) (hlen : row.length = ix.length) (hfirst : ix.head? = some first) :
    shift zero row ix x0 c dir = .error .valueError ↔ ∀ v ∈ ix, |first - x0| ≤ |v - x0| := by
  have hne : ix ≠ [] := by intro h; rw [h] at hfirst; cases hfirst
  obtain ⟨off, hoff⟩ : ∃ off, offset ix c = .ok off := by
    simp only [offset, hfirst, List.getLast?_eq_some_getLast hne]
    exact ⟨_, rfl⟩
  obtain ⟨i0, hi⟩ := argmin_ok (ix.map (fun v => |v - x0|)) (by simpa using hne)
  obtain ⟨t, ht⟩ : ∃ t, ix = first :: t := by
    cases ix with
    | nil => cases hfirst
    | cons x t => simp at hfirst; exact ⟨t, by rw [hfirst]⟩
  have hz := argmin_zero_iff (|first - x0|) (t.map (fun v => |v - x0|))
  rcases Nat.eq_zero_or_pos i0 with h | h
  · subst h
    constructor
    · intro _ v hv
      rw [ht, List.map_cons] at hi
      rw [ht] at hv
      rcases List.mem_cons.mp hv with e | e
      · rw [e]
      · exact hz.mp hi _ (List.mem_map_of_mem e)
    · intro _
      simp [shift, hoff, hi, rotateArray_zero (0 : K) ix off hne, bind, Except.bind]
  · obtain ⟨_, he⟩ := shift_eq zero row ix x0 c dir i0 off hlen hoff hi h
    constructor
    · intro e; rw [he] at e; cases e
    · intro hall
      exfalso
      rw [ht, List.map_cons] at hi
      rw [hz.mpr (by
        intro w hw
        obtain ⟨v, hv, rfl⟩ := List.mem_map.mp hw
        exact hall v (by rw [ht]; exact List.mem_cons_of_mem _ hv))] at hi
      have := Except.ok.inj hi
      omega

/-- "Any starting longitude is accepted" is false: shifting a grid to the convention it already
has raises an exception. -/
theorem C13_any_base_false :
    ¬ ∀ (row : List ℕ) (ix : List ℚ) (x0 : ℚ), row.length = ix.length → ix ≠ [] →
      Increasing ix → ∃ out, shift 0 row ix x0 360 .east = .ok out := by
  intro h
  obtain ⟨out, ho⟩ := h [1, 2, 3, 4] [0, 90, 180, 270] 0 rfl (by simp)
    (by unfold Increasing; decide +kernel)
  have : shift 0 [1, 2, 3, 4] [0, 90, 180, 270] (0 : ℚ) 360 .east = .error .valueError := by
    decide +kernel
  rw [this] at ho
  cases ho

/-- Open grid shifted west. -/
example : shift (0 : ℕ) [1, 2, 3, 4] [0, 90, 180, 270] (180 : ℚ) 360 .west
    = .ok ([3, 4, 1, 2], [-180, -90, 0, 90]) := by decide +kernel

/-- Closed grid shifted east. -/
example : shift (0 : ℕ) [1, 2, 3, 4, 1] [-180, -90, 0, 90, 180] (0 : ℚ) 360 .east
    = .ok ([3, 4, 1, 2, 3], [0, 90, 180, 270, 360]) := by decide +kernel

end Verif.Grid
