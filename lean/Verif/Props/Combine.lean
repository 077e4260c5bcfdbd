import Verif.Lemmas.Combine
import Verif.Lemmas.Num
import Verif.Spec.Grid
import Verif.Props.ExtractOTIS
/-!
# C83, C84: combining local and global solutions of ATLAS-compact models
-/
namespace Verif.Combine
open Verif Verif.Extract Verif.Spec Verif.Spec.Patches

variable {K V : Type} [Field K] [LinearOrder K] [IsStrictOrderedRing K] [FloorRing K]

/-- The chart of a global solution: columns and rows as in its file, every point with a number (0 on land). -/
def coarse (x y : List K) (rows : List (List (K × K))) : Chart K where
  lon k := x.getD k.toNat 0
  lat j := y.getD j.toNat 0
  cols k := 0 ≤ k ∧ k < x.length
  rows j := 0 ≤ j ∧ j < y.length
  value k j := some ((rows.getD j.toNat []).getD k.toNat (0, 0))

/-- The place between the ends of an axis next to a coordinate. -/
def held (x : List K) (a : K) : K := max (x.getD 0 0) (min (x.getD (x.length - 1) 0) a)

/-- Longitude of the centre of a cell of the fine grid. -/
def midLon (i : ℕ) : K := (2 * (i : K) + 1) / 60
/-- Latitude of the centre of a cell of the fine grid. -/
def midLat (j : ℕ) : K := -90 + (2 * (j : K) + 1) / 60

/-- The bilinear interpolation of the global solution at the centre of a cell, or next to it on the rim of the nodes. -/
def Base (x y : List K) (rows : List (List (K × K))) (j i : ℕ) (v : K × K) : Prop :=
  (coarse x y rows).Value (held x (midLon i)) (held y (midLat j)) (some v)

/-- The numbers as elements without mask. -/
def bareFld (rows : List (List (K × K))) : List (List (Fld K)) := rows.map fun r => r.map fun z => ⟨z.1, z.2, false⟩

theorem held_between {x : List K} (h : x.Pairwise (· < ·)) (h2 : 2 ≤ x.length) (a : K) :
    x.getD 0 0 ≤ held x a ∧ held x a ≤ x.getD (x.length - 1) 0 := by
  have : x.getD 0 0 < x.getD (x.length - 1) 0 := by
    have := List.pairwise_iff_getElem.1 h 0 (x.length - 1) (by omega) (by omega) (by omega)
    simp only [List.getD_eq_getElem?_getD]
    rwa [List.getElem?_eq_getElem (show 0 < x.length by omega),
      List.getElem?_eq_getElem (show x.length - 1 < x.length by omega)]
  exact ⟨le_max_left _ _, max_le this.le (min_le_left _ _)⟩

theorem clamp_held (x : List K) (a : K) : Spline.clamp x a = held x a := by
  unfold Spline.clamp held
  rw [headD_getD, getLastD_getD]

theorem coarse_shows {x y : List K} {rows : List (List (K × K))} (h : Fit x y rows) :
    Extract.Shows x y (bareFld rows) (coarse x y rows) 0 0 := by
  obtain ⟨⟨h1, h2, h3⟩, h4, h5⟩ := h
  refine ⟨h1, h2, h3, by simp [bareFld, h4], ?_, ?_, ?_, ?_, ?_, ?_⟩
  · intro r hr
    obtain ⟨r', hr', rfl⟩ := List.mem_map.1 hr
    rw [List.length_map]
    exact h5 r' hr'
  · intro c _; simp [coarse]
  · intro c _; simp [coarse]
  · intro c hc; simp only [coarse]; omega
  · intro c hc; simp only [coarse]; omega
  · intro r c hr hc
    have hr' : r < rows.length := by omega
    have hc' : c < rows[r].length := by rw [h5 _ (List.getElem_mem hr')]; exact hc
    simp only [coarse, entry, bareFld, Fld.number, zero_add, Int.toNat_natCast, List.getD_eq_getElem?_getD,
      List.getElem?_map, List.getElem?_eq_getElem hr', Option.map_some, Option.getD_some,
      List.getElem?_eq_getElem hc']
    simp

/-- Resampling a global solution. -/
theorem spline_base {x y : List K} {rows : List (List (K × K))} (h : Fit x y rows) (j i : ℕ) :
    Base x y rows j i (Spline.spline x y (rows.map fun r => r.map Prod.fst) (midLon i) (midLat j),
      Spline.spline x y (rows.map fun r => r.map Prod.snd) (midLon i) (midLat j)) := by
  have hs := coarse_shows h
  have bx := held_between h.1.1.1 h.1.2.1 (midLon i)
  have byy := held_between h.1.1.2 h.1.2.2 (midLat j)
  obtain ⟨o, ho, z, m, e, -, hm, hz⟩ := splines_value hs _ _ bx.1 bx.2 byy.1 byy.2
  have ne : o ≠ none := by
    obtain ⟨k, l, t, s, -, rfl⟩ := ho
    unfold Chart.blend
    rw [if_pos]
    · exact fun h => by cases h
    · intro p hp _
      simp only [Chart.corners, List.mem_cons, List.not_mem_nil, or_false, coarse] at hp
      rcases hp with rfl | rfl | rfl | rfl <;> exact fun h => by cases h
  obtain ⟨w, rfl⟩ := Option.ne_none_iff_exists'.1 ne
  have ez := hz w rfl
  have fst_rows : reRows (bareFld rows) = rows.map fun r => r.map Prod.fst := by
    unfold reRows bareFld
    rw [List.map_map]
    refine List.map_congr_left fun r _ => ?_
    rw [Function.comp_apply, List.map_map]
    rfl
  have snd_rows : imRows (bareFld rows) = rows.map fun r => r.map Prod.snd := by
    unfold imRows bareFld
    rw [List.map_map]
    refine List.map_congr_left fun r _ => ?_
    rw [Function.comp_apply, List.map_map]
    rfl
  unfold splineC at e
  rw [if_pos ⟨h.1.1, h.1.2.1, h.1.2.2⟩] at e
  have e' := Prod.mk.inj (Except.ok.inj e)
  rw [fst_rows, snd_rows] at e'
  unfold Spline.spline at e' ⊢
  rw [clamp_held, clamp_held]
  rw [clamp_inside _ bx.1 bx.2, clamp_inside _ byy.1 byy.2] at e'
  unfold Base
  rw [e'.1, ez]
  exact ho

theorem grid_plain (f : K → K → V) :
    ((y30 : List K).map fun b => (x30 : List K).map fun a => f a b) = plain30 fun j i => f (midLon i) (midLat j) := by
  rw [y30_eq, x30_eq, List.map_map, plain30]
  refine List.map_congr_left fun j _ => ?_
  rw [Function.comp_apply, List.map_map]
  rfl

/-- **C83** for elevations and transports: every cell of the combined model shows the value of the last local
solution that has a node with a value in it, and the interpolation of the global solution where there is none. -/
theorem C83_fields {x y : List K} {rows : List (List (K × K))} (h : Fit x y rows)
    (sols : List (Local K (K × K))) (hs : ∀ s ∈ sols, s.patch.OnGlobe) :
    ∃ m, combineC x y rows sols = .ok m ∧ CGrid.Shape m 5400 10800 ∧ ∀ j i, j < 5400 → i < 10800 →
      ∃ base v, Base x y rows j i base ∧ CGrid.entry m j i = some v ∧
        Patches.Shows (sols.map Local.patch) base j i v := by
  unfold combineC resampleC
  rw [if_pos h, ok_bind, grid_plain fun a b => (Spline.spline x y (rows.map fun r => r.map Prod.fst) a b,
      Spline.spline x y (rows.map fun r => r.map Prod.snd) a b)]
  obtain ⟨g, e, hg⟩ := overlay_patches sols hs fun j i =>
    (Spline.spline x y (rows.map fun r => r.map Prod.fst) (midLon i) (midLat j),
      Spline.spline x y (rows.map fun r => r.map Prod.snd) (midLon i) (midLat j))
  refine ⟨_, e, plain30_shape g, fun j i hj hi => ⟨_, g j i, spline_base h j i, plain30_entry g hj hi, hg j i hi⟩⟩

/-- **C83** for depths. -/
theorem C83_depths {x y : List K} {rows : List (List K)} (h : Fit x y rows)
    (sols : List (Local K K)) (hs : ∀ s ∈ sols, s.patch.OnGlobe) :
    ∃ m, combine x y rows sols = .ok m ∧ CGrid.Shape m 5400 10800 ∧ ∀ j i, j < 5400 → i < 10800 →
      ∃ base v, Base x y (rows.map fun r => r.map fun d => (d, 0)) j i (base, 0) ∧ CGrid.entry m j i = some v ∧
        Patches.Shows (sols.map Local.patch) base j i v := by
  have h' : Fit x y (rows.map fun r => r.map fun d => ((d, 0) : K × K)) := by
    refine ⟨h.1, by rw [List.length_map]; exact h.2.1, fun r hr => ?_⟩
    obtain ⟨r', hr', rfl⟩ := List.mem_map.1 hr
    rw [List.length_map]
    exact h.2.2 r' hr'
  unfold combine resample
  rw [if_pos h, ok_bind, grid_plain fun a b => Spline.spline x y rows a b]
  obtain ⟨g, e, hg⟩ := overlay_patches sols hs fun j i => Spline.spline x y rows (midLon i) (midLat j)
  refine ⟨_, e, plain30_shape g, fun j i hj hi => ⟨_, g j i, ?_, plain30_entry g hj hi, hg j i hi⟩⟩
  have hb := spline_base h' j i
  have e1 : (rows.map fun r => r.map fun d => ((d, 0) : K × K)).map (fun r => r.map Prod.fst) = rows := by
    rw [List.map_map]
    conv_rhs => rw [← List.map_id rows]
    refine List.map_congr_left fun r _ => ?_
    rw [Function.comp_apply, List.map_map]
    exact List.map_id r
  rw [e1] at hb
  obtain ⟨k, l, t, s, hat, hv⟩ := id hb
  have hz : Spline.spline x y ((rows.map fun r => r.map fun d => ((d, 0) : K × K)).map fun r => r.map Prod.snd)
      (midLon i) (midLat j) = 0 := by
    unfold Chart.blend at hv
    have zero : ∀ a b : ℤ, (((coarse x y (rows.map fun r => r.map fun d => ((d, 0) : K × K))).value a b).getD (0, 0)).2
        = 0 := by
      intro a b
      simp only [coarse, Option.getD_some, List.getD_eq_getElem?_getD, List.getElem?_map]
      cases rows[b.toNat]? with
      | none => simp
      | some r =>
        simp only [Option.map_some, Option.getD_some, List.getElem?_map]
        cases r[a.toNat]? <;> rfl
    split_ifs at hv with hc
    have := congrArg Prod.snd (Option.some.inj hv)
    dsimp only at this
    rw [this]
    simp only [Chart.corners, List.map_cons, List.map_nil, zero, mul_zero, List.sum_cons, List.sum_nil, add_zero]
  rw [hz] at hb
  exact hb

/-- A cell has at most one node of a local solution not wider than the globe, so what it shows is determined. -/
theorem C83_once (s : Local K V) (wide : ∀ r ∈ s.rows, r.length ≤ 10800) (j i : ℕ) (v w : V)
    (hv : s.patch.Has j i v) (hw : s.patch.Has j i w) : v = w := by
  obtain ⟨r, c, x, y, e1, n1, c1⟩ := hv
  obtain ⟨r', c', x', y', e2, n2, c2⟩ := hw
  obtain ⟨rfl, rfl⟩ := (node_iff s _ _ _ _).1 n1
  obtain ⟨rfl, rfl⟩ := (node_iff s _ _ _ _).1 n2
  unfold InCell at c1 c2
  rw [coord_mark, coord_mark, inCell_x, inCell_y] at c1 c2
  have small : ∀ r c v, s.patch.value r c = some v → c < 10800 := by
    intro r c v h
    by_contra hc
    unfold Patch.value Local.patch at h
    simp only [List.getD_eq_getElem?_getD] at h
    cases hr : s.rows[r]? with
    | none => rw [hr] at h; simp at h
    | some row =>
      have := wide row (List.mem_of_getElem? hr)
      rw [hr, Option.getD_some, List.getElem?_eq_none (by omega)] at h
      cases h
  have l1 := small _ _ _ e1
  have l2 := small _ _ _ e2
  obtain ⟨⟨t1, a1⟩, b1⟩ := c1
  obtain ⟨⟨t2, a2⟩, b2⟩ := c2
  unfold mark at *
  have er : r = r' := by omega
  have ec : c = c' := by omega
  subst er ec
  exact Option.some.inj (e1.symm.trans e2)

/-- How a local solution lies on the fine grid if its limits are the outer sides of its cells, as they are for the
global solution in the same file: the fine cell on which its row `r` and column `c` lies shows the value of row `r + 1`
and column `c + 1`.  (Whether the limits are meant like that is not stated in the code.) -/
theorem C83_offset (s : Local K V) (w n : ℤ) (hw : s.lon = (w : K) / 30) (hn : s.lat = (n : K) / 30) (r c j i : ℕ)
    (hi : (i : ℤ) = w + c) (hj : (j : ℤ) = n + 2700 + r) (v : V) (hv : s.patch.value (r + 1) (c + 1) = some v) :
    s.patch.Has j i v := by
  refine ⟨r + 1, c + 1, _, _, hv, (node_iff s _ _ _ _).2 ⟨rfl, rfl⟩, ?_⟩
  have fw : ⌊s.lon / d30⌋ = w := floor_limit _ _ (by rw [hw]) (by
    rw [hw]; exact (div_lt_div_iff_of_pos_right (by norm_num)).2 (by linarith))
  have fn : ⌊s.lat / d30⌋ = n := floor_limit _ _ (by rw [hn]) (by
    rw [hn]; exact (div_lt_div_iff_of_pos_right (by norm_num)).2 (by linarith))
  unfold InCell
  rw [coord_mark, coord_mark, inCell_x, inCell_y]
  unfold mark
  rw [fw, fn]
  exact ⟨⟨0, by push_cast; omega⟩, by push_cast; omega⟩

/-- A local solution of two rows and two columns, one node on land. -/
def bay : Local ℚ (ℚ × ℚ) := ⟨-1 / 30, 20, [[some (1, 2), some (3, 4)], [none, some (5, 6)]]⟩

theorem bay_onGlobe : bay.patch.OnGlobe := by
  intro r c v x y hv hn
  obtain ⟨rfl, rfl⟩ := (node_iff bay _ _ _ _).1 hn
  have hr : r < 2 := by
    by_contra h
    obtain ⟨r, rfl⟩ : ∃ q, r = q + 2 := ⟨r - 2, by omega⟩
    simp [Patch.value, Local.patch, bay] at hv
  have hc : c < 2 := by
    by_contra h
    obtain ⟨c, rfl⟩ : ∃ q, c = q + 2 := ⟨c - 2, by omega⟩
    have : r = 0 ∨ r = 1 := by omega
    rcases this with rfl | rfl <;> simp [Patch.value, Local.patch, bay] at hv
  have all : ∀ r c : Fin 2, -720 < coord bay.lon c ∧ coord bay.lon c ≤ 360 ∧ -90 < coord bay.lat r ∧
      coord bay.lat r ≤ 90 := by decide +kernel
  exact all ⟨r, hr⟩ ⟨c, hc⟩

/-- The hypotheses of the theorems above are met, and its nodes lie on both sides of Greenwich. -/
example : Fit (uniform (45 : ℚ) 90 4) [-45, 45] [[(0, 0), (1, 0), (2, 0), (3, 0)], [(0, 0), (1, 0), (2, 0), (3, 0)]] ∧
    (∀ s ∈ [bay], s.patch.OnGlobe) ∧ bay.patch.Has 3299 10798 (1, 2) ∧ bay.patch.Has 3300 10799 (5, 6) := by
  refine ⟨by decide +kernel, by simpa using bay_onGlobe, ?_, ?_⟩
  · refine ⟨0, 0, _, _, rfl, (node_iff bay _ _ _ _).2 ⟨rfl, rfl⟩, ?_⟩
    unfold InCell
    rw [coord_mark, coord_mark, inCell_x, inCell_y]
    exact ⟨⟨1, by decide +kernel⟩, by decide +kernel⟩
  · refine ⟨1, 1, _, _, rfl, (node_iff bay _ _ _ _).2 ⟨rfl, rfl⟩, ?_⟩
    unfold InCell
    rw [coord_mark, coord_mark, inCell_x, inCell_y]
    exact ⟨⟨1, by decide +kernel⟩, by decide +kernel⟩

/-- An axis with equal steps. -/
def EvenAxis (x : List K) (a d : K) : Prop := 2 ≤ x.length ∧ 0 < d ∧ x = uniform a d x.length

theorem uniform_getD (a d : K) {n k : ℕ} (h : k < n) : (uniform a d n).getD k 0 = a + k * d := by
  unfold uniform
  rw [List.getD_eq_getElem?_getD, List.getElem?_map, List.getElem?_range h]
  rfl

/-- Rounding gives the nearest whole number. -/
theorem round_nearest (q : K) (k : ℤ) : |q - (Num.round q : K)| ≤ |q - k| := by
  have h := Num.abs_sub_round_le q
  by_cases e : k = Num.round q
  · rw [e]
  · have : (1 : K) ≤ |((k - Num.round q : ℤ) : K)| := by
      rw [← Int.cast_abs]
      exact_mod_cast Int.one_le_abs (sub_ne_zero.2 e)
    have t : |((k - Num.round q : ℤ) : K)| ≤ |q - Num.round q| + |q - k| := by
      push_cast
      have := abs_sub_abs_le_abs_sub (q - Num.round q) (q - k)
      have e2 : (k : K) - Num.round q = (q - Num.round q) - (q - k) := by ring
      rw [e2]
      exact abs_sub _ _
    linarith

/-- The node chosen for a coordinate is one of the nearest. -/
theorem nearest_even {x : List K} {a d : K} (h : EvenAxis x a d) (q : K) :
    ∃ k, nearest x q = .ok k ∧ k < x.length ∧ ∀ k' < x.length, |q - x.getD k 0| ≤ |q - x.getD k' 0| := by
  obtain ⟨h2, hd, he⟩ := h
  have hn : 0 < x.length := by omega
  have first : x.head? = some a := by
    rw [List.head?_eq_getElem?, List.getElem?_eq_getElem hn]
    have := uniform_getD a d hn
    rw [← he, List.getD_eq_getElem?_getD, List.getElem?_eq_getElem hn] at this
    simpa using this
  have last : x.getLast? = some (a + ((x.length - 1 : ℕ) : K) * d) := by
    rw [List.getLast?_eq_getElem?, List.getElem?_eq_getElem (by omega)]
    have := uniform_getD a d (show x.length - 1 < x.length by omega)
    rw [← he, List.getD_eq_getElem?_getD, List.getElem?_eq_getElem (by omega)] at this
    simpa using this
  have cn : ((x.length - 1 : ℕ) : K) = (x.length : K) - 1 := by
    rw [Nat.cast_sub (by omega)]; norm_num
  have n1 : (1 : K) ≤ (x.length : K) - 1 := by
    rw [← cn]; exact_mod_cast (show 1 ≤ x.length - 1 by omega)
  have span : a + ((x.length - 1 : ℕ) : K) * d - a ≠ 0 := by
    rw [cn, add_sub_cancel_left]
    exact (mul_pos (by linarith) hd).ne'
  have scaled : ((x.length : K) - 1) * (q - a) / (a + ((x.length - 1 : ℕ) : K) * d - a) = (q - a) / d := by
    rw [cn, add_sub_cancel_left]
    have : (x.length : K) - 1 ≠ 0 := by linarith
    field_simp
  unfold nearest
  rw [first, last]
  dsimp only
  rw [if_neg span, scaled]
  obtain ⟨t, ht⟩ : ∃ t, t = (q - a) / d := ⟨_, rfl⟩
  obtain ⟨u, hu⟩ : ∃ u, u = max 0 (min ((x.length : K) - 1) t) := ⟨_, rfl⟩
  rw [← ht, ← hu]
  have u0 : 0 ≤ u := by rw [hu]; exact le_max_left _ _
  have u1 : u ≤ (x.length : K) - 1 := by rw [hu]; exact max_le (by linarith) (min_le_left _ _)
  have rb := Num.abs_sub_round_le u
  rw [abs_le] at rb
  have r0 : 0 ≤ Num.round u := by
    by_contra hc
    have : Num.round u ≤ -1 := by omega
    have : (Num.round u : K) ≤ ((-1 : ℤ) : K) := by exact_mod_cast this
    push_cast at this
    linarith
  have r1 : Num.round u ≤ (x.length : ℤ) - 1 := by
    by_contra hc
    have : (x.length : ℤ) ≤ Num.round u := by omega
    have : ((x.length : ℤ) : K) ≤ Num.round u := by exact_mod_cast this
    push_cast at this
    linarith
  refine ⟨_, rfl, by omega, fun k' hk' => ?_⟩
  have ek : (((Num.round u).toNat : ℕ) : K) = (Num.round u : K) := by
    have : (((Num.round u).toNat : ℕ) : ℤ) = Num.round u := Int.toNat_of_nonneg r0
    exact_mod_cast congrArg (fun z : ℤ => (z : K)) this
  rw [he, uniform_getD a d (show (Num.round u).toNat < x.length by omega), uniform_getD a d hk', ek]
  have key : |t - Num.round u| ≤ |t - (k' : K)| := by
    have k0 : (0 : K) ≤ k' := by exact_mod_cast Nat.zero_le _
    have k1 : (k' : K) ≤ (x.length : K) - 1 := by
      rw [← cn]; exact_mod_cast (show k' ≤ x.length - 1 by omega)
    rcases le_total t 0 with h0 | h0
    · have : u = 0 := by rw [hu, max_eq_left]; exact (min_le_right _ _).trans h0
      have hr : (Num.round u : K) = 0 := by
        have a1 := round_nearest u 0
        rw [this] at a1 ⊢
        simpa using a1
      rw [hr, sub_zero, abs_of_nonpos h0, abs_of_nonpos (by linarith)]
      linarith
    · rcases le_total t ((x.length : K) - 1) with h1 | h1
      · have : u = t := by rw [hu, min_eq_right h1, max_eq_right h0]
        rw [this]
        exact_mod_cast round_nearest t (k' : ℤ)
      · have : u = (((x.length : ℤ) - 1 : ℤ) : K) := by
          rw [hu, min_eq_left h1, max_eq_right (by linarith)]; push_cast; rfl
        have hr : (Num.round u : K) = (x.length : K) - 1 := by
          have a1 := round_nearest u ((x.length : ℤ) - 1)
          rw [← this, sub_self, abs_zero] at a1
          have a2 := abs_nonpos_iff.1 a1
          have a3 : (Num.round u : K) = u := by linarith
          rw [a3, this]; push_cast; rfl
        rw [hr, abs_of_nonneg (by linarith), abs_of_nonneg (by linarith)]
        linarith
  have scale : ∀ z : K, |q - (a + z * d)| = |t - z| * d := by
    intro z
    rw [← abs_of_pos hd, ← abs_mul, abs_of_pos hd, ht]
    congr 1
    field_simp
    ring
  rw [scale, scale]
  exact mul_le_mul_of_nonneg_right key hd.le

/-- The mask of a global solution: whole numbers from -128 to 127 by row and column. -/
def GoodMask (x y : List K) (mz : List (List ℤ)) : Prop :=
  mz.length = y.length ∧ (∀ r ∈ mz, r.length = x.length) ∧ ∀ r ∈ mz, ∀ v ∈ r, -128 ≤ v ∧ v ≤ 127

/-- A node of the global solution nearest to the centre of a fine cell is in the sea. -/
def NearSea (x y : List K) (mz : List (List ℤ)) (j i : ℕ) (v : ℤ) : Prop :=
  ∃ k l, k < x.length ∧ l < y.length ∧ (∀ k' < x.length, |midLon i - x.getD k 0| ≤ |midLon i - x.getD k' 0|) ∧
    (∀ l' < y.length, |midLat j - y.getD l 0| ≤ |midLat j - y.getD l' 0|) ∧ v = (mz.getD l []).getD k 0

theorem coarseMask_plain {x y : List K} {a d b e : K} (hx : EvenAxis x a d) (hy : EvenAxis y b e)
    {mz : List (List ℤ)} (hm : GoodMask x y mz) :
    ∃ f, coarseMask x y mz = .ok (plain30 f) ∧ ∀ j i, NearSea x y mz j i (f j i) := by
  choose kx ex lx nx using fun q => nearest_even hx q
  choose ky ey ly ny using fun q => nearest_even hy q
  refine ⟨fun j i => (mz.getD (ky (midLat j)) []).getD (kx (midLon i)) 0, ?_, fun j i =>
    ⟨_, _, lx _, ly _, nx _, ny _, rfl⟩⟩
  unfold coarseMask
  rw [pyMap_ok_of_forall (g := kx) (fun q _ => ex q), ok_bind,
    pyMap_ok_of_forall (g := ky) (fun q _ => ey q), ok_bind]
  have inner : ∀ l < y.length, ∀ k < x.length, mz[l]?.bind (·[k]?) = some ((mz.getD l []).getD k 0) ∧
      int8 ((mz.getD l []).getD k 0) = (mz.getD l []).getD k 0 := by
    intro l hl k hk
    have hl' : l < mz.length := by rw [hm.1]; exact hl
    have hk' : k < mz[l].length := by rw [hm.2.1 _ (List.getElem_mem hl')]; exact hk
    have hv := hm.2.2 _ (List.getElem_mem hl') _ (List.getElem_mem hk')
    simp only [List.getD_eq_getElem?_getD, List.getElem?_eq_getElem hl', Option.bind_some, Option.getD_some,
      List.getElem?_eq_getElem hk', true_and]
    unfold int8
    omega
  rw [pyMap_ok_of_forall (g := fun r => ((x30 : List K).map kx).map fun c => (mz.getD r []).getD c 0)]
  · rw [List.map_map, ← grid_plain fun a b => (mz.getD (ky b) []).getD (kx a) 0]
    refine congrArg Except.ok (List.map_congr_left fun b _ => ?_)
    rw [Function.comp_apply, List.map_map]
    rfl
  · intro r hr
    obtain ⟨b, -, rfl⟩ := List.mem_map.1 hr
    refine pyMap_ok_of_forall fun c hc => ?_
    obtain ⟨a, -, rfl⟩ := List.mem_map.1 hc
    obtain ⟨h1, h2⟩ := inner _ (ly b) _ (lx a)
    rw [h1]
    dsimp only
    rw [h2]

/-- The local solution as a patch of ones. -/
def ones (s : Local K K) : Local K ℤ := ⟨s.lon, s.lat, s.rows.map fun r => r.map fun o => o.map fun _ => (1 : ℤ)⟩

theorem ones_value (s : Local K K) (r c : ℕ) : (ones s).patch.value r c = (s.patch.value r c).map fun _ => 1 := by
  unfold Patch.value Local.patch ones
  simp only [List.getD_eq_getElem?_getD, List.getElem?_map]
  cases s.rows[r]? with
  | none => simp
  | some row =>
    simp only [Option.map_some, Option.getD_some, List.getElem?_map]
    cases row[c]? <;> rfl

theorem ones_has (s : Local K K) (j i : ℕ) (w : ℤ) :
    (ones s).patch.Has j i w ↔ w = 1 ∧ ∃ v, s.patch.Has j i v := by
  constructor
  · rintro ⟨r, c, x, y, hv, hn, hc⟩
    rw [ones_value] at hv
    obtain ⟨v, hv', rfl⟩ := Option.map_eq_some_iff.1 hv
    exact ⟨rfl, v, r, c, x, y, hv', hn, hc⟩
  · rintro ⟨rfl, v, r, c, x, y, hv, hn, hc⟩
    exact ⟨r, c, x, y, by rw [ones_value, hv]; rfl, hn, hc⟩

theorem ones_onGlobe {s : Local K K} (h : s.patch.OnGlobe) : (ones s).patch.OnGlobe := by
  intro r c v x y hv hn
  rw [ones_value] at hv
  obtain ⟨v, hv', rfl⟩ := Option.map_eq_some_iff.1 hv
  exact h r c v x y hv' hn

/-- **C83** for the mask: a cell is in the sea if a local solution has a depth in it or if the nearest node of the
global solution is in the sea, and on land otherwise. -/
theorem C83_mask {x y : List K} {a d b e : K} (hx : EvenAxis x a d) (hy : EvenAxis y b e)
    {mz : List (List ℤ)} (hm : GoodMask x y mz) (sols : List (Local K K)) (hs : ∀ s ∈ sols, s.patch.OnGlobe) :
    ∃ m, atlasMask x y mz sols = .ok m ∧ CGrid.Shape m 5400 10800 ∧ ∀ j i, j < 5400 → i < 10800 →
      ∃ v near, CGrid.entry m j i = some v ∧ NearSea x y mz j i near ∧
        (v ≠ 0 ↔ (∃ s ∈ sols, ∃ w, s.patch.Has j i w) ∨ near ≠ 0) := by
  obtain ⟨f, ef, hf⟩ := coarseMask_plain hx hy hm
  obtain ⟨g, eg, hg⟩ := overlay_patches (sols.map ones) (by
    intro s hs'
    obtain ⟨s, h, rfl⟩ := List.mem_map.1 hs'
    exact ones_onGlobe (hs s h)) f
  refine ⟨plain30 g, ?_, plain30_shape g, fun j i hj hi => ⟨_, _, plain30_entry g hj hi, hf j i, ?_⟩⟩
  · unfold atlasMask
    rw [ef, ok_bind]
    exact eg
  · rcases hg j i hi with ⟨pre, p, post, h1, h2, -⟩ | ⟨h1, h2⟩
    · have hp : p ∈ (sols.map ones).map Local.patch := by rw [h1]; simp
      obtain ⟨s', hs', rfl⟩ := List.mem_map.1 hp
      obtain ⟨s, hs, rfl⟩ := List.mem_map.1 hs'
      obtain ⟨e1, v, hv⟩ := (ones_has s j i _).1 h2
      rw [e1]
      exact ⟨fun _ => Or.inl ⟨s, hs, v, hv⟩, fun _ => by norm_num⟩
    · rw [h2]
      constructor
      · exact Or.inr
      · rintro (⟨s, hs, w, hw⟩ | h)
        · exact absurd ((ones_has s j i 1).2 ⟨rfl, w, hw⟩)
            (h1 _ (List.mem_map_of_mem (List.mem_map_of_mem hs)) 1)
        · exact h

theorem pyMap_fails {α β : Type} (f : α → Except PyErr β) (e : PyErr) :
    ∀ l : List α, (∀ a ∈ l, (∃ b, f a = .ok b) ∨ f a = .error e) → (∃ a ∈ l, f a = .error e) → pyMap f l = .error e
  | [], _, ⟨a, h, _⟩ => by cases h
  | x :: t, h, ⟨a, ha, he⟩ => by
    rcases h x List.mem_cons_self with ⟨b, hb⟩ | hb
    · have : a ∈ t := by
        rcases List.mem_cons.1 ha with rfl | ht
        · rw [hb] at he; cases he
        · exact ht
      rw [pyMap, hb]
      dsimp only
      rw [pyMap_fails f e t (fun y hy => h y (List.mem_cons_of_mem _ hy)) ⟨a, this, he⟩]
    · rw [pyMap, hb]

theorem axisIndex_cases (n : ℕ) (i : ℤ) : (∃ k, OTIS.axisIndex n i = .ok k) ∨ OTIS.axisIndex n i = .error .indexError := by
  unfold OTIS.axisIndex
  split_ifs
  · exact Or.inl ⟨_, rfl⟩
  · exact Or.inl ⟨_, rfl⟩
  · exact Or.inr rfl

/-- Without the limits on the coordinates there is no model at all: a local solution with a value east of 360 degrees
(such as one around Greenwich from 350 to 370 degrees) is an `IndexError`. -/
theorem C83_beyond {x y : List K} {rows : List (List (K × K))} (h : Fit x y rows) (s : Local K (K × K))
    (rest : List (Local K (K × K))) {r c : ℕ} {v : K × K} {a b : K} (hv : s.patch.value r c = some v)
    (hn : s.patch.Node r c a b) (ha : 360 < a) : combineC x y rows (s :: rest) = .error .indexError := by
  obtain ⟨rfl, rfl⟩ := (node_iff s _ _ _ _).1 hn
  unfold combineC resampleC
  rw [if_pos h, ok_bind, overlay, y30_length, x30_length]
  unfold assign
  rw [pyMap_fails _ .indexError, error_bind, error_bind]
  · intro p _
    rcases axisIndex_cases 5400 p.1.1 with ⟨k, hk⟩ | hk
    · rcases axisIndex_cases 10800 p.1.2 with ⟨l, hl⟩ | hl
      · exact Or.inl ⟨_, by rw [hk, ok_bind, hl, ok_bind]⟩
      · exact Or.inr (by rw [hk, ok_bind, hl, error_bind])
    · exact Or.inr (by rw [hk, error_bind])
  · refine ⟨_, (mem_targets s ((⌊(coord s.lat r - (-90 + d30 / 2)) / d30⌋,
      ⌊(positive (coord s.lon c) - d30 / 2) / d30⌋), v)).2 ⟨r, c, hv, rfl, rfl⟩, ?_⟩
    dsimp only
    rw [coord_mark] at ha
    have hm : 10800 < mark s.lon c := by
      rw [lt_div_iff₀ (by norm_num)] at ha
      have : ((10800 : ℤ) : K) < mark s.lon c := by push_cast; linarith
      exact_mod_cast this
    have hl : OTIS.axisIndex 10800 ⌊(positive (coord s.lon c) - d30 / 2) / d30⌋ = .error .indexError := by
      rw [coord_mark, positive_eq, column_eq, if_neg (by omega)]
      unfold OTIS.axisIndex
      rw [if_neg (by push_cast; omega), if_neg (by omega)]
    rw [hl]
    rcases axisIndex_cases 5400 ⌊(coord s.lat r - (-90 + d30 / 2)) / d30⌋ with ⟨k, hk⟩ | hk
    · rw [hk, ok_bind, error_bind]
    · rw [hk, error_bind]

/-- A model without local solutions. -/
theorem combine_alone {x y : List K} {rows : List (List (K × K))} (h : Fit x y rows) :
    ∃ m, combineC x y rows [] = .ok m ∧ ∀ j i, j < 5400 → i < 10800 → CGrid.entry m j i =
      some (Spline.spline x y (rows.map fun r => r.map Prod.fst) (midLon i) (midLat j),
        Spline.spline x y (rows.map fun r => r.map Prod.snd) (midLon i) (midLat j)) := by
  unfold combineC resampleC
  rw [if_pos h, ok_bind, grid_plain fun a b => (Spline.spline x y (rows.map fun r => r.map Prod.fst) a b,
      Spline.spline x y (rows.map fun r => r.map Prod.snd) a b)]
  exact ⟨_, rfl, fun j i hj hi => plain30_entry _ hj hi⟩

/-- Four columns with the numbers 0, 1, 2, 3. -/
def fourRows : List (List (ℚ × ℚ)) := [[(0, 0), (1, 0), (2, 0), (3, 0)], [(0, 0), (1, 0), (2, 0), (3, 0)]]

theorem four_fit : Fit (uniform (45 : ℚ) 90 4) [-45, 45] fourRows := by decide +kernel

/-- The same as a file of a global model. -/
def fourLayer : Layer ℚ := ⟨uniform (45 : ℚ) 90 4, [-45, 45], bareFld fourRows⟩

/-- Refuted: the combined model is the field of the global solution around the globe.  Between its last and its first
column the value of the nearer one is held: the combined model shows 0 just east of Greenwich, where the field between
the columns with 3 and 0 is about half way. -/
theorem C83_seam_false : ∃ m, combineC (uniform (45 : ℚ) 90 4) [-45, 45] fourRows [] = .ok m ∧
    CGrid.entry m 2700 0 = some (0, 0) ∧ ∀ o, (globe fourLayer 45).Value (midLon 0) (midLat 2700) o →
      o = some (2699 / 1800, 0) := by
  obtain ⟨m, e, hm⟩ := combine_alone four_fit
  refine ⟨m, e, ?_, fun o ho => ?_⟩
  · rw [hm 2700 0 (by norm_num) (by norm_num)]
    decide +kernel
  · have he : Even fourLayer 45 := by
      refine ⟨?_, ?_, ?_, ?_, ?_, ?_⟩ <;> decide +kernel
    refine Chart.Value.unique (globe_ordered he) ho ⟨-1, 0, (1 / 60 + 45) / 90, (1 / 60 + 45) / 90, ?_, ?_⟩
    · refine ⟨trivial, trivial, ⟨by norm_num, by decide +kernel⟩, ⟨by norm_num, by decide +kernel⟩, by norm_num, by norm_num,
        by norm_num, by norm_num, ?_, ?_⟩ <;> decide +kernel
    · decide +kernel

/-- Four columns, the third on land. -/
def coastRows : List (List (ℚ × ℚ)) := [[(2, 0), (2, 0), (0, 0), (2, 0)], [(2, 0), (2, 0), (0, 0), (2, 0)]]

def coastMask : List (List ℤ) := [[1, 1, 0, 1], [1, 1, 0, 1]]

/-- Refuted: values in the sea do not depend on what the file has on land.  The tide is the same everywhere in the sea;
the combined model shows less of it in a cell of the sea next to the coast. -/
theorem C83_coast_false : ∃ m k, combineC (uniform (45 : ℚ) 90 4) [-45, 45] coastRows [] = .ok m ∧
    atlasMask (uniform (45 : ℚ) 90 4) [-45, 45] coastMask [] = .ok k ∧
    (∃ v, CGrid.entry k 2700 5100 = some v ∧ v ≠ 0) ∧ CGrid.entry m 2700 5100 = some (3299 / 2700, 0) := by
  obtain ⟨m, e, hm⟩ := combine_alone (show Fit (uniform (45 : ℚ) 90 4) [-45, 45] coastRows by decide +kernel)
  obtain ⟨k, e', -, hk⟩ := C83_mask (x := uniform (45 : ℚ) 90 4) (y := [-45, 45]) (a := 45) (d := 90) (b := -45) (e := 90)
    (mz := coastMask) ⟨by decide, by norm_num, by decide +kernel⟩ ⟨by decide, by norm_num, by decide +kernel⟩
    (by unfold GoodMask; decide +kernel) [] (by simp)
  refine ⟨m, k, e, e', ?_, ?_⟩
  · obtain ⟨v, near, h1, ⟨c, l, hc, hl, n1, n2, hv⟩, h3⟩ := hk 2700 5100 (by norm_num) (by norm_num)
    refine ⟨v, h1, h3.2 (Or.inr ?_)⟩
    have hc' : c = 1 := by
      have hc4 : c < 4 := hc
      have := n1 1 (by decide)
      have far : ∀ c : Fin 4, |midLon 5100 - (uniform (45 : ℚ) 90 4).getD c 0| ≤
          |midLon 5100 - (uniform (45 : ℚ) 90 4).getD 1 0| → c = 1 := by decide +kernel
      have := far ⟨c, hc4⟩ this
      simpa using congrArg Fin.val this
    have hl2 : l < 2 := hl
    have all : ∀ l : Fin 2, (coastMask.getD l []).getD 1 0 ≠ 0 := by decide
    rw [hv, hc']
    exact all ⟨l, hl2⟩
  · rw [hm 2700 5100 (by norm_num) (by norm_num)]
    decide +kernel

/-! ## Extraction -/

theorem y30_ascending : (y30 : List K).Pairwise (· < ·) := by
  rw [y30_eq, List.pairwise_map]
  refine List.pairwise_lt_range.imp fun {a b} h => ?_
  have : (a : K) < b := by exact_mod_cast h
  linarith

theorem x30_uniform : (x30 : List K) = uniform (1 / 60) (360 / ((10800 : ℕ) : K)) 10800 := by
  rw [x30_eq]
  unfold uniform
  refine List.map_congr_left fun i _ => ?_
  push_cast
  ring

theorem x30_ascending : (x30 : List K).Pairwise (· < ·) := by
  rw [x30_eq, List.pairwise_map]
  refine List.pairwise_lt_range.imp fun {a b} h => ?_
  have : (a : K) < b := by exact_mod_cast h
  linarith

/-- The combined grid is the grid of a global model with columns every two arc-minutes. -/
theorem site_around {g : Grid K} {a d b e : K} (hf : Fit g.x g.y g.hz) (hx : EvenAxis g.x a d) (hy : EvenAxis g.y b e)
    (hm : GoodMask g.x g.y g.mz) (hs : ∀ s ∈ g.sols, s.patch.OnGlobe) :
    ∃ s, site g = .ok s ∧ s.x = x30 ∧ s.y = y30 ∧ combine g.x g.y g.hz g.sols = .ok s.hz ∧
      (∀ j i, j < 5400 → i < 10800 → ∃ w near, CGrid.entry s.sea j i = some w ∧ NearSea g.x g.y g.mz j i near ∧
        (w = true ↔ (∃ q ∈ g.sols, ∃ w, q.patch.Has j i w) ∨ near ≠ 0)) ∧ Staggered.Around s (1 / 60) := by
  obtain ⟨hz, e1, s1, -⟩ := C83_depths hf g.sols hs
  obtain ⟨mz, e2, s2, s3⟩ := C83_mask hx hy hm g.sols hs
  refine ⟨_, by unfold site; rw [e1, ok_bind, e2, ok_bind], rfl, rfl, e1, ?_,
    ⟨⟨x30_ascending, y30_ascending⟩, ?_, ?_, ?_, ?_⟩, ?_, ?_⟩
  · intro j i hj hi
    obtain ⟨v, near, h1, h2, h3⟩ := s3 j i hj hi
    refine ⟨decide (v ≠ 0), near, ?_, h2, by rw [decide_eq_true_eq]; exact h3⟩
    unfold CGrid.entry at h1 ⊢
    rw [List.getElem?_map]
    cases hr : mz[j]? with
    | none => rw [hr] at h1; simp at h1
    | some row =>
      rw [hr] at h1
      simp only [Option.bind_some, Option.map_some] at h1 ⊢
      rw [List.getElem?_map, h1]
      rfl
  · show 2 ≤ (x30 : List K).length
    rw [x30_length]; norm_num
  · show 2 ≤ (y30 : List K).length
    rw [y30_length]; norm_num
  · show CGrid.Shape hz (y30 : List K).length (x30 : List K).length
    rw [x30_length, y30_length]; exact s1
  · show CGrid.Shape _ (y30 : List K).length (x30 : List K).length
    rw [x30_length, y30_length]; exact CGrid.shape_map _ _ _ _ s2
  · show 3 ≤ (x30 : List K).length
    rw [x30_length]; norm_num
  · show (x30 : List K) = uniform (1 / 60) (360 / ((x30 : List K).length : K)) (x30 : List K).length
    rw [x30_length]; exact x30_uniform

/-- Every wet point of a combined model has a number. -/
theorem wet_number {s : Staggered.Site K} {a : K} (h : Staggered.Around s a) {m : List (List (K × K))}
    (hm : CGrid.Shape m s.y.length s.x.length) {p : Points} {k j : ℤ} (hw : (Staggered.world s a).Wet p k j) :
    Staggered.worldValue s (bareFld m) k j ≠ none := by
  have h3 := h.three
  have hk : (k % s.x.length).toNat < s.x.length := by
    have := Int.emod_nonneg k (show (s.x.length : ℤ) ≠ 0 by omega)
    have := Int.emod_lt_of_pos k (show (0 : ℤ) < s.x.length by omega)
    omega
  have hj : j.toNat < s.y.length := by
    by_contra hj
    have z : (Staggered.world s a).depth k j = 0 := by
      simp only [Staggered.world, List.getD_eq_getElem?_getD]
      have : s.hz[j.toNat]? = none := List.getElem?_eq_none (by rw [h.depths.1]; omega)
      rw [this]
      simp
    cases p with
    | elevation => exact hw.2 z
    | zonal => exact (lt_irrefl (0 : K)) (z ▸ hw.2)
    | meridional => exact (lt_irrefl (0 : K)) (z ▸ hw.2)
  have hj' : j.toNat < m.length := by rw [hm.1]; exact hj
  have hk' : (k % s.x.length).toNat < m[j.toNat].length := by rw [hm.2 _ (List.getElem_mem hj')]; exact hk
  unfold Staggered.worldValue entry bareFld Fld.number
  simp only [List.getD_eq_getElem?_getD, List.getElem?_map, List.getElem?_eq_getElem hj', Option.map_some,
    Option.getD_some, List.getElem?_eq_getElem hk']
  simp

/-- The zonal transports of a global solution lie half a coarse step west of its columns.  Refuted: the combined model
has them there.  A transport that equals the longitude at every one of its points in the file is moved: at the zonal
point of the fine cell `i`, one arc-minute west of its centre, the combined model has the value of the longitude half a
coarse step west of the centre. -/
theorem C84_transport_false {x y : List K} {a d : K} (hx : EvenAxis x a d) {rows : List (List (K × K))}
    (h : Fit x y rows) (hr : ∀ l k, l < y.length → k < x.length →
      (rows.getD l []).getD k (0, 0) = (x.getD k 0 - d / 2, 0))
    {i j : ℕ} (hi : i < 10800) (hj : j < 5400) (west : x.getD 0 0 ≤ midLon i)
    (east : midLon i ≤ x.getD (x.length - 1) 0) :
    ∃ m, combineC x y rows [] = .ok m ∧
      CGrid.entry m j i = some (((midLon i : K) - 1 / 60) - (d / 2 - 1 / 60), 0) := by
  obtain ⟨m, e, -, hm⟩ := C83_fields h [] (by simp)
  obtain ⟨base, v, hb, hv, hs⟩ := hm j i hj hi
  refine ⟨m, e, ?_⟩
  rcases hs with ⟨pre, p, post, h1, -⟩ | ⟨-, rfl⟩
  · simp at h1
  rw [hv]
  have hheld : held x (midLon i) = midLon i := by
    unfold held
    rw [min_eq_right east, max_eq_right west]
  obtain ⟨k, l, t, s, hat, hval⟩ := hb
  have hv' : ∀ k l, (coarse x y rows).cols k → (coarse x y rows).rows l →
      (coarse x y rows).value k l = some ((coarse x y rows).lon k - d / 2, 0) := by
    intro k l hk hl
    simp only [coarse] at hk hl ⊢
    rw [hr l.toNat k.toNat (by omega) (by omega)]
  have c1 := hv' k l hat.col hat.row
  have c2 := hv' (k + 1) l hat.col' hat.row
  have c3 := hv' k (l + 1) hat.col hat.row'
  have c4 := hv' (k + 1) (l + 1) hat.col' hat.row'
  have hx' := hat.x_eq
  rw [hheld] at hx'
  unfold Chart.blend Chart.corners at hval
  rw [c1, c2, c3, c4, if_pos (by
    intro p hp _
    simp only [List.mem_cons, List.not_mem_nil, or_false] at hp
    rcases hp with rfl | rfl | rfl | rfl <;> exact fun h => by cases h)] at hval
  rw [Option.some.inj hval]
  simp only [List.map_cons, List.map_nil, List.sum_cons, List.sum_nil, Option.getD_some]
  refine congrArg some (Prod.ext ?_ ?_)
  · dsimp only
    linear_combination -hx'
  · dsimp only
    ring

/-- **C84**: the constants extracted at a place from an ATLAS-compact model are those of the combined solutions there:
the bilinear interpolation between the points of the fine grid, masked next to land.  The fine grid has the combined
depths, and sea wherever a local solution has values or the global model has sea nearby. -/
theorem C84_extract {g : Grid K} {a d b e : K} (hf : Fit g.x g.y g.hz) (hx : EvenAxis g.x a d)
    (hy : EvenAxis g.y b e) (hm : GoodMask g.x g.y g.mz) (hs : ∀ s ∈ g.sols, s.patch.OnGlobe)
    (fields : List (List (List (K × K)) × List (Local K (K × K))))
    (hfs : ∀ f ∈ fields, Fit g.x g.y f.1 ∧ ∀ s ∈ f.2, s.patch.OnGlobe)
    (r : Staggered.Ask K) (hg : r.geographic = true) (hr : r.crop = false) (hmeth : r.method ≠ .bilinear)
    (hn : ∀ x y hc q, r.near x y hc q = none) (hq : r.quantity.speed = true → r.quantity.node ≠ .z)
    (p : K × K) (hp : Staggered.Span r.method p) (hb : Staggered.Band r.method r.quantity.node y30 p) :
    ∃ (s : Staggered.Site K) (hcs : List (List (List (K × K)))) (dep : Option K) (outs : List (List (Out K))),
      s.x = x30 ∧ s.y = y30 ∧ combine g.x g.y g.hz g.sols = .ok s.hz ∧
      (∀ j i, j < 5400 → i < 10800 → ∃ w near, CGrid.entry s.sea j i = some w ∧ NearSea g.x g.y g.mz j i near ∧
        (w = true ↔ (∃ q ∈ g.sols, ∃ w, q.patch.Has j i w) ∨ near ≠ 0)) ∧
      pyMap (fun f => combineC g.x g.y f.1 f.2) fields = .ok hcs ∧
      extract r g fields [p] = .ok ([dep], outs) ∧
      Staggered.Sounds r.method ((Staggered.world s (1 / 60)).depths r.quantity.node.points) p dep ∧
      List.Forall₂ (fun hc os => ∃ o, os = [o] ∧ Staggered.Agrees r.method r.quantity.speed
        ((Staggered.world s (1 / 60)).chart r.quantity.node.points (Staggered.worldValue s (bareFld hc)))
        ((Staggered.world s (1 / 60)).depths r.quantity.node.points) p o) hcs outs := by
  obtain ⟨s, es, sx, sy, shz, ssea, har⟩ := site_around hf hx hy hm hs
  have hall : ∀ f ∈ fields, ∃ m, combineC g.x g.y f.1 f.2 = .ok m ∧ CGrid.Shape m 5400 10800 := by
    intro f hf'
    obtain ⟨m, e1, e2, -⟩ := C83_fields (hfs f hf').1 f.2 (hfs f hf').2
    exact ⟨m, e1, e2⟩
  obtain ⟨hcs, eh, hsh⟩ : ∃ hcs, pyMap (fun f => combineC g.x g.y f.1 f.2) fields = .ok hcs ∧
      ∀ m ∈ hcs, CGrid.Shape m 5400 10800 := by
    clear hfs
    induction fields with
    | nil => exact ⟨[], rfl, by simp⟩
    | cons f t ih =>
      obtain ⟨m, e1, e2⟩ := hall f (by simp)
      obtain ⟨ms, e3, e4⟩ := ih fun f hf => hall f (List.mem_cons_of_mem _ hf)
      refine ⟨m :: ms, by rw [pyMap, e1]; dsimp only; rw [e3], ?_⟩
      intro q hq
      rcases List.mem_cons.1 hq with rfl | hq
      · exact e2
      · exact e4 q hq
  have lx : s.x.length = 10800 := by rw [sx]; exact x30_length
  have ly : s.y.length = 5400 := by rw [sy]; exact y30_length
  obtain ⟨dep, outs, e1, e2, e3⟩ := Staggered.C73_place har r hg hr hn hq
    (Or.inl ⟨by norm_num, by rw [lx]; norm_num⟩) (hcs.map bareFld) (by
      intro hc hhc
      obtain ⟨m, hm', rfl⟩ := List.mem_map.1 hhc
      refine ⟨?_, ?_, ?_⟩
      · rw [lx, ly]
        exact CGrid.shape_map _ _ _ _ (hsh m hm')
      · intro _ k j hw
        exact wet_number har (by rw [lx, ly]; exact hsh m hm') hw
      · rintro (h | ⟨-, h⟩)
        · exact absurd h hmeth
        · cases h) p hp (by rw [sy]; exact hb)
  refine ⟨s, hcs, dep, outs, sx, sy, shz, ssea, eh, ?_, e2, ?_⟩
  · unfold extract
    rw [es, ok_bind, eh, ok_bind]
    exact e1
  · exact List.forall₂_map_left_iff.1 e3

end Verif.Combine
