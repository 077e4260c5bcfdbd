import Verif.Model.IERS
import Verif.Spec.IERS
import Verif.Lemmas.Py
import Verif.Props.GridShift
/-!
C69: ocean pole tide coefficients
-/
namespace Verif.IERS
open Verif Verif.Spline Verif.Spec.IERS

variable {K : Type} [Field K] [LinearOrder K] [IsStrictOrderedRing K] [FloorRing K]

/-! ## The map as it is read -/

theorem pyInt_half (i : ℕ) (x : K) (h1 : (i : K) / 2 ≤ x) (h2 : x < (i : K) / 2 + 1 / 2) :
    pyInt (x / (1 / 2)) = i := by
  have h0 : (0 : K) ≤ (i : K) := Nat.cast_nonneg i
  unfold pyInt
  rw [if_pos (by rw [div_div_eq_mul_div, div_one]; linarith), Int.floor_eq_iff]
  rw [div_div_eq_mul_div, div_one]
  push_cast
  constructor <;> linarith

/-- A line of the file stands for a cell. -/
def InCell (l : Line K) (i j : ℕ) : Prop :=
  i < 720 ∧ j < 360 ∧ (i : K) / 2 ≤ l.lon ∧ l.lon < (i : K) / 2 + 1 / 2 ∧
    90 - (j : K) / 2 - 1 / 2 < l.lat ∧ l.lat ≤ 90 - (j : K) / 2

theorem putLine_cell (U : ℕ → ℕ → K) (l : Line K) (i j : ℕ) (h : InCell l i j) :
    putLine U l = .ok fun a b => if a = i ∧ b = j then l.value else U a b := by
  obtain ⟨hi, hj, a1, a2, b1, b2⟩ := h
  unfold putLine
  rw [pyInt_half i l.lon a1 a2, pyInt_half j (90 - l.lat) (by linarith) (by linarith)]
  have e1 : index 720 (i : ℤ) = .ok i := by
    unfold index; rw [if_pos ⟨by omega, by omega⟩, Int.toNat_natCast]
  have e2 : index 360 (j : ℤ) = .ok j := by
    unfold index; rw [if_pos ⟨by omega, by omega⟩, Int.toNat_natCast]
  rw [e1, ok_bind, e2, ok_bind]

theorem putLines_cells : ∀ (ls : List (Line K × ℕ × ℕ)) (U : ℕ → ℕ → K),
    (∀ q ∈ ls, InCell q.1 q.2.1 q.2.2) → (ls.map Prod.snd).Nodup →
    ∃ V, putLines U (ls.map Prod.fst) = .ok V ∧ (∀ q ∈ ls, V q.2.1 q.2.2 = q.1.value) ∧
      ∀ i j, (i, j) ∉ ls.map Prod.snd → V i j = U i j
  | [], U, _, _ => ⟨U, rfl, by simp, by simp⟩
  | q :: ls, U, h, hn => by
    rw [List.map_cons, List.nodup_cons] at hn
    obtain ⟨V, h1, h2, h3⟩ := putLines_cells ls
      (fun a b => if a = q.2.1 ∧ b = q.2.2 then q.1.value else U a b)
      (fun x hx => h x (by simp [hx])) hn.2
    refine ⟨V, ?_, ?_, ?_⟩
    · rw [List.map_cons, putLines, putLine_cell U q.1 q.2.1 q.2.2 (h q (by simp)), ok_bind, h1]
    · intro x hx
      rcases List.mem_cons.1 hx with rfl | hx
      · rw [h3 _ _ hn.1, if_pos ⟨rfl, rfl⟩]
      · exact h2 x hx
    · intro i j hij
      rw [List.map_cons, List.mem_cons, not_or] at hij
      rw [h3 i j hij.2, if_neg]
      rintro ⟨rfl, rfl⟩
      exact hij.1 rfl

/-- C69: whatever the order of the lines, each value of the file is put in the cell of half a degree
that its coordinates lie in, if no two lines lie in the same cell; other cells are zero. -/
theorem C69_lines (ls : List (Line K × ℕ × ℕ)) (h : ∀ q ∈ ls, InCell q.1 q.2.1 q.2.2)
    (hn : (ls.map Prod.snd).Nodup) :
    ∃ V, putLines (fun _ _ => 0) (ls.map Prod.fst) = .ok V ∧
      (∀ q ∈ ls, V q.2.1 q.2.2 = q.1.value) ∧ ∀ i j, (i, j) ∉ ls.map Prod.snd → V i j = 0 :=
  putLines_cells ls _ h hn

example : InCell (⟨359.75, -89.75, 3⟩ : Line ℚ) 719 359 := by
  unfold InCell; norm_num

/-! ## The axes -/

theorem glon_length : (glon (K := K)).length = 720 := by simp [glon]

theorem glon_get (i : ℕ) (h : i < 720) : (glon (K := K))[i]? = some (1 / 4 + (i : K) / 2) := by
  unfold glon
  rw [List.getElem?_map, List.getElem?_range h]
  rfl

theorem glon_offset : Grid.offset (glon (K := K)) 360 = .ok 0 := by
  have h1 : (glon (K := K)).head? = some (1 / 4 + ((0 : ℕ) : K) / 2) := by
    rw [List.head?_eq_getElem?, glon_get 0 (by norm_num)]
  have h2 : (glon (K := K)).getLast? = some (1 / 4 + ((719 : ℕ) : K) / 2) := by
    rw [List.getLast?_eq_getElem?, glon_length, glon_get 719 (by norm_num)]
  unfold Grid.offset
  rw [h1, h2]
  dsimp only
  have : |(1 : K) / 4 + ((719 : ℕ) : K) / 2 - (1 / 4 + ((0 : ℕ) : K) / 2) - 360| > 1 / 10 ^ 4 := by
    have e : (1 : K) / 4 + ((719 : ℕ) : K) / 2 - (1 / 4 + ((0 : ℕ) : K) / 2) - 360 = -(1 / 2) := by
      push_cast; norm_num
    rw [e, abs_neg, abs_of_nonneg (by norm_num)]
    norm_num
  rw [if_pos this]

theorem glon_argmin : Grid.argmin ((glon (K := K)).map fun v => |v - 180|) = .ok 359 := by
  obtain ⟨i, hi⟩ := Grid.argmin_ok ((glon (K := K)).map fun v => |v - 180|) (by
    intro e
    have := congrArg List.length e
    simp [glon] at this)
  obtain ⟨m, hm, hmin, hfirst⟩ := Grid.argmin_spec _ _ hi
  have hlt : i < 720 := by
    by_contra hc
    rw [List.getElem?_eq_none (by rw [List.length_map, glon_length]; omega)] at hm
    cases hm
  have g : ∀ j : ℕ, j < 720 → ((glon (K := K)).map fun v => |v - 180|)[j]? =
      some |(1 : K) / 4 + (j : K) / 2 - 180| := by
    intro j hj
    rw [List.getElem?_map, glon_get j hj]; rfl
  have hm2 : m = |(1 : K) / 4 + (i : K) / 2 - 180| := by
    rw [g i hlt] at hm; exact (Option.some.inj hm).symm
  have e359 : |(1 : K) / 4 + ((359 : ℕ) : K) / 2 - 180| = 1 / 4 := by
    rw [show (1 : K) / 4 + ((359 : ℕ) : K) / 2 - 180 = -(1 / 4) by push_cast; norm_num, abs_neg,
      abs_of_nonneg (by norm_num)]
  have hle : m ≤ 1 / 4 := by
    rw [← e359]
    exact hmin _ (List.mem_of_getElem? (g 359 (by norm_num)))
  rw [hm2, abs_le] at hle
  have h1 : (358 : K) < i := by linarith
  have h2 : (i : K) < 360 + 1 / 2 := by linarith
  have h3 : 359 ≤ i := by
    by_contra hc
    have : (i : K) ≤ ((358 : ℕ) : K) := by exact_mod_cast (by omega : i ≤ 358)
    push_cast at this
    linarith
  have h4 : i ≤ 360 := by
    by_contra hc
    have : ((361 : ℕ) : K) ≤ (i : K) := by exact_mod_cast (by omega : 361 ≤ i)
    push_cast at this
    linarith
  rcases (by omega : i = 359 ∨ i = 360) with rfl | rfl
  · exact hi
  · exfalso
    have := hfirst 359 _ (by norm_num) (g 359 (by norm_num))
    rw [e359, hm2, show (1 : K) / 4 + ((360 : ℕ) : K) / 2 - 180 = 1 / 4 by push_cast; norm_num,
      abs_of_nonneg (by norm_num)] at this
    exact lt_irrefl _ this

theorem shift_glon (row : List K) (h : row.length = 720) :
    Grid.shift 0 row (glon (K := K)) 180 360 .west = .ok (row.drop 359 ++ row.take 359,
      ((glon (K := K)).drop 359).map (fun v => v - 360) ++ (glon (K := K)).take 359) := by
  have := (Grid.shift_eq 0 row (glon (K := K)) 180 360 .west 359 0 (by rw [h, glon_length])
    glon_offset glon_argmin (by norm_num)).2
  rw [this]
  rfl

/-- The longitudes of the map. -/
def axisLon : List K := (List.range 722).map fun k : ℕ => -(723 / 4) + (k : K) / 2

theorem axisLon_length : (axisLon (K := K)).length = 722 := by simp [axisLon]

theorem axis_eq : Grid.extendArray (((glon (K := K)).drop 359).map (fun v => v - 360) ++
    (glon (K := K)).take 359) (1 / 2) = .ok axisLon := by
  obtain ⟨l, hl⟩ : ∃ l, l = ((glon (K := K)).drop 359).map (fun v => v - 360) ++
    (glon (K := K)).take 359 := ⟨_, rfl⟩
  have hlen : l.length = 720 := by rw [hl]; simp [glon]
  have hget : ∀ k : ℕ, k < 720 → l[k]? = some (-(721 / 4) + (k : K) / 2) := by
    intro k hk
    rw [hl]
    by_cases h : k < 361
    · rw [List.getElem?_append_left (by simp [glon]; omega), List.getElem?_map, List.getElem?_drop,
        glon_get _ (by omega)]
      refine congrArg some ?_
      push_cast; ring
    · rw [List.getElem?_append_right (by simp [glon]; omega), List.length_map, List.length_drop,
        glon_length, List.getElem?_take_of_lt (by omega), glon_get _ (by omega)]
      refine congrArg some ?_
      rw [Nat.cast_sub (by omega)]
      push_cast; ring
  rw [← hl]
  have h1 : l.head? = some (-(721 / 4) + ((0 : ℕ) : K) / 2) := by
    rw [List.head?_eq_getElem?, hget 0 (by norm_num)]
  have h2 : l.getLast? = some (-(721 / 4) + ((719 : ℕ) : K) / 2) := by
    rw [List.getLast?_eq_getElem?, hlen, hget 719 (by norm_num)]
  unfold Grid.extendArray
  rw [h1, h2]
  refine congrArg Except.ok ?_
  refine List.ext_getElem? fun k => ?_
  by_cases hk : k < 722
  · have hr : (axisLon (K := K))[k]? = some (-(723 / 4) + (k : K) / 2) := by
      unfold axisLon
      rw [List.getElem?_map, List.getElem?_range hk]; rfl
    rw [hr]
    by_cases h0 : k = 0
    · subst h0
      simp
      ring
    · by_cases h721 : k = 721
      · subst h721
        rw [List.getElem?_append_right (by simp [hlen])]
        simp [hlen]
        ring
      · rw [List.getElem?_append_left (by simp [hlen]; omega),
          List.getElem?_append_right (by simp; omega)]
        simp only [List.length_singleton]
        rw [hget _ (by omega), Nat.cast_sub (by omega)]
        refine congrArg some ?_
        push_cast; ring
  · rw [List.getElem?_eq_none (by simp [hlen]; omega), List.getElem?_eq_none (by
      rw [axisLon_length]; omega)]

/-- One parallel of the map. -/
def parallel (U : ℕ → ℕ → K) (j : ℕ) : List K :=
  (List.range 722).map fun k : ℕ => U ((k + 358) % 720) (359 - j)

theorem row_eq (U : ℕ → ℕ → K) (j : ℕ) :
    (do
      let (r, _) ← Grid.shift 0 ((List.range 720).map fun i : ℕ => U i (359 - j))
        (glon (K := K)) 180 360 .west
      Grid.extendRow r) = .ok (parallel U j) := by
  rw [shift_glon _ (by simp), ok_bind]
  dsimp only
  obtain ⟨l, hl⟩ : ∃ l, l = (((List.range 720).map fun i : ℕ => U i (359 - j)).drop 359 ++
    ((List.range 720).map fun i : ℕ => U i (359 - j)).take 359) := ⟨_, rfl⟩
  have hlen : l.length = 720 := by rw [hl]; simp
  have hget : ∀ k : ℕ, k < 720 → l[k]? = some (U ((k + 359) % 720) (359 - j)) := by
    intro k hk
    rw [hl]
    by_cases h : k < 361
    · rw [List.getElem?_append_left (by simp; omega), List.getElem?_drop, List.getElem?_map,
        List.getElem?_range (by omega)]
      simp only [Option.map_some]
      rw [Nat.mod_eq_of_lt (by omega), Nat.add_comm]
    · rw [List.getElem?_append_right (by simp; omega), List.getElem?_take_of_lt (by simp; omega),
        List.getElem?_map, List.getElem?_range (by simp; omega)]
      simp only [Option.map_some, List.length_drop, List.length_map, List.length_range]
      have e : k - (720 - 359) = (k + 359) % 720 := by omega
      rw [e]
  rw [← hl]
  have h1 : l.head? = some (U 359 (359 - j)) := by
    rw [List.head?_eq_getElem?, hget 0 (by norm_num)]
  have h2 : l.getLast? = some (U 358 (359 - j)) := by
    rw [List.getLast?_eq_getElem?, hlen, hget 719 (by norm_num)]
  unfold Grid.extendRow
  rw [h1, h2]
  refine congrArg Except.ok ?_
  refine List.ext_getElem? fun k => ?_
  by_cases hk : k < 722
  · have hr : (parallel U j)[k]? = some (U ((k + 358) % 720) (359 - j)) := by
      unfold parallel
      rw [List.getElem?_map, List.getElem?_range hk]; rfl
    rw [hr]
    by_cases h0 : k = 0
    · subst h0; rfl
    · by_cases h721 : k = 721
      · subst h721
        rw [List.getElem?_append_right (by simp [hlen])]
        simp [hlen]
      · rw [List.getElem?_append_left (by simp [hlen]; omega),
          List.getElem?_append_right (by simp; omega)]
        simp only [List.length_singleton]
        have e : (k - 1 + 359) % 720 = (k + 358) % 720 := by omega
        rw [hget _ (by omega), e]
  · rw [List.getElem?_eq_none (by simp [hlen]; omega), List.getElem?_eq_none (by
      simp [parallel]; omega)]

theorem maps_eq (U : ℕ → ℕ → K) :
    maps U = .ok (axisLon, (List.range 360).map (parallel U)) := by
  unfold maps
  rw [pyMap_ok_of_forall (g := parallel U) (fun j _ => row_eq U j), ok_bind,
    shift_glon _ (List.length_replicate), ok_bind]
  dsimp only
  rw [axis_eq, ok_bind]

/-! ## Interpolation -/

/-- An axis with nodes every half. -/
def halves (a : K) (n : ℕ) : List K := (List.range n).map fun k : ℕ => a + (k : K) / 2

theorem halves_getD (a : K) (n k : ℕ) (h : k < n) : (halves a n).getD k 0 = a + (k : K) / 2 := by
  rw [List.getD_eq_getElem?_getD]
  unfold halves
  rw [List.getElem?_map, List.getElem?_range h]
  rfl

theorem filter_range (m c : ℕ) (h : c ≤ m) (p : ℕ → Bool) (hp : ∀ k < m, (p k = true ↔ k < c)) :
    ((List.range m).filter p).length = c := by
  have : (List.range m).filter p = List.range c := by
    obtain ⟨d, rfl⟩ := Nat.exists_eq_add_of_le h
    rw [List.range_add, List.filter_append, List.filter_eq_self.2, List.filter_eq_nil_iff.2,
      List.append_nil]
    · intro k hk
      obtain ⟨b, hb, rfl⟩ := List.mem_map.1 hk
      have := List.mem_range.1 hb
      rw [hp _ (by omega)]
      omega
    · intro k hk
      have := List.mem_range.1 hk
      rw [hp _ (by omega)]
      exact this
  rw [this, List.length_range]

theorem inner_halves (a : K) (m : ℕ) :
    ((halves a (m + 2)).drop 1).dropLast = (List.range m).map fun k : ℕ => a + ((k + 1 : ℕ) : K) / 2 := by
  refine List.ext_getElem? fun k => ?_
  rw [List.dropLast_eq_take, List.getElem?_take, List.getElem?_drop]
  unfold halves
  simp only [List.length_drop, List.length_map, List.length_range]
  by_cases h : k < m
  · rw [if_pos (by omega), List.getElem?_map, List.getElem?_map, List.getElem?_range h,
      List.getElem?_range (by omega)]
    simp only [Option.map_some]
    rw [Nat.add_comm]
  · rw [if_neg (by omega), List.getElem?_eq_none (by simp; omega)]

theorem lerp_halves (a : K) (m : ℕ) (q : K) (h1 : a ≤ q) (h2 : q ≤ a + ((m : K) + 1) / 2) :
    ∃ (c : ℕ) (t : K), c ≤ m ∧ 0 ≤ t ∧ t ≤ 1 ∧ 2 * (q - a) = c + t ∧ ∀ vs : List K,
      lerp (halves a (m + 2)) vs (bracket (halves a (m + 2)) q) q =
        (1 - t) * vs.getD c 0 + t * vs.getD (c + 1) 0 := by
  have f0 : (0 : ℤ) ≤ ⌊2 * (q - a)⌋ := Int.floor_nonneg.2 (by linarith)
  obtain ⟨n, hn⟩ := Int.eq_ofNat_of_zero_le f0
  have fl := Int.floor_le (2 * (q - a))
  have fu := Int.lt_floor_add_one (2 * (q - a))
  rw [hn] at fl fu
  push_cast at fl fu
  have hc : ∃ c : ℕ, c ≤ m ∧ (c : K) ≤ 2 * (q - a) ∧ 2 * (q - a) ≤ c + 1 ∧
      ∀ k < m, (((k + 1 : ℕ) : K) ≤ 2 * (q - a) ↔ k < c) := by
    by_cases hnm : n ≤ m
    · refine ⟨n, hnm, fl, fu.le, fun k _ => ⟨fun h => ?_, fun h => ?_⟩⟩
      · have : ((k + 1 : ℕ) : K) < ((n + 1 : ℕ) : K) := by push_cast at h ⊢; linarith
        have := Nat.cast_lt.1 this
        omega
      · exact le_trans (Nat.cast_le.2 (by omega)) fl
    · have hmn : ((m + 1 : ℕ) : K) ≤ n := Nat.cast_le.2 (by omega)
      push_cast at hmn
      refine ⟨m, le_refl _, by linarith, by linarith, fun k hk => ⟨fun _ => hk, fun _ => ?_⟩⟩
      exact le_trans (Nat.cast_le.2 (by omega : k + 1 ≤ n)) fl
  obtain ⟨c, c1, c2, c3, c4⟩ := hc
  have hb : bracket (halves a (m + 2)) q = c := by
    unfold bracket
    rw [inner_halves, List.filter_map, List.length_map]
    refine filter_range m c c1 _ fun k hk => ?_
    rw [← c4 k hk]
    simp only [Function.comp, decide_eq_true_eq]
    constructor <;> intro h <;> linarith
  refine ⟨c, 2 * (q - a) - c, c1, by linarith, by linarith, by ring, fun vs => ?_⟩
  unfold lerp
  rw [hb, halves_getD _ _ _ (by omega), halves_getD _ _ _ (by omega)]
  have e : a + ((c + 1 : ℕ) : K) / 2 - (a + (c : K) / 2) = 1 / 2 := by push_cast; ring
  rw [e]
  ring

/-- The map that was read, continued around the globe. -/
def field (U : ℕ → ℕ → K) (i j : ℤ) : K := U (i % 720).toNat j.toNat

theorem field_periodic (U : ℕ → ℕ → K) : Periodic (field U) := by
  intro i j
  unfold field
  rw [Int.add_emod_right]

theorem parallel_getD (U : ℕ → ℕ → K) (j k : ℕ) (h : k < 722) :
    (parallel U j).getD k 0 = field U ((k : ℤ) - 362) ((359 - j : ℕ) : ℤ) := by
  rw [List.getD_eq_getElem?_getD]
  unfold parallel field
  rw [List.getElem?_map, List.getElem?_range h]
  have e : (((k : ℤ) - 362) % 720).toNat = (k + 358) % 720 := by omega
  rw [e, Int.toNat_natCast]
  rfl

theorem axisLon_halves : (axisLon (K := K)) = halves (-(723 / 4)) (720 + 2) := rfl

theorem glat_halves : (glat (K := K)) = halves (-90 + 1 / 4) (358 + 2) := rfl

theorem bilinear_value (U : ℕ → ℕ → K) (x y : K) (x1 : -(723 / 4) ≤ x) (x2 : x ≤ 719 / 4)
    (y1 : -(359 / 4) ≤ y) (y2 : y ≤ 359 / 4) :
    MapValue (field U) x y (bilinear axisLon glat ((List.range 360).map (parallel U)) x y) := by
  obtain ⟨c, t, hc, t0, t1, hct, hl⟩ := lerp_halves (-(723 / 4) : K) 720 x x1 (by
    push_cast; linarith)
  obtain ⟨d, s, hd, s0, s1, hds, hs⟩ := lerp_halves (-90 + 1 / 4 : K) 358 y (by linarith) (by
    push_cast; linarith)
  have row : ∀ j < 360, (((List.range 360).map (parallel U)).map fun r =>
      lerp axisLon r (bracket axisLon x) x).getD j 0 =
        (1 - t) * field U ((c : ℤ) - 362) ((359 - j : ℕ) : ℤ) +
          t * field U ((c : ℤ) - 362 + 1) ((359 - j : ℕ) : ℤ) := by
    intro j hj
    rw [List.getD_eq_getElem?_getD, List.getElem?_map, List.getElem?_map, List.getElem?_range hj]
    simp only [Option.map_some, Option.getD_some]
    rw [axisLon_halves, hl, parallel_getD U j c (by omega), parallel_getD U j (c + 1) (by omega)]
    have e : ((c + 1 : ℕ) : ℤ) - 362 = (c : ℤ) - 362 + 1 := by push_cast; ring
    rw [e]
  have hline : ∀ j : ℤ, OnLine (field U · j) (2 * x - 1 / 2)
      ((1 - t) * field U ((c : ℤ) - 362) j + t * field U ((c : ℤ) - 362 + 1) j) := by
    intro j
    refine ⟨(c : ℤ) - 362, t, t0, t1, ?_, rfl⟩
    push_cast
    linarith
  have e1 : ((359 - d : ℕ) : ℤ) = (358 - (d : ℤ)) + 1 := by omega
  have e2 : ((359 - (d + 1) : ℕ) : ℤ) = 358 - (d : ℤ) := by omega
  refine ⟨358 - (d : ℤ), 1 - s, _, _, by omega, by omega, by linarith, by linarith, ?_,
    hline _, hline _, ?_⟩
  · push_cast
    linarith
  · unfold bilinear
    conv_lhs => rw [glat_halves]
    rw [hs, row d (by omega), row (d + 1) (by omega), e1, e2]
    ring

/-! ## The value of a map is unique and the same on the same meridian -/

theorem OnLine.unique {g : ℤ → K} {x v w : K} (h : OnLine g x v) (h' : OnLine g x w) : v = w := by
  obtain ⟨k, t, t0, t1, e, rfl⟩ := h
  obtain ⟨k', t', t0', t1', e', rfl⟩ := h'
  have d : ((k - k' : ℤ) : K) = t' - t := by push_cast; linarith
  have u : k - k' ≤ 1 := by
    have : ((k - k' : ℤ) : K) ≤ ((1 : ℤ) : K) := by rw [d]; push_cast; linarith
    exact Int.cast_le.1 this
  have l : -1 ≤ k - k' := by
    have : ((-1 : ℤ) : K) ≤ ((k - k' : ℤ) : K) := by rw [d]; push_cast; linarith
    exact Int.cast_le.1 this
  rcases (by omega : k = k' ∨ k = k' + 1 ∨ k' = k + 1) with rfl | rfl | rfl
  · have : t = t' := by push_cast at d; linarith
    rw [this]
  · push_cast at d
    have a : t' = 1 := by linarith
    have b : t = 0 := by linarith
    rw [a, b]; ring
  · push_cast at d
    have a : t = 1 := by linarith
    have b : t' = 0 := by linarith
    rw [a, b]; ring

theorem Periodic.mul {F : ℤ → ℤ → K} (h : Periodic F) (n : ℤ) (i j : ℤ) :
    F (i + 720 * n) j = F i j := by
  induction n using Int.induction_on with
  | zero => simp
  | succ n ih => rw [← ih, ← h (i + 720 * n) j]; congr 1; ring
  | pred n ih => rw [← ih, ← h (i + 720 * (-n - 1)) j]; congr 1; ring

theorem OnLine.turn {F : ℤ → ℤ → K} (hF : Periodic F) {j : ℤ} {x v : K} (n : ℤ)
    (h : OnLine (F · j) x v) : OnLine (F · j) (x + 720 * n) v := by
  obtain ⟨k, t, t0, t1, rfl, rfl⟩ := h
  refine ⟨k + 720 * n, t, t0, t1, by push_cast; ring, ?_⟩
  dsimp only
  rw [Periodic.mul hF, show k + 720 * n + 1 = (k + 1) + 720 * n by ring, Periodic.mul hF]

theorem MapValue.turn {F : ℤ → ℤ → K} (hF : Periodic F) {x y v : K} (n : ℤ)
    (h : MapValue F x y v) : MapValue F (x + 360 * n) y v := by
  obtain ⟨j, s, a, b, h1, h2, h3, h4, h5, ha, hb, hv⟩ := h
  have e : 2 * (x + 360 * (n : K)) - 1 / 2 = 2 * x - 1 / 2 + 720 * n := by ring
  exact ⟨j, s, a, b, h1, h2, h3, h4, h5, e ▸ OnLine.turn hF n ha, e ▸ OnLine.turn hF n hb, hv⟩

/-- The specification determines the value. -/
theorem MapValue.unique {F : ℤ → ℤ → K} {x y v w : K} (h : MapValue F x y v)
    (h' : MapValue F x y w) : v = w := by
  obtain ⟨j, s, a, b, h1, h2, h3, h4, h5, ha, hb, rfl⟩ := h
  obtain ⟨j', s', a', b', h1', h2', h3', h4', h5', ha', hb', rfl⟩ := h'
  have d : ((j - j' : ℤ) : K) = s' - s := by push_cast; linarith
  have u : j - j' ≤ 1 := by
    have : ((j - j' : ℤ) : K) ≤ ((1 : ℤ) : K) := by rw [d]; push_cast; linarith
    exact Int.cast_le.1 this
  have l : -1 ≤ j - j' := by
    have : ((-1 : ℤ) : K) ≤ ((j - j' : ℤ) : K) := by rw [d]; push_cast; linarith
    exact Int.cast_le.1 this
  rcases (by omega : j = j' ∨ j = j' + 1 ∨ j' = j + 1) with rfl | rfl | rfl
  · have : s = s' := by push_cast at d; linarith
    rw [this, OnLine.unique ha ha', OnLine.unique hb hb']
  · push_cast at d
    have p : s' = 1 := by linarith
    have q : s = 0 := by linarith
    rw [p, q, OnLine.unique ha hb']; ring
  · push_cast at d
    have p : s = 1 := by linarith
    have q : s' = 0 := by linarith
    rw [p, q, OnLine.unique hb ha']; ring

/-! ## The whole -/

/-- The line of the file for the node of a column and a row. -/
def node (D : ℕ → ℕ → K) (i j : ℕ) : Line K := ⟨1 / 4 + (i : K) / 2, 359 / 4 - (j : K) / 2, D i j⟩

/-- A file that holds a line for every node of the map, in any order. -/
def Complete (D : ℕ → ℕ → K) (lines : List (Line K)) : Prop :=
  (∀ l ∈ lines, ∃ i j, i < 720 ∧ j < 360 ∧ l = node D i j) ∧
    ∀ i j, i < 720 → j < 360 → node D i j ∈ lines

/-- The values of the file around the globe. -/
def globe (D : ℕ → ℕ → K) (i j : ℤ) : K := D (i % 720).toNat j.toNat

theorem node_cell (D : ℕ → ℕ → K) (i j : ℕ) (hi : i < 720) (hj : j < 360) :
    InCell (node D i j) i j := by
  refine ⟨hi, hj, ?_, ?_, ?_, ?_⟩ <;> unfold node <;> dsimp only <;> linarith

theorem node_inj (D : ℕ → ℕ → K) {i j i' j' : ℕ} (h : node D i j = node D i' j') :
    i = i' ∧ j = j' := by
  unfold node at h
  have a := congrArg Line.lon h
  have b := congrArg Line.lat h
  dsimp only at a b
  constructor
  · exact Nat.cast_injective (R := K) (by linarith)
  · exact Nat.cast_injective (R := K) (by linarith)

theorem putLines_nodes (D : ℕ → ℕ → K) : ∀ (ls : List (Line K)) (U : ℕ → ℕ → K),
    (∀ l ∈ ls, ∃ i j, i < 720 ∧ j < 360 ∧ l = node D i j) →
    ∃ V, putLines U ls = .ok V ∧ ∀ i j, (node D i j ∈ ls ∨ U i j = D i j) → V i j = D i j
  | [], U, _ => ⟨U, rfl, fun i j h => h.elim (fun h => by simp at h) id⟩
  | l :: ls, U, h => by
    obtain ⟨i, j, hi, hj, rfl⟩ := h l (by simp)
    obtain ⟨V, h1, h2⟩ := putLines_nodes D ls
      (fun a b => if a = i ∧ b = j then (node D i j).value else U a b)
      (fun x hx => h x (by simp [hx]))
    refine ⟨V, ?_, ?_⟩
    · rw [putLines, putLine_cell U _ i j (node_cell D i j hi hj), ok_bind, h1]
    · intro a b hab
      by_cases e : a = i ∧ b = j
      · exact h2 a b (.inr (by obtain ⟨rfl, rfl⟩ := e; simp [node]))
      · rcases hab with hab | hab
        · rcases List.mem_cons.1 hab with hab | hab
          · exact absurd (node_inj D hab) e
          · exact h2 a b (.inl hab)
        · exact h2 a b (.inr (by simp only [if_neg e, hab]))

theorem read_complete (D : ℕ → ℕ → K) (lines : List (Line K)) (h : Complete D lines) :
    ∃ V, putLines (fun _ _ => 0) lines = .ok V ∧ ∀ i j, i < 720 → j < 360 → V i j = D i j := by
  obtain ⟨V, h1, h2⟩ := putLines_nodes D lines (fun _ _ => 0) h.1
  exact ⟨V, h1, fun i j hi hj => h2 i j (.inl (h.2 i j hi hj))⟩

theorem MapValue.congr {F G : ℤ → ℤ → K} {x y v : K}
    (h : ∀ i j, 0 ≤ j → j < 360 → F i j = G i j) (hv : MapValue F x y v) : MapValue G x y v := by
  obtain ⟨j, s, a, b, h1, h2, h3, h4, h5, ⟨k, t, t0, t1, e, rfl⟩, ⟨k', t', t0', t1', e', rfl⟩, hv⟩ := hv
  refine ⟨j, s, _, _, h1, h2, h3, h4, h5, ⟨k, t, t0, t1, e, rfl⟩, ⟨k', t', t0', t1', e', rfl⟩, ?_⟩
  rw [hv]
  dsimp only
  rw [h k j h1 (by omega), h (k + 1) j h1 (by omega), h k' (j + 1) (by omega) (by omega),
    h (k' + 1) (j + 1) (by omega) (by omega)]

theorem field_globe (D V : ℕ → ℕ → K) (h : ∀ i j, i < 720 → j < 360 → V i j = D i j) (i j : ℤ)
    (h0 : 0 ≤ j) (h1 : j < 360) : field V i j = globe D i j :=
  h _ _ (by omega) (by omega)

theorem clamp_halves (a : K) (m : ℕ) (q : K) :
    clamp (halves a (m + 2)) q = max a (min (a + ((m : K) + 1) / 2) q) := by
  have h1 : (halves a (m + 2)).headD 0 = a := by
    rw [List.headD_eq_head?_getD, List.head?_eq_getElem?]
    have := halves_getD a (m + 2) 0 (by omega)
    rw [List.getD_eq_getElem?_getD] at this
    rw [this]; simp
  have h2 : (halves a (m + 2)).getLastD 0 = a + ((m : K) + 1) / 2 := by
    rw [List.getLastD_eq_getLast?, List.getLast?_eq_getElem?]
    have e : (halves a (m + 2)).length - 1 = m + 1 := by simp [halves]
    have := halves_getD a (m + 2) (m + 1) (by omega)
    rw [List.getD_eq_getElem?_getD] at this
    rw [e, this]; push_cast; ring
  unfold clamp
  rw [h1, h2]

theorem clamp_lon (x : K) : clamp axisLon x = max (-(723 / 4)) (min (719 / 4) x) := by
  rw [axisLon_halves, clamp_halves]
  congr 2
  push_cast; norm_num

theorem clamp_lat (y : K) : clamp glat y = max (-(359 / 4)) (min (359 / 4) y) := by
  rw [glat_halves, clamp_halves]
  congr 1
  · norm_num
  · congr 1
    push_cast; norm_num

theorem clamp_range {l u x : K} (h : l ≤ u) : l ≤ max l (min u x) ∧ max l (min u x) ≤ u :=
  ⟨le_max_left _ _, max_le h (min_le_left _ _)⟩

/-- The value of the map with both coordinates moved to its nearer end. -/
theorem spline_value (D : ℕ → ℕ → K) (lines : List (Line K)) (h : Complete D lines) (lon lat : K) :
    ∃ v, extractSpline lines lon lat = .ok v ∧ MapValue (globe D)
      (max (-(723 / 4)) (min (719 / 4) lon)) (max (-(359 / 4)) (min (359 / 4) lat)) v := by
  obtain ⟨V, hV, hD⟩ := read_complete D lines h
  refine ⟨spline axisLon glat ((List.range 360).map (parallel V)) lon lat, ?_, ?_⟩
  · unfold extractSpline
    rw [hV, ok_bind, maps_eq, ok_bind]
  · unfold spline
    rw [clamp_lon, clamp_lat]
    obtain ⟨a, b⟩ := clamp_range (l := (-(723 / 4) : K)) (u := 719 / 4) (x := lon) (by norm_num)
    obtain ⟨c, d⟩ := clamp_range (l := (-(359 / 4) : K)) (u := 359 / 4) (x := lat) (by norm_num)
    exact MapValue.congr (fun i j => field_globe D V hD i j) (bilinear_value V _ _ a b c d)

/-- C69, for longitudes given from 180 degrees west to 179.75 degrees east: from a file with a line
for every node, in any order, the coefficient at a point is the bilinear interpolation of the values
of the four nodes around it, also across the meridian of 180 degrees; poleward of the last nodes it is
that of the last parallel. -/
theorem C69_value_partial (D : ℕ → ℕ → K) (lines : List (Line K)) (h : Complete D lines)
    (lon lat : K) (h1 : -(723 / 4) ≤ lon) (h2 : lon ≤ 719 / 4) :
    ∃ v, extractSpline lines lon lat = .ok v ∧
      MapValue (globe D) lon (max (-(359 / 4)) (min (359 / 4) lat)) v := by
  have := spline_value D lines h lon lat
  rwa [min_eq_right h2, max_eq_right h1] at this

/-- C69: the order of the lines in the file does not matter. -/
theorem C69_order (D : ℕ → ℕ → K) (ls ls' : List (Line K)) (h : Complete D ls)
    (h' : Complete D ls') (lon lat : K) : extractSpline ls lon lat = extractSpline ls' lon lat := by
  obtain ⟨v, e, hv⟩ := spline_value D ls h lon lat
  obtain ⟨w, e', hw⟩ := spline_value D ls' h' lon lat
  rw [e, e', MapValue.unique hv hw]

theorem globe_periodic (D : ℕ → ℕ → K) : Periodic (globe D) := by
  intro i j
  unfold globe
  rw [Int.add_emod_right]

/-- C69, for points in the overlap at 180 degrees: the coefficient does not depend on whether the
longitude is given east or west. -/
theorem C69_convention_partial (D : ℕ → ℕ → K) (lines : List (Line K)) (h : Complete D lines)
    (lon lat : K) (n : ℤ) (h1 : -(723 / 4) ≤ lon) (h2 : lon ≤ 719 / 4)
    (h3 : -(723 / 4) ≤ lon + 360 * n) (h4 : lon + 360 * n ≤ 719 / 4) :
    extractSpline lines (lon + 360 * n) lat = extractSpline lines lon lat := by
  obtain ⟨v, e, hv⟩ := C69_value_partial D lines h lon lat h1 h2
  obtain ⟨w, e', hw⟩ := C69_value_partial D lines h _ lat h3 h4
  rw [e, e', MapValue.unique hw (MapValue.turn (globe_periodic D) n hv)]

/-- C69: the linear method gives the same value between the first and last nodes, and no value
elsewhere. -/
theorem C69_linear (D : ℕ → ℕ → K) (lines : List (Line K)) (h : Complete D lines) (lon lat : K) :
    (-(723 / 4) ≤ lon ∧ lon ≤ 719 / 4 ∧ -(359 / 4) ≤ lat ∧ lat ≤ 359 / 4 →
      ∃ v, extractLinear lines lon lat = .ok (some v) ∧ extractSpline lines lon lat = .ok v) ∧
    (¬ (-(723 / 4) ≤ lon ∧ lon ≤ 719 / 4 ∧ -(359 / 4) ≤ lat ∧ lat ≤ 359 / 4) →
      extractLinear lines lon lat = .ok none) := by
  obtain ⟨V, hV, hD⟩ := read_complete D lines h
  unfold extractLinear extractSpline linear spline
  rw [hV, ok_bind, ok_bind, maps_eq, ok_bind]
  dsimp only
  rw [ok_bind]
  dsimp only
  rw [clamp_lon, clamp_lat]
  constructor
  · rintro ⟨a, b, c, d⟩
    have e1 : max (-(723 / 4)) (min (719 / 4) lon) = lon := by rw [min_eq_right b, max_eq_right a]
    have e2 : max (-(359 / 4)) (min (359 / 4) lat) = lat := by rw [min_eq_right d, max_eq_right c]
    rw [e1, e2, if_pos ⟨rfl, rfl⟩]
    exact ⟨_, rfl, rfl⟩
  · intro hn
    rw [if_neg]
    rintro ⟨e1, e2⟩
    obtain ⟨a, b⟩ := clamp_range (l := (-(723 / 4) : K)) (u := 719 / 4) (x := lon) (by norm_num)
    obtain ⟨c, d⟩ := clamp_range (l := (-(359 / 4) : K)) (u := 359 / 4) (x := lat) (by norm_num)
    rw [e1] at a b
    rw [e2] at c d
    exact hn ⟨a, b, c, d⟩

/-- A file with all nodes. -/
def allNodes (D : ℕ → ℕ → K) : List (Line K) :=
  (List.range 720).flatMap fun i => (List.range 360).map fun j => node D i j

theorem allNodes_complete (D : ℕ → ℕ → K) : Complete D (allNodes D) := by
  constructor
  · intro l hl
    obtain ⟨i, hi, hl⟩ := List.mem_flatMap.1 hl
    obtain ⟨j, hj, rfl⟩ := List.mem_map.1 hl
    exact ⟨i, j, List.mem_range.1 hi, List.mem_range.1 hj, rfl⟩
  · intro i j hi hj
    exact List.mem_flatMap.2 ⟨i, List.mem_range.2 hi, List.mem_map.2 ⟨j, List.mem_range.2 hj, rfl⟩⟩

/-- C69 fails for longitudes from 0 to 360: the coefficient at 270 degrees east is not the one at 90
degrees west but that of the edge of the map, and the linear method gives none. -/
theorem C69_convention_false : ∃ (D : ℕ → ℕ → ℚ) (lines : List (Line ℚ)), Complete D lines ∧
    extractSpline lines (-90) 0 = .ok (1079 / 2) ∧ extractSpline lines 270 0 = .ok 359 ∧
    extractLinear lines 270 0 = .ok none := by
  refine ⟨fun i _ => i, allNodes _, allNodes_complete _, ?_, ?_, ?_⟩
  · obtain ⟨v, e, hv⟩ := spline_value _ _ (allNodes_complete (fun i _ => (i : ℚ))) (-90) 0
    rw [e]
    refine congrArg Except.ok (MapValue.unique hv ?_)
    refine ⟨179, 1 / 2, 1079 / 2, 1079 / 2, by norm_num, by norm_num, by norm_num, by norm_num,
      by norm_num, ?_, ?_, by norm_num⟩
    all_goals exact ⟨-181, 1 / 2, by norm_num, by norm_num, by norm_num, by decide +kernel⟩
  · obtain ⟨v, e, hv⟩ := spline_value _ _ (allNodes_complete (fun i _ => (i : ℚ))) 270 0
    rw [e]
    refine congrArg Except.ok (MapValue.unique hv ?_)
    refine ⟨179, 1 / 2, 359, 359, by norm_num, by norm_num, by norm_num, by norm_num,
      by norm_num, ?_, ?_, by norm_num⟩
    all_goals exact ⟨359, 0, by norm_num, by norm_num, by norm_num, by decide +kernel⟩
  · exact (C69_linear _ _ (allNodes_complete _) _ _).2 (by norm_num)

end Verif.IERS
