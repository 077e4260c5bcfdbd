import Verif.Model.Atlas
import Verif.Spec.Atlas
import Verif.Props.OTISGrid
import Mathlib.Data.List.Nodup
/-!
Lemmas for the ATLAS-compact readers.
-/
namespace Verif.OTIS
open Verif Verif.Bytes Verif.Spec.Atlas

theorem readI_be_any (n : ℕ) (t : List UInt8) : ∃ v, readI (be n ++ t) = .ok (v, t) := by
  rw [readI, fromfile, List.take_left' (be_length n), List.drop_left' (be_length n)]
  exact ⟨_, rfl⟩

theorem ofI4_natCast (n : ℕ) (h : n < 2 ^ 31) : ofI4 (n : ℤ) = n := by
  simp only [ofI4]; omega

theorem toI4_nat (n : ℕ) (h : n < 2 ^ 31) : toI4 n = n := by
  simp only [toI4, if_pos h]

theorem readI_be_nat (n : ℕ) (h : n < 2 ^ 31) (t : List UInt8) :
    readI (be n ++ t) = .ok ((n : ℤ), t) := by
  have := readI_be (n : ℤ) (by omega) t
  rwa [ofI4_natCast n h] at this

theorem ints_length (l : List ℕ) : (ints l).length = 4 * l.length := flatMap_be_length l

theorem floats_length (l : List F4) : (floats l).length = 4 * l.length := tofileF_length l

theorem complexes_length (l : List C8) : (complexes l).length = 8 * l.length := by
  rw [complexes, floats_length]
  induction l with
  | nil => rfl
  | cons a t ih =>
    rw [List.flatMap_cons, List.length_append, Nat.mul_add, ih, List.length_cons]
    simp; ring

theorem record_length (p : List UInt8) : (record p).length = p.length + 8 := by
  rw [record, List.length_append, List.length_append, be_length]; ring

theorem pad_length (n : ℕ) (s : List UInt8) (h : s.length ≤ n) : (pad n s).length = n := by
  rw [pad, List.length_append, List.length_replicate]; omega

theorem flatMap_length_const {α : Type} (f : α → List UInt8) (R : ℕ) (l : List α)
    (h : ∀ a ∈ l, (f a).length = R) : (l.flatMap f).length = l.length * R := by
  induction l with
  | nil => simp
  | cons a t ih =>
    rw [List.flatMap_cons, List.length_append, h a (by simp),
      ih (fun x hx => h x (List.mem_cons_of_mem _ hx)), List.length_cons]
    ring

theorem pad_eq_ljust (c : Name) : pad 4 c = ljust4 c := rfl

theorem isSpace_of_visible (b : UInt8) (h : Visible b) : isSpace b = false := by
  obtain ⟨h1, h2⟩ := h
  simp only [isSpace, Bool.or_eq_false_iff, beq_eq_false_iff_ne, Bool.and_eq_false_iff,
    decide_eq_false_iff_not]
  refine ⟨h1, ?_⟩
  rcases h2 with h2 | h2
  · exact Or.inl (by simpa using h2)
  · exact Or.inr (by simpa using h2)

theorem splitWords_good (names : List (List UInt8)) (h : GoodNames names) :
    splitWords [] (names.flatMap (pad 4)) = names := by
  refine splitWords_names names ?_ h.2.1
  intro c hc
  obtain ⟨h1, h2, h3⟩ := h.1 c hc
  exact ⟨h1, fun b hb => isSpace_of_visible b (h2 b hb), h3⟩

theorem dropWhile_spaces (k : ℕ) (t : List UInt8) :
    (List.replicate k 32 ++ t).dropWhile isSpace = t.dropWhile isSpace := by
  induction k with
  | zero => rfl
  | succ k ih =>
    rw [List.replicate_succ, List.cons_append, List.dropWhile_cons_of_pos (by rfl), ih]

theorem dropWhile_head (t : List UInt8) (h : ∀ b, t.head? = some b → Visible b) :
    t.dropWhile isSpace = t := by
  cases t with
  | nil => rfl
  | cons a u =>
    rw [List.dropWhile_cons_of_neg]
    rw [isSpace_of_visible a (h a rfl)]
    simp

theorem strip_pad (t : List UInt8) (h : GoodTitle t) : strip (pad 20 t) = t := by
  obtain ⟨_, h2, h3⟩ := h
  rw [strip, pad]
  by_cases hn : t = []
  · subst hn
    have := dropWhile_spaces (20 - ([] : List UInt8).length) []
    rw [List.append_nil] at this
    rw [List.nil_append, this]
    rfl
  · have e : (t ++ List.replicate (20 - t.length) 32).dropWhile isSpace
        = t ++ List.replicate (20 - t.length) 32 := by
      refine dropWhile_head _ ?_
      intro b hb
      refine h2 b ?_
      cases t with
      | nil => exact absurd rfl hn
      | cons a u => simpa using hb
    rw [e, List.reverse_append, List.reverse_replicate, dropWhile_spaces, dropWhile_head,
      List.reverse_reverse]
    intro b hb
    exact h3 b (by rwa [List.head?_reverse] at hb)

theorem uniqueIndex_nodup (names : List Name) (h : names.Nodup) (i : ℕ) (c : Name)
    (hi : names[i]? = some c) : uniqueIndex c names = .ok i := by
  have hlt : i < names.length := (List.getElem?_eq_some_iff.mp hi).1
  have e : (List.range names.length).filter (fun k => decide (names[k]? = some c)) = [i] := by
    have : (List.range names.length).filter (fun k => decide (names[k]? = some c))
        = (List.range names.length).filter (fun k => k == i) := by
      refine List.filter_congr ?_
      intro k hk
      have hk' := List.mem_range.mp hk
      refine (decide_eq_decide.mpr ⟨?_, ?_⟩ : _ = decide (k = i))
      · intro hkc
        have := hkc.trans hi.symm
        rw [List.getElem?_eq_getElem hk', List.getElem?_eq_getElem hlt] at this
        exact (List.Nodup.getElem_inj_iff h).mp (Option.some.inj this)
      · rintro rfl; exact hi
    rw [this, List.filter_beq, List.count_eq_one_of_mem List.nodup_range (List.mem_range.mpr hlt)]
    rfl
  rw [uniqueIndex, e]

/-! ### Scatter -/

/-- The table of a function. -/
def tab {α : Type} (ny nx : ℕ) (g : ℕ → ℕ → Option α) : List (List (Option α)) :=
  (List.range ny).map (fun r => (List.range nx).map (g r))

theorem tab_update {α : Type} (ny nx : ℕ) (g : ℕ → ℕ → Option α) (r c : ℕ) (v : α) :
    (tab ny nx g).modify r (fun row => row.set c (some v))
      = tab ny nx (fun r' c' => if r' = r ∧ c' = c then some v else g r' c') := by
  refine List.ext_getElem (by simp [tab]) ?_
  intro i h1 h2
  simp only [List.length_modify, tab, List.length_map, List.length_range] at h1
  simp only [tab, List.getElem_modify, List.getElem_map, List.getElem_range]
  by_cases hi : r = i
  · subst hi
    rw [if_pos rfl]
    refine List.ext_getElem (by simp) ?_
    intro j h3 h4
    simp only [List.length_set, List.length_map, List.length_range] at h3
    simp only [List.getElem_set, List.getElem_map, List.getElem_range, true_and]
    by_cases hj : c = j
    · subst hj; simp
    · rw [if_neg hj, if_neg (fun h => hj h.symm)]
  · rw [if_neg hi]
    refine List.map_congr_left ?_
    intro j _
    rw [if_neg (fun h => hi h.1.symm)]

theorem tab_congr {α : Type} (ny nx : ℕ) (g g' : ℕ → ℕ → Option α) (h : ∀ r c, g r c = g' r c) :
    tab ny nx g = tab ny nx g' := by
  have : g = g' := funext fun r => funext fun c => h r c
  rw [this]

theorem fold_tab {α : Type} (ny nx : ℕ) (L : List ((ℕ × ℕ) × α)) (hn : (L.map Prod.fst).Nodup)
    (h1 : ∀ p ∈ L, 1 ≤ p.1.1 ∧ 1 ≤ p.1.2) (g : ℕ → ℕ → Option α) :
    (L.map (fun p => ((p.1.2 - 1, p.1.1 - 1), p.2))).foldl
        (fun a p => a.modify p.1.1 (fun row => row.set p.1.2 (some p.2))) (tab ny nx g)
      = tab ny nx (fun r c => (L.lookup (c + 1, r + 1)).or (g r c)) := by
  induction L generalizing g with
  | nil => rfl
  | cons p t ih =>
    obtain ⟨⟨i, j⟩, v⟩ := p
    have hp := h1 ((i, j), v) (by simp)
    dsimp only at hp
    rw [List.map_cons, List.nodup_cons] at hn
    rw [List.map_cons, List.foldl_cons]
    dsimp only
    rw [tab_update, ih hn.2 (fun x hx => h1 x (List.mem_cons_of_mem _ hx))]
    refine tab_congr _ _ _ _ ?_
    intro r c
    rw [List.lookup_cons]
    by_cases hrc : r = j - 1 ∧ c = i - 1
    · rw [if_pos hrc]
      have e : (c + 1, r + 1) = (i, j) := by
        obtain ⟨rfl, rfl⟩ := hrc
        exact Prod.ext (by dsimp only; omega) (by dsimp only; omega)
      rw [e]
      have hnone : t.lookup (i, j) = none := by
        rw [List.lookup_eq_none_iff]
        intro q hq
        have : (i, j) ≠ q.1 := by
          intro he
          rw [show ((i, j), v).1 = q.1 from he] at hn
          exact hn.1 (List.mem_map_of_mem hq)
        simpa using this
      rw [hnone]
      simp
    · rw [if_neg hrc]
      have e : ((c + 1, r + 1) == (i, j)) = false := by
        rw [beq_eq_false_iff_ne]
        intro he
        have h2 := congrArg Prod.fst he
        have h3 := congrArg Prod.snd he
        dsimp only at h2 h3
        exact hrc ⟨by omega, by omega⟩
      rw [e]

theorem tab_none {α : Type} (ny nx : ℕ) :
    List.replicate ny (List.replicate nx (none : Option α)) = tab ny nx (fun _ _ => none) := by
  refine List.ext_getElem (by simp [tab]) ?_
  intro i h1 h2
  simp only [tab, List.getElem_replicate, List.getElem_map]
  refine List.ext_getElem (by simp) ?_
  intro j h3 h4
  simp

theorem axisIndex_ok (n k : ℕ) (h1 : 1 ≤ k) (h2 : k ≤ n) :
    axisIndex n ((k : ℤ) - 1) = .ok (k - 1) := by
  rw [axisIndex, if_pos (by omega)]
  congr 1
  omega

theorem scatter_good {α : Type} (nx ny : ℕ) (cells : List (ℕ × ℕ)) (hc : GoodCells nx ny cells)
    (vals : List α) (hv : vals.length = cells.length) :
    scatter ny nx (((cells.map (fun p => ((p.1 : ℤ), (p.2 : ℤ)))).zip vals))
      = .ok (gridOf nx ny cells vals) := by
  obtain ⟨hnd, hr⟩ := hc
  have hz : (cells.map (fun p => ((p.1 : ℤ), (p.2 : ℤ)))).zip vals
      = (cells.zip vals).map (fun p => (((p.1.1 : ℤ), (p.1.2 : ℤ)), p.2)) := by
    rw [List.zip_map_left]
    rfl
  have hmem : ∀ p ∈ cells.zip vals, p.1 ∈ cells := fun p hp => (List.of_mem_zip hp).1
  have hmap : pyMap (fun p : (ℤ × ℤ) × α => do
      let r ← axisIndex ny (p.1.2 - 1)
      let c ← axisIndex nx (p.1.1 - 1)
      Except.ok ((r, c), p.2)) ((cells.zip vals).map (fun p => (((p.1.1 : ℤ), (p.1.2 : ℤ)), p.2)))
      = .ok ((cells.zip vals).map (fun p => ((p.1.2 - 1, p.1.1 - 1), p.2))) := by
    generalize cells.zip vals = L at hmem
    clear hz
    induction L with
    | nil => rfl
    | cons p t ih =>
      have hp := hr _ (hmem p (by simp))
      rw [List.map_cons, pyMap]
      dsimp only
      rw [axisIndex_ok ny p.1.2 hp.2.2.1 hp.2.2.2, ok_bind, axisIndex_ok nx p.1.1 hp.1 hp.2.1,
        ok_bind, ih (fun q hq => hmem q (List.mem_cons_of_mem _ hq))]
      rfl
  rw [scatter, hz, hmap, ok_bind, tab_none, fold_tab]
  · refine congrArg Except.ok ?_
    rw [gridOf, tab]
    refine List.map_congr_left (fun r _ => List.map_congr_left (fun c _ => ?_))
    simp
  · rw [List.map_fst_zip (by omega)]
    exact hnd
  · intro p hp
    have := hr _ (hmem p hp)
    exact ⟨this.1, this.2.2.1⟩

/-- The cells read for a constituent. -/
theorem readCells_good (cells : List (ℕ × ℕ)) (nx ny : ℕ) (hc : GoodCells nx ny cells)
    (hx : Fits nx) (hy : Fits ny) (vals : List C8) (hv : vals.length = cells.length)
    (t : List UInt8) :
    readCells cells.length ((cells.map Prod.fst).map toI4) ((cells.map Prod.snd).map toI4)
      (complexes vals ++ t)
      = .ok ((cells.map (fun p => ((p.1 : ℤ), (p.2 : ℤ)))).zip vals, t) := by
  have hlen : (vals.flatMap (fun z : C8 => [z.1, z.2])).length = 2 * cells.length := by
    have h := complexes_length vals
    rw [complexes, floats_length, hv] at h
    have : 4 * (vals.flatMap (fun z : C8 => [z.1, z.2])).length = 8 * cells.length := h
    omega
  have e1 : ((cells.map Prod.fst).map toI4).zip ((cells.map Prod.snd).map toI4)
      = cells.map (fun p => ((p.1 : ℤ), (p.2 : ℤ))) := by
    rw [List.map_map, List.map_map, List.zip_map']
    refine List.map_congr_left ?_
    intro p hp
    obtain ⟨h1, h2, h3, h4⟩ := hc.2 p hp
    simp only [Fits] at hx hy
    simp only [Function.comp]
    rw [toI4_nat p.1 (by omega), toI4_nat p.2 (by omega)]
  have e2 : splitZ (vals.flatMap (fun z : C8 => [z.1, z.2])) = vals := by
    rw [splitZ, stride_flatMap 0 2 (by norm_num) (fun z : C8 => [z.1, z.2]) (fun z => z.1)
      (fun _ => rfl) (fun _ => rfl) vals,
      stride_flatMap 1 2 (by norm_num) (fun z : C8 => [z.1, z.2]) (fun z => z.2)
      (fun _ => rfl) (fun _ => rfl) vals, List.zip_map']
    simp
  have e3 : fromfile (2 * cells.length) (complexes vals ++ t)
      = ((vals.flatMap (fun z : C8 => [z.1, z.2])).map UInt32.toNat, t) :=
    fromfile_tofileF _ t _ hlen
  rw [readCells, e3]
  dsimp only
  rw [map_ofNat_toNat, if_pos ⟨hlen, by simp, by simp⟩, e1, e2]

end Verif.OTIS
