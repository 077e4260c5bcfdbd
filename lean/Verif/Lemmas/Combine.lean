import Verif.Model.Combine
import Verif.Spec.Combine
import Verif.Lemmas.Py
import Verif.Lemmas.Extract
import Verif.Props.CGrid
import Mathlib.Tactic.Ring
import Mathlib.Tactic.NormNum
import Mathlib.Tactic.Linarith
import Mathlib.Tactic.FieldSimp
/-!
Lemmas about the combination of local and global solutions.
-/
namespace Verif.Combine
open Verif Verif.Extract Verif.Spec.Patches

variable {K V : Type} [Field K] [LinearOrder K] [IsStrictOrderedRing K] [FloorRing K]

/-! ## The fine grid -/

theorem x30_eq : (x30 : List K) = (List.range 10800).map fun i : ℕ => (2 * (i : K) + 1) / 60 := by
  unfold x30 arange
  have : ⌈(360 + d30 / 2 - d30 / 2) / (d30 : K)⌉ = 10800 := by
    have e : (360 + d30 / 2 - d30 / 2) / (d30 : K) = ((10800 : ℤ) : K) := by unfold d30; norm_num
    rw [e, Int.ceil_intCast]
  rw [this]
  refine List.map_congr_left fun i _ => ?_
  unfold d30
  ring

theorem y30_eq : (y30 : List K) = (List.range 5400).map fun j : ℕ => -90 + (2 * (j : K) + 1) / 60 := by
  unfold y30 arange
  have : ⌈(90 + d30 / 2 - (-90 + d30 / 2)) / (d30 : K)⌉ = 5400 := by
    have e : (90 + d30 / 2 - (-90 + d30 / 2)) / (d30 : K) = ((5400 : ℤ) : K) := by unfold d30; norm_num
    rw [e, Int.ceil_intCast]
  rw [this]
  refine List.map_congr_left fun i _ => ?_
  unfold d30
  ring

theorem x30_length : (x30 : List K).length = 10800 := by rw [x30_eq]; simp
theorem y30_length : (y30 : List K).length = 5400 := by rw [y30_eq]; simp

/-- A matrix of the fine grid, from its function. -/
def plain30 (f : ℕ → ℕ → V) : List (List V) := (List.range 5400).map fun j => (List.range 10800).map (f j)

theorem plain30_shape (f : ℕ → ℕ → V) : CGrid.Shape (plain30 f) 5400 10800 := by
  refine ⟨by simp [plain30], fun r hr => ?_⟩
  obtain ⟨j, -, rfl⟩ := List.mem_map.1 hr
  simp

theorem plain30_entry (f : ℕ → ℕ → V) {j i : ℕ} (hj : j < 5400) (hi : i < 10800) :
    CGrid.entry (plain30 f) j i = some (f j i) := by
  unfold CGrid.entry plain30
  rw [List.getElem?_map, List.getElem?_range hj, Option.map_some, Option.bind_some, List.getElem?_map,
    List.getElem?_range hi, Option.map_some]

theorem plain30_congr {f g : ℕ → ℕ → V} (h : ∀ j < 5400, ∀ i < 10800, f j i = g j i) : plain30 f = plain30 g :=
  List.map_congr_left fun j hj => List.map_congr_left fun i hi =>
    h j (List.mem_range.1 hj) i (List.mem_range.1 hi)

theorem plain30_set (f : ℕ → ℕ → V) (r c : ℕ) (v : V) :
    (plain30 f).modify r (fun row => row.set c v) = plain30 fun j i => if j = r ∧ i = c then v else f j i := by
  refine List.ext_getElem (by simp [plain30]) ?_
  intro i h1 h2
  simp only [plain30, List.getElem_modify, List.getElem_map, List.getElem_range]
  by_cases hi : r = i
  · subst hi
    rw [if_pos rfl]
    refine List.ext_getElem (by simp) ?_
    intro j h3 h4
    simp only [List.getElem_set, List.getElem_map, List.getElem_range, true_and]
    by_cases hj : c = j
    · subst hj; simp
    · rw [if_neg hj, if_neg (fun h => hj h.symm)]
  · rw [if_neg hi]
    refine List.map_congr_left ?_
    intro j _
    rw [if_neg (fun h => hi h.1.symm)]

/-- Assigning to a matrix of the fine grid: every element named by an index has one of its values, the others keep
theirs. -/
theorem fold_plain (pos : List ((ℕ × ℕ) × V)) (f : ℕ → ℕ → V) :
    ∃ g, pos.foldl (fun a p => a.modify p.1.1 fun row => row.set p.1.2 p.2) (plain30 f) = plain30 g ∧
      ∀ j i, (∃ p ∈ pos, p.1 = (j, i) ∧ g j i = p.2) ∨ ((∀ p ∈ pos, p.1 ≠ (j, i)) ∧ g j i = f j i) := by
  induction pos generalizing f with
  | nil => exact ⟨f, List.foldl_nil, fun j i => Or.inr ⟨by simp, rfl⟩⟩
  | cons p t ih =>
    rw [List.foldl_cons, plain30_set]
    obtain ⟨g, e, hg⟩ := ih fun j i => if j = p.1.1 ∧ i = p.1.2 then p.2 else f j i
    refine ⟨g, e, fun j i => ?_⟩
    rcases hg j i with ⟨q, hq, h1, h2⟩ | ⟨h1, h2⟩
    · exact Or.inl ⟨q, List.mem_cons_of_mem _ hq, h1, h2⟩
    · by_cases hp : p.1 = (j, i)
      · refine Or.inl ⟨p, List.mem_cons_self, hp, ?_⟩
        rw [h2, if_pos (by rw [hp]; exact ⟨rfl, rfl⟩)]
      · refine Or.inr ⟨?_, ?_⟩
        · intro q hq
          rcases List.mem_cons.1 hq with rfl | hq
          · exact hp
          · exact h1 q hq
        · rw [h2, if_neg]
          rintro ⟨rfl, rfl⟩
          exact hp rfl

/-! ## Where the nodes land -/

/-- The patch a local solution is. -/
def Local.patch (s : Local K V) : Patch K V := ⟨s.lon, s.lat, s.rows⟩

theorem mem_targets (s : Local K V) (p : (ℤ × ℤ) × V) : p ∈ targets s ↔
    ∃ r c, s.patch.value r c = some p.2 ∧ p.1.1 = ⌊(coord s.lat r - (-90 + d30 / 2)) / d30⌋ ∧
      p.1.2 = ⌊(positive (coord s.lon c) - d30 / 2) / d30⌋ := by
  unfold targets Patch.value Local.patch
  rw [List.mem_flatMap]
  constructor
  · rintro ⟨⟨row, r⟩, hr, h⟩
    obtain ⟨⟨o, c⟩, hc, h⟩ := List.mem_filterMap.1 h
    rw [List.mem_zipIdx_iff_getElem?] at hr hc
    dsimp only at hr hc h
    cases o with
    | none => cases h
    | some v =>
      rw [Option.map_some, Option.some.injEq] at h
      subst h
      refine ⟨r, c, ?_, rfl, rfl⟩
      simp only [List.getD_eq_getElem?_getD, hr, Option.getD_some, hc]
  · rintro ⟨r, c, hv, h1, h2⟩
    obtain ⟨⟨a, b⟩, v⟩ := p
    dsimp only at hv h1 h2
    subst h1 h2
    simp only [List.getD_eq_getElem?_getD] at hv
    cases hr : s.rows[r]? with
    | none => rw [hr] at hv; simp at hv
    | some row =>
      rw [hr] at hv
      simp only [Option.getD_some] at hv
      cases hc : row[c]? with
      | none => rw [hc] at hv; cases hv
      | some o =>
        rw [hc] at hv
        simp only [Option.getD_some] at hv
        refine ⟨(row, r), List.mem_zipIdx_iff_getElem?.2 hr, List.mem_filterMap.2
          ⟨(o, c), List.mem_zipIdx_iff_getElem?.2 hc, ?_⟩⟩
        rw [hv]
        rfl

theorem d30_pos : (0 : K) < d30 := by unfold d30; norm_num

theorem coord_eq (l : K) (i : ℕ) : coord l i = (((⌊l / d30⌋ + i : ℤ)) : K) / 30 := by
  unfold coord
  push_cast
  rw [show (d30 : K) = 1 / 30 from rfl]
  ring

/-- The floor of the multiple of two arc-minutes next to a limit. -/
theorem floor_limit (l : K) (w : ℤ) (h1 : (w : K) / 30 ≤ l) (h2 : l < ((w : K) + 1) / 30) : ⌊l / d30⌋ = w := by
  rw [Int.floor_eq_iff]
  unfold d30
  constructor
  · rw [show l / (1 / 30 : K) = l * 30 by ring]; linarith
  · rw [show l / (1 / 30 : K) = l * 30 by ring]; linarith

theorem limit_floor (l : K) : ((⌊l / d30⌋ : ℤ) : K) / 30 ≤ l ∧ l < (((⌊l / d30⌋ : ℤ) : K) + 1) / 30 := by
  have h1 := Int.floor_le (l / (d30 : K))
  have h2 := Int.lt_floor_add_one (l / (d30 : K))
  have e : l / (d30 : K) = l * 30 := by unfold d30; ring
  rw [e] at h1 h2 ⊢
  constructor <;> linarith

theorem node_iff (s : Local K V) (r c : ℕ) (x y : K) :
    s.patch.Node r c x y ↔ x = coord s.lon c ∧ y = coord s.lat r := by
  rw [coord_eq, coord_eq]
  unfold Patch.Node Local.patch
  dsimp only
  constructor
  · rintro ⟨w, t, h1, h2, h3, h4, rfl, rfl⟩
    rw [floor_limit _ w h1 h2, floor_limit _ t h3 h4]
    push_cast
    exact ⟨rfl, rfl⟩
  · rintro ⟨rfl, rfl⟩
    refine ⟨⌊s.lon / d30⌋, ⌊s.lat / d30⌋, (limit_floor _).1, (limit_floor _).2, (limit_floor _).1, (limit_floor _).2,
      ?_, ?_⟩ <;> push_cast <;> rfl

/-- The column of a node at a multiple of two arc-minutes. -/
theorem column_eq (m : ℤ) : ⌊((m : K) / 30 - d30 / 2) / d30⌋ = m - 1 := by
  have e : ((m : K) / 30 - d30 / 2) / d30 = ((m - 1 : ℤ) : K) + 1 / 2 := by
    unfold d30; push_cast; field_simp; ring
  rw [e, Int.floor_intCast_add]
  have : ⌊(1 / 2 : K)⌋ = 0 := by rw [Int.floor_eq_iff]; norm_num
  rw [this, add_zero]

theorem row_eq (m : ℤ) : ⌊((m : K) / 30 - (-90 + d30 / 2)) / d30⌋ = m + 2699 := by
  have e : ((m : K) / 30 - (-90 + d30 / 2)) / d30 = ((m + 2699 : ℤ) : K) + 1 / 2 := by
    unfold d30; push_cast; field_simp; ring
  rw [e, Int.floor_intCast_add]
  have : ⌊(1 / 2 : K)⌋ = 0 := by rw [Int.floor_eq_iff]; norm_num
  rw [this, add_zero]

theorem positive_eq (m : ℤ) : positive ((m : K) / 30) = ((if m ≤ 0 then m + 10800 else m : ℤ) : K) / 30 := by
  unfold positive
  have : (m : K) / 30 ≤ 0 ↔ m ≤ 0 := by
    rw [div_le_iff₀ (by norm_num), zero_mul]
    exact_mod_cast Iff.rfl
  by_cases h : m ≤ 0
  · rw [if_pos (this.2 h), if_pos h]; push_cast; ring
  · rw [if_neg (fun g => h (this.1 g)), if_neg h]

/-- A column of the fine grid of which a multiple of two arc-minutes is the eastern side. -/
theorem inCell_x (m : ℤ) (i : ℕ) : (∃ turns : ℤ, (i : K) / 30 < (m : K) / 30 + 360 * turns ∧
    (m : K) / 30 + 360 * turns ≤ ((i : K) + 1) / 30) ↔ ∃ turns : ℤ, m + 10800 * turns = i + 1 := by
  refine exists_congr fun t => ?_
  have e1 : (i : K) / 30 < (m : K) / 30 + 360 * t ↔ (i : ℤ) < m + 10800 * t := by
    rw [show (m : K) / 30 + 360 * t = ((m + 10800 * t : ℤ) : K) / 30 by push_cast; ring,
      div_lt_div_iff_of_pos_right (by norm_num)]
    exact_mod_cast Iff.rfl
  have e2 : (m : K) / 30 + 360 * t ≤ ((i : K) + 1) / 30 ↔ m + 10800 * t ≤ (i : ℤ) + 1 := by
    rw [show (m : K) / 30 + 360 * t = ((m + 10800 * t : ℤ) : K) / 30 by push_cast; ring,
      div_le_div_iff_of_pos_right (by norm_num)]
    exact_mod_cast Iff.rfl
  rw [e1, e2]
  omega

theorem inCell_y (m : ℤ) (j : ℕ) : (-90 + (j : K) / 30 < (m : K) / 30 ∧ (m : K) / 30 ≤ -90 + ((j : K) + 1) / 30) ↔
    m + 2699 = j := by
  have e1 : -90 + (j : K) / 30 < (m : K) / 30 ↔ (j : ℤ) - 2700 < m := by
    rw [show -90 + (j : K) / 30 = ((j - 2700 : ℤ) : K) / 30 by push_cast; ring,
      div_lt_div_iff_of_pos_right (by norm_num)]
    exact_mod_cast Iff.rfl
  have e2 : (m : K) / 30 ≤ -90 + ((j : K) + 1) / 30 ↔ m ≤ (j : ℤ) - 2699 := by
    rw [show -90 + ((j : K) + 1) / 30 = ((j - 2699 : ℤ) : K) / 30 by push_cast; ring,
      div_le_div_iff_of_pos_right (by norm_num)]
    exact_mod_cast Iff.rfl
  rw [e1, e2]
  omega

/-- The number of the multiple of two arc-minutes at which a column of a local grid is. -/
def mark (l : K) (i : ℕ) : ℤ := ⌊l / d30⌋ + i

theorem coord_mark (l : K) (i : ℕ) : coord l i = (mark l i : K) / 30 := coord_eq l i

/-- The element that receives a node of a local solution. -/
theorem landing (s : Local K V) (hs : s.patch.OnGlobe) (r c : ℕ) (v : V) (hv : s.patch.value r c = some v) :
    ∃ j i, OTIS.axisIndex 5400 ⌊(coord s.lat r - (-90 + d30 / 2)) / d30⌋ = .ok j ∧
      OTIS.axisIndex 10800 ⌊(positive (coord s.lon c) - d30 / 2) / d30⌋ = .ok i ∧ j < 5400 ∧ i < 10800 ∧
      ∀ j' i', i' < 10800 → (InCell j' i' (coord s.lon c) (coord s.lat r) ↔ (j, i) = (j', i')) := by
  have hb := hs r c v _ _ hv ((node_iff s r c _ _).2 ⟨rfl, rfl⟩)
  simp only [coord_mark] at hb ⊢
  generalize mark s.lon c = m at hb ⊢
  generalize mark s.lat r = n at hb ⊢
  obtain ⟨b1, b2, b3, b4⟩ := hb
  have c1 : -21600 < m := by
    rw [lt_div_iff₀ (by norm_num)] at b1
    have : ((-21600 : ℤ) : K) < m := by push_cast; linarith
    exact_mod_cast this
  have c2 : m ≤ 10800 := by
    rw [div_le_iff₀ (by norm_num)] at b2
    have : (m : K) ≤ ((10800 : ℤ) : K) := by push_cast; linarith
    exact_mod_cast this
  have c3 : -2700 < n := by
    rw [lt_div_iff₀ (by norm_num)] at b3
    have : ((-2700 : ℤ) : K) < n := by push_cast; linarith
    exact_mod_cast this
  have c4 : n ≤ 2700 := by
    rw [div_le_iff₀ (by norm_num)] at b4
    have : (n : K) ≤ ((2700 : ℤ) : K) := by push_cast; linarith
    exact_mod_cast this
  rw [positive_eq, column_eq, row_eq]
  have ej : OTIS.axisIndex 5400 (n + 2699) = .ok (n + 2699).toNat := by
    unfold OTIS.axisIndex
    rw [if_pos (by push_cast; omega)]
  obtain ⟨i, ei, hi, t, ht⟩ : ∃ i, OTIS.axisIndex 10800 ((if m ≤ 0 then m + 10800 else m) - 1) = .ok i ∧ i < 10800 ∧
      ∃ t : ℤ, m + 10800 * t = i + 1 := by
    unfold OTIS.axisIndex
    by_cases h0 : m ≤ 0
    · rw [if_pos h0]
      by_cases h1 : m + 10800 - 1 < 0
      · rw [if_neg (by omega), if_pos (by push_cast; omega)]
        exact ⟨_, rfl, by push_cast; omega, 2, by push_cast; omega⟩
      · rw [if_pos (by push_cast; omega)]
        exact ⟨_, rfl, by omega, 1, by omega⟩
    · rw [if_neg h0, if_pos (by push_cast; omega)]
      exact ⟨_, rfl, by omega, 0, by omega⟩
  refine ⟨_, i, ej, ei, by omega, hi, fun j' i' hi' => ?_⟩
  unfold InCell
  rw [inCell_x, inCell_y, Prod.mk.injEq]
  constructor
  · rintro ⟨⟨t', h'⟩, h2⟩
    exact ⟨by omega, by omega⟩
  · rintro ⟨h1, h2⟩
    exact ⟨⟨t, by omega⟩, by omega⟩

theorem pair_left {α β : Type} {R : α → β → Prop} {l : List α} {l' : List β} (h : List.Forall₂ R l l') :
    ∀ a ∈ l, ∃ b ∈ l', R a b := by
  induction h with
  | nil => simp
  | cons hab _ ih =>
    intro x hx
    rcases List.mem_cons.1 hx with rfl | hx
    · exact ⟨_, List.mem_cons_self, hab⟩
    · obtain ⟨b, hb, hr⟩ := ih x hx
      exact ⟨b, List.mem_cons_of_mem _ hb, hr⟩

theorem pair_right {α β : Type} {R : α → β → Prop} {l : List α} {l' : List β} (h : List.Forall₂ R l l') :
    ∀ b ∈ l', ∃ a ∈ l, R a b := by
  induction h with
  | nil => simp
  | cons hab _ ih =>
    intro x hx
    rcases List.mem_cons.1 hx with rfl | hx
    · exact ⟨_, List.mem_cons_self, hab⟩
    · obtain ⟨b, hb, hr⟩ := ih x hx
      exact ⟨b, List.mem_cons_of_mem _ hb, hr⟩

/-- Laying one local solution over a matrix. -/
theorem assign_patch (s : Local K V) (hs : s.patch.OnGlobe) (f : ℕ → ℕ → V) :
    ∃ g, assign 5400 10800 (plain30 f) (targets s) = .ok (plain30 g) ∧ ∀ j i, i < 10800 →
      (s.patch.Has j i (g j i)) ∨ ((∀ w, ¬ s.patch.Has j i w) ∧ g j i = f j i) := by
  obtain ⟨pos, hpos, hmem⟩ : ∃ pos, pyMap (fun p : (ℤ × ℤ) × V => do
      let r ← OTIS.axisIndex 5400 p.1.1
      let c ← OTIS.axisIndex 10800 p.1.2
      Except.ok ((r, c), p.2)) (targets s) = .ok pos ∧
      List.Forall₂ (fun (p : (ℤ × ℤ) × V) (q : (ℕ × ℕ) × V) => p.2 = q.2 ∧ OTIS.axisIndex 5400 p.1.1 = .ok q.1.1 ∧
        OTIS.axisIndex 10800 p.1.2 = .ok q.1.2) (targets s) pos := by
    have hall : ∀ p ∈ targets s, ∃ j i, OTIS.axisIndex 5400 p.1.1 = .ok j ∧ OTIS.axisIndex 10800 p.1.2 = .ok i := by
      intro p hp
      obtain ⟨r, c, hv, e1, e2⟩ := (mem_targets s p).1 hp
      obtain ⟨j, i, h1, h2, -⟩ := landing s hs r c p.2 hv
      exact ⟨j, i, by rw [e1]; exact h1, by rw [e2]; exact h2⟩
    generalize targets s = l at hall
    induction l with
    | nil => exact ⟨[], rfl, .nil⟩
    | cons p t ih =>
      obtain ⟨j, i, h1, h2⟩ := hall p (by simp)
      obtain ⟨pos, e, hf⟩ := ih fun q hq => hall q (List.mem_cons_of_mem _ hq)
      refine ⟨((j, i), p.2) :: pos, ?_, .cons ⟨rfl, h1, h2⟩ hf⟩
      rw [pyMap, h1, ok_bind, h2, ok_bind, e]
  obtain ⟨g, eg, hg⟩ := fold_plain pos f
  refine ⟨g, ?_, fun j i hi => ?_⟩
  · unfold assign
    rw [hpos, ok_bind, eg]
  · have has : ∀ w, s.patch.Has j i w ↔ ∃ q ∈ pos, q.1 = (j, i) ∧ q.2 = w := by
      intro w
      constructor
      · rintro ⟨r, c, x, y, hv, hn, hc⟩
        obtain ⟨rfl, rfl⟩ := (node_iff s r c x y).1 hn
        obtain ⟨j', i', h1, h2, -, -, h3⟩ := landing s hs r c w hv
        have := (h3 j i hi).1 hc
        have hm : (((⌊(coord s.lat r - (-90 + d30 / 2)) / d30⌋, ⌊(positive (coord s.lon c) - d30 / 2) / d30⌋), w) :
            (ℤ × ℤ) × V) ∈ targets s := (mem_targets s _).2 ⟨r, c, hv, rfl, rfl⟩
        obtain ⟨q, hq, e1, e2, e3⟩ := pair_left hmem _ hm
        dsimp only at e1 e2 e3
        rw [h1] at e2
        rw [h2] at e3
        refine ⟨q, hq, ?_, e1.symm⟩
        rw [← this]
        exact Prod.ext (Except.ok.inj e2).symm (Except.ok.inj e3).symm
      · rintro ⟨q, hq, hp, rfl⟩
        obtain ⟨p, hp', e1, e2, e3⟩ := pair_right hmem _ hq
        obtain ⟨r, c, hv, h1, h2⟩ := (mem_targets s p).1 hp'
        obtain ⟨j', i', k1, k2, -, -, k3⟩ := landing s hs r c p.2 hv
        rw [h1, k1] at e2
        rw [h2, k2] at e3
        refine ⟨r, c, coord s.lon c, coord s.lat r, by rw [hv, e1], (node_iff s r c _ _).2 ⟨rfl, rfl⟩, (k3 j i hi).2 ?_⟩
        rw [← hp]
        exact Prod.ext (Except.ok.inj e2) (Except.ok.inj e3)
    rcases hg j i with ⟨p, hp, h1, h2⟩ | ⟨h1, h2⟩
    · exact Or.inl ((has _).2 ⟨p, hp, h1, h2.symm⟩)
    · refine Or.inr ⟨fun w hw => ?_, h2⟩
      obtain ⟨q, hq, h, -⟩ := (has w).1 hw
      exact h1 q hq h

/-- Laying all local solutions over a matrix. -/
theorem overlay_patches (sols : List (Local K V)) (hs : ∀ s ∈ sols, s.patch.OnGlobe) (f : ℕ → ℕ → V) :
    ∃ g, overlay sols (plain30 f) = .ok (plain30 g) ∧ ∀ j i, i < 10800 →
      Shows (sols.map Local.patch) (f j i) j i (g j i) := by
  induction sols generalizing f with
  | nil => exact ⟨f, rfl, fun j i _ => Or.inr ⟨by simp, rfl⟩⟩
  | cons s t ih =>
    obtain ⟨g, e, hg⟩ := assign_patch s (hs s (by simp)) f
    obtain ⟨h, e', hh⟩ := ih (fun q hq => hs q (List.mem_cons_of_mem _ hq)) g
    refine ⟨h, ?_, fun j i hi => ?_⟩
    · rw [overlay, y30_length, x30_length, e, ok_bind, e']
    · rw [List.map_cons]
      rcases hh j i hi with ⟨pre, p, post, h1, h2, h3⟩ | ⟨h1, h2⟩
      · exact Or.inl ⟨s.patch :: pre, p, post, by rw [h1]; rfl, h2, h3⟩
      · rcases hg j i hi with h4 | ⟨h4, h5⟩
        · exact Or.inl ⟨[], s.patch, t.map Local.patch, rfl, by rw [h2]; exact h4, h1⟩
        · refine Or.inr ⟨?_, by rw [h2, h5]⟩
          intro q hq
          rcases List.mem_cons.1 hq with rfl | hq
          · exact h4
          · exact h1 q hq

end Verif.Combine
