import Verif.Model.CGrid
import Mathlib.Algebra.Order.Field.Rat
import Mathlib.Tactic.NormNum
import Mathlib.Tactic.Ring
import Mathlib.Tactic.Linarith
/-!
C48: masks and depths at the velocity nodes.
-/
namespace Verif.CGrid

variable {K : Type} [Field K] [LinearOrder K] [IsStrictOrderedRing K]
variable {α : Type}

/-- Entry of a matrix. -/
def entry (m : List (List α)) (j i : ℕ) : Option α := (m[j]?).bind (·[i]?)

/-- A matrix with `ny` rows and `nx` columns. -/
def Shape (m : List (List α)) (ny nx : ℕ) : Prop := m.length = ny ∧ ∀ r ∈ m, r.length = nx

/-- Column of the western neighbour of column `i`: the previous column, and for the first column
the last one on a global grid and the column itself on a regional one. -/
def west (isGlobal : Bool) (nx i : ℕ) : ℕ :=
  if i = 0 then (if isGlobal then nx - 1 else 0) else i - 1

/-- Row of the southern neighbour of row `j`; the first row is its own neighbour. -/
def south (j : ℕ) : ℕ := j - 1

theorem zipWith_getElem?' {β γ : Type} (f : α → β → γ) (a : List α) (b : List β) (i : ℕ) :
    (List.zipWith f a b)[i]? = (a[i]?).bind (fun x => (b[i]?).map (f x)) := by
  rw [List.getElem?_zipWith]
  cases a[i]? <;> cases b[i]? <;> rfl

theorem padLeft_eq (wrap : Bool) (row : List α) (h : row ≠ []) :
    ∃ a, padLeft wrap row = a :: row ∧
      row[west wrap row.length 0]? = some a := by
  cases wrap with
  | true =>
    refine ⟨row.getLast h, by simp [padLeft, List.getLast?_eq_some_getLast h], ?_⟩
    simp only [west, if_true]
    rw [← List.getLast?_eq_getElem?]
    exact List.getLast?_eq_some_getLast h
  | false =>
    refine ⟨row.head h, by simp [padLeft, List.head?_eq_some_head h], ?_⟩
    simp only [west, if_true, Bool.false_eq_true, if_false]
    rw [← List.head?_eq_getElem?]
    exact List.head?_eq_some_head h

/-- Combination of a list with its padded neighbour, by index. -/
theorem adjacent_getElem? (op : α → α → α) (wrap : Bool) (row : List α) (i : ℕ)
    (hi : i < row.length) :
    (List.zipWith op (padLeft wrap row).dropLast (padLeft wrap row).tail)[i]?
      = (row[west wrap row.length i]?).bind (fun x => (row[i]?).map (op x)) := by
  have hne : row ≠ [] := by intro e; rw [e] at hi; simp at hi
  obtain ⟨a, ha, hw⟩ := padLeft_eq wrap row hne
  rw [ha, zipWith_getElem?', List.tail_cons]
  congr 1
  rw [List.getElem?_dropLast]
  rw [if_pos (by simpa using hi)]
  cases i with
  | zero => rw [hw]; rfl
  | succ k => simp [west]

theorem adjacentX_entry (op : α → α → α) (wrap : Bool) (m : List (List α)) (ny nx j i : ℕ)
    (hs : Shape m ny nx) (hi : i < nx) :
    entry (adjacentX op wrap m) j i
      = (entry m j (west wrap nx i)).bind (fun x => (entry m j i).map (op x)) := by
  simp only [entry, adjacentX, List.getElem?_map]
  cases hr : m[j]? with
  | none => rfl
  | some row =>
    have hl := hs.2 row (List.mem_of_getElem? hr)
    simp only [Option.map_some, Option.bind_some]
    rw [adjacent_getElem? op wrap row i (by omega), hl]

theorem adjacentY_entry (op : α → α → α) (m : List (List α)) (j i : ℕ) (hj : j < m.length) :
    entry (adjacentY op m) j i
      = (entry m (south j) i).bind (fun x => (entry m j i).map (op x)) := by
  simp only [entry, adjacentY]
  have hw : west false m.length j = south j := by
    simp only [west, south, Bool.false_eq_true, if_false]
    split_ifs <;> omega
  have hne : m ≠ [] := by intro e; rw [e] at hj; simp at hj
  obtain ⟨a, ha, hw0⟩ := padLeft_eq false m hne
  rw [ha, zipWith_getElem?', List.tail_cons]
  have : (a :: m).dropLast[j]? = m[south j]? := by
    rw [List.getElem?_dropLast, if_pos (by simpa using hj), ← hw]
    cases j with
    | zero => rw [hw0]; rfl
    | succ k => simp [west]
  rw [this]
  cases m[south j]? with
  | none => rfl
  | some r1 =>
    cases m[j]? with
    | none => simp
    | some r2 =>
      simp only [Option.bind_some, Option.map_some]
      rw [zipWith_getElem?']

theorem entry_map {β : Type} (f : α → β) (m : List (List α)) (j i : ℕ) :
    entry (m.map (fun r => r.map f)) j i = (entry m j i).map f := by
  simp only [entry, List.getElem?_map]
  cases m[j]? <;> simp

theorem shape_map {β : Type} (f : α → β) (m : List (List α)) (ny nx : ℕ) (h : Shape m ny nx) :
    Shape (m.map (fun r => r.map f)) ny nx := by
  refine ⟨by simpa using h.1, ?_⟩
  intro r hr
  obtain ⟨r0, h0, rfl⟩ := List.mem_map.mp hr
  simpa using h.2 r0 h0

theorem entry_of_lt (m : List (List α)) (ny nx j i : ℕ) (h : Shape m ny nx) (hj : j < ny)
    (hi : i < nx) : ∃ v, entry m j i = some v := by
  have hj' : j < m.length := by have := h.1; omega
  have hr : m[j]? = some m[j] := List.getElem?_eq_getElem hj'
  have hl := h.2 m[j] (List.getElem_mem hj')
  refine ⟨m[j][i], ?_⟩
  simp only [entry, hr, Option.bind_some]
  exact List.getElem?_eq_getElem (by omega)

theorem west_lt (g : Bool) (nx i : ℕ) (h : i < nx) : west g nx i < nx := by
  unfold west; split_ifs <;> omega

/-- A zonal velocity node is wet exactly when the elevation nodes on both sides are wet. -/
theorem C48_u_mask (hz : List (List K)) (isGlobal : Bool) (ny nx j i : ℕ)
    (hs : Shape hz ny nx) (hj : j < ny) (hi : i < nx) (h hw : K)
    (hh : entry hz j i = some h) (hhw : entry hz j (west isGlobal nx i) = some hw) :
    entry (maskNodes hz isGlobal).1 j i = some (if 0 < hw ∧ 0 < h then 1 else 0) := by
  simp only [maskNodes, interpolateMask]
  rw [adjacentX_entry _ _ _ ny nx j i (shape_map _ _ _ _ hs) hi, entry_map, entry_map, hh, hhw]
  simp only [Option.map_some, Option.bind_some, Option.some.injEq]
  by_cases h1 : 0 < hw <;> by_cases h2 : 0 < h <;> simp [h1, h2]

/-- A meridional velocity node is wet exactly when the elevation nodes on both sides are wet. -/
theorem C48_v_mask (hz : List (List K)) (isGlobal : Bool) (ny nx j i : ℕ)
    (hs : Shape hz ny nx) (hj : j < ny) (h hb : K)
    (hh : entry hz j i = some h) (hhb : entry hz (south j) i = some hb) :
    entry (maskNodes hz isGlobal).2 j i = some (if 0 < hb ∧ 0 < h then 1 else 0) := by
  simp only [maskNodes, interpolateMask]
  rw [adjacentY_entry _ _ j i (by simpa using hs.1.symm ▸ hj), entry_map, entry_map, hh, hhb]
  simp only [Option.map_some, Option.bind_some, Option.some.injEq]
  by_cases h1 : 0 < hb <;> by_cases h2 : 0 < h <;> simp [h1, h2]

theorem halfMasked_entry (m : List (List ℤ)) (s : List (List K)) (j i : ℕ) (a : ℤ) (b : K)
    (hm : entry m j i = some a) (hsum : entry s j i = some b) :
    entry (halfMasked m s) j i = some (1 / 2 * (a : K) * b) := by
  simp only [entry, halfMasked] at *
  rw [zipWith_getElem?']
  cases h1 : m[j]? with
  | none => rw [h1] at hm; cases hm
  | some r1 =>
    cases h2 : s[j]? with
    | none => rw [h2] at hsum; cases hsum
    | some r2 =>
      rw [h1] at hm; rw [h2] at hsum
      simp only [Option.bind_some] at hm hsum
      simp only [Option.bind_some, Option.map_some]
      rw [zipWith_getElem?', hm, hsum]
      rfl

/-- The depth at a zonal velocity node is the mean of the adjacent depths where both are wet and
zero elsewhere.  Stated for global grids, and for regional ones away from the first column.
Missing for the full claim: the first column of a regional grid, where it fails
(`C48_regional_depth_false`). -/
theorem C48_u_depth_partial (hz : List (List K)) (isGlobal : Bool) (ny nx j i : ℕ)
    (hs : Shape hz ny nx) (hj : j < ny) (hi : i < nx) (hcol : isGlobal = true ∨ i ≠ 0) (h hw : K)
    (hh : entry hz j i = some h) (hhw : entry hz j (west isGlobal nx i) = some hw) :
    entry (interpolateZeta hz isGlobal).1 j i
      = some (if 0 < hw ∧ 0 < h then (hw + h) / 2 else 0) := by
  have hwest : west true nx i = west isGlobal nx i := by
    rcases hcol with e | e
    · rw [e]
    · simp [west, e]
  have hmask := C48_u_mask hz true ny nx j i hs hj hi h hw hh (by rw [hwest]; exact hhw)
  have hsum : entry (adjacentX (· + ·) isGlobal hz) j i = some (hw + h) := by
    rw [adjacentX_entry _ _ _ ny nx j i hs hi, hh, hhw]; rfl
  simp only [interpolateZeta]
  rw [halfMasked_entry _ _ j i _ _ hmask hsum]
  congr 1
  split_ifs
  · push_cast; ring
  · simp

/-- First column of a regional grid: the sum uses the depth of the column itself, but the mask is
that of the wrapped-around neighbour. -/
theorem C48_u_depth_first_column (hz : List (List K)) (ny nx j : ℕ)
    (hs : Shape hz ny nx) (hj : j < ny) (hi : 0 < nx) (h hl : K)
    (hh : entry hz j 0 = some h) (hhl : entry hz j (nx - 1) = some hl) :
    entry (interpolateZeta hz false).1 j 0 = some (if 0 < hl ∧ 0 < h then h else 0) := by
  have hmask := C48_u_mask hz true ny nx j 0 hs hj hi h hl hh (by simpa [west] using hhl)
  have hsum : entry (adjacentX (· + ·) false hz) j 0 = some (h + h) := by
    rw [adjacentX_entry _ _ _ ny nx j 0 hs hi]
    simp [west, hh]
  simp only [interpolateZeta]
  rw [halfMasked_entry _ _ j 0 _ _ hmask hsum]
  congr 1
  split_ifs
  · push_cast; ring
  · simp

/-- The depth at a meridional velocity node. -/
theorem C48_v_depth (hz : List (List K)) (isGlobal : Bool) (ny nx j i : ℕ)
    (hs : Shape hz ny nx) (hj : j < ny) (h hb : K)
    (hh : entry hz j i = some h) (hhb : entry hz (south j) i = some hb) :
    entry (interpolateZeta hz isGlobal).2 j i
      = some (if 0 < hb ∧ 0 < h then (hb + h) / 2 else 0) := by
  have hmask := C48_v_mask hz true ny nx j i hs hj h hb hh hhb
  have hsum : entry (adjacentY (· + ·) hz) j i = some (hb + h) := by
    rw [adjacentY_entry _ _ j i (by simpa using hs.1.symm ▸ hj), hh, hhb]; rfl
  simp only [interpolateZeta]
  rw [halfMasked_entry _ _ j i _ _ hmask hsum]
  congr 1
  split_ifs
  · push_cast; ring
  · simp

/-- On a regional grid with a dry last column, the first velocity column is reported wet with
depth zero although the elevation node has depth 10: the full claim is false. -/
theorem C48_regional_depth_false :
    (maskNodes [[(10 : ℚ), 20, 0]] false).1 = [[1, 1, 0]] ∧
    (interpolateZeta [[(10 : ℚ), 20, 0]] false).1 = [[0, 15, 0]] := by
  decide +kernel

/-- A two by three grid. -/
example : Shape [[(10 : ℚ), 20, 0], [4, 0, 8]] 2 3 ∧
    (maskNodes [[(10 : ℚ), 20, 0], [4, 0, 8]] true) = ([[0, 1, 0], [1, 0, 0]], [[1, 1, 0], [1, 0, 0]])
    ∧ (interpolateZeta [[(10 : ℚ), 20, 0], [4, 0, 8]] true)
      = ([[0, 15, 0], [6, 0, 0]], [[10, 20, 0], [7, 0, 0]]) := by
  unfold Shape
  decide +kernel

end Verif.CGrid
