import Verif.Model.Grid
import Mathlib.Tactic.Linarith
import Mathlib.Tactic.Ring
import Mathlib.Data.List.Sort
/-!
Helper lemmas about slices, `argmin` and `_shift` of the grid model.
-/
namespace Verif.Grid
open Verif

variable {K : Type} [Field K] [LinearOrder K] [IsStrictOrderedRing K]
variable {α : Type}

theorem normIdx_nat (n i : ℕ) (h : i ≤ n) : normIdx n (i : Int) = i := by
  simp only [normIdx]
  split_ifs <;> omega

theorem normIdx_neg (n i : ℕ) (h0 : 0 < i) (h : i ≤ n) : normIdx n (-(i : Int)) = n - i := by
  simp only [normIdx]
  split_ifs <;> omega

theorem normIdx_negZero (n : ℕ) : normIdx n (-((0 : ℕ) : Int)) = 0 := by
  simp [normIdx]

/-- Invariant of the `argmin` loop. -/
theorem argmin_fold (t p : List K) (b : ℕ) (m : K) (hb : p[b]? = some m)
    (hmin : ∀ v ∈ p, m ≤ v) (hfirst : ∀ j v, j < b → p[j]? = some v → m < v) :
    ∃ m', (p ++ t)[(t.foldl (fun (acc : ℕ × ℕ × K) b =>
      let (best, k, m) := acc
      if b < m then (k, k + 1, b) else (best, k + 1, m)) (b, p.length, m)).1]? = some m' ∧
      (∀ v ∈ p ++ t, m' ≤ v) ∧
      (∀ j v, j < (t.foldl (fun (acc : ℕ × ℕ × K) b =>
      let (best, k, m) := acc
      if b < m then (k, k + 1, b) else (best, k + 1, m)) (b, p.length, m)).1 →
        (p ++ t)[j]? = some v → m' < v) := by
  induction t generalizing p b m with
  | nil => exact ⟨m, by simpa using hb, by simpa using hmin, by simpa using hfirst⟩
  | cons a t ih =>
    have hbl : b < p.length := by
      by_contra hh
      rw [List.getElem?_eq_none (by omega)] at hb
      cases hb
    have e : p ++ a :: t = (p ++ [a]) ++ t := by simp
    rw [e]
    simp only [List.foldl_cons]
    by_cases hlt : a < m
    · have := ih (p ++ [a]) p.length a (by simp)
        (by
          intro v hv
          rcases List.mem_append.mp hv with h | h
          · exact le_of_lt (lt_of_lt_of_le hlt (hmin v h))
          · simp at h; exact h ▸ le_refl _)
        (by
          intro j v hj hv
          rw [List.getElem?_append_left hj] at hv
          exact lt_of_lt_of_le hlt (hmin v (List.mem_of_getElem? hv)))
      simpa [hlt] using this
    · have := ih (p ++ [a]) b m (by rw [List.getElem?_append_left hbl]; exact hb)
        (by
          intro v hv
          rcases List.mem_append.mp hv with h | h
          · exact hmin v h
          · simp at h; exact h ▸ not_lt.mp hlt)
        (by
          intro j v hj hv
          rw [List.getElem?_append_left (by omega)] at hv
          exact hfirst j v hj hv)
      simpa [hlt] using this

/-- `argmin` returns the index of the first smallest element. -/
theorem argmin_spec (l : List K) (i : ℕ) (h : argmin l = .ok i) :
    ∃ m, l[i]? = some m ∧ (∀ v ∈ l, m ≤ v) ∧ (∀ j v, j < i → l[j]? = some v → m < v) := by
  cases l with
  | nil => simp [argmin] at h
  | cons a t =>
    simp only [argmin, Except.ok.injEq] at h
    have := argmin_fold t [a] 0 a (by simp) (by simp) (by intro j v hj; omega)
    simp only [List.length_singleton] at this
    rw [h] at this
    simpa using this

theorem argmin_ok (l : List K) (h : l ≠ []) : ∃ i, argmin l = .ok i := by
  cases l with
  | nil => exact absurd rfl h
  | cons a t => exact ⟨_, rfl⟩

theorem argmin_zero_iff (a : K) (t : List K) :
    argmin (a :: t) = .ok 0 ↔ ∀ v ∈ t, a ≤ v := by
  constructor
  · intro h v hv
    obtain ⟨m, hm, hmin, _⟩ := argmin_spec _ _ h
    simp at hm
    exact hm ▸ hmin v (List.mem_cons_of_mem _ hv)
  · intro h
    obtain ⟨i, hi⟩ := argmin_ok (a :: t) (by simp)
    obtain ⟨m, hm, hmin, hf⟩ := argmin_spec _ _ hi
    rcases Nat.eq_zero_or_pos i with h0 | h0
    · rw [hi, h0]
    · have := hf 0 a h0 (by simp)
      have hmem := List.mem_of_getElem? hm
      rcases List.mem_cons.mp hmem with h1 | h1
      · exact absurd this (by rw [h1]; exact lt_irrefl _)
      · exact absurd this (not_lt.mpr (h m h1))

/-- The rotation performed by the two slice assignments. -/
theorem rotateArray_pos (zero : α) (l : List α) (i0 off : ℕ) (h0 : 0 < i0)
    (hi : i0 + off ≤ l.length) (hn : i0 < l.length) :
    rotateArray zero l i0 off = .ok (l.drop i0 ++ (l.drop off).take i0) := by
  have e1 : setSlice (List.replicate l.length zero) 0 (-(i0 : Int)) (l.drop i0)
      = .ok (l.drop i0 ++ List.replicate i0 zero) := by
    have a1 : normIdx l.length 0 = 0 := by simp [normIdx]
    have a2 := normIdx_neg l.length i0 h0 (le_of_lt hn)
    simp only [setSlice, List.length_replicate, a1, a2, List.length_drop]
    rw [if_pos (by omega)]
    simp only [List.take_zero, List.nil_append, List.drop_replicate]
    congr 3
    omega
  have hl : (l.drop i0 ++ List.replicate i0 zero).length = l.length := by simp; omega
  have e2 : setSlice (l.drop i0 ++ List.replicate i0 zero) (-(i0 : Int)) l.length
      ((l.drop off).take i0) = .ok (l.drop i0 ++ (l.drop off).take i0) := by
    have a1 := normIdx_nat l.length l.length le_rfl
    have a2 := normIdx_neg l.length i0 h0 (le_of_lt hn)
    simp only [setSlice, hl, a1, a2]
    rw [if_pos (by simp only [List.length_take, List.length_drop]; omega)]
    have hd : (l.drop i0).length = l.length - i0 := List.length_drop
    have k1 : List.drop (max (l.length - i0) l.length) (l.drop i0 ++ List.replicate i0 zero) = [] :=
      List.drop_eq_nil_of_le (by rw [hl]; omega)
    have k2 : List.take (l.length - i0) (l.drop i0 ++ List.replicate i0 zero) = l.drop i0 := by
      rw [List.take_append_of_le_length (by omega), List.take_of_length_le (by omega)]
    rw [k1, k2, List.append_nil]
  simp only [rotateArray, e1, bind, Except.bind]
  exact e2

/-- With index zero the slice `0:-0` is empty and the assignment fails. -/
theorem rotateArray_zero (zero : α) (l : List α) (off : ℕ) (hl : l ≠ []) :
    rotateArray zero l 0 off = .error .valueError := by
  have hpos : 0 < l.length := List.length_pos_iff.mpr hl
  have a1 : normIdx l.length 0 = 0 := by simp [normIdx]
  have a2 := normIdx_negZero l.length
  have a3 := normIdx_nat l.length l.length le_rfl
  match l, hl with
  | [a], _ =>
    cases off <;> rfl
  | a :: b :: t, _ =>
    simp only [rotateArray, setSlice, List.length_replicate, a1, a2, List.drop_zero]
    rw [if_neg (by simp)]
    rfl

theorem mapSlice_tail (l : List α) (i : ℕ) (h0 : 0 < i) (h : i ≤ l.length) (f : α → α) :
    mapSlice l (-(i : Int)) l.length f
      = l.take (l.length - i) ++ (l.drop (l.length - i)).map f := by
  simp only [mapSlice, normIdx_nat _ _ le_rfl, normIdx_neg _ _ h0 h]
  have k1 : List.drop (max (l.length - i) l.length) l = [] :=
    List.drop_eq_nil_of_le (by omega)
  have k2 : List.take (max (l.length - i) l.length - (l.length - i)) (l.drop (l.length - i))
      = l.drop (l.length - i) :=
    List.take_of_length_le (by rw [List.length_drop]; omega)
  rw [k1, k2, List.append_nil]

theorem mapSlice_head (l : List α) (i : ℕ) (h0 : 0 < i) (h : i ≤ l.length) (f : α → α) :
    mapSlice l 0 (-(i : Int)) f
      = (l.take (l.length - i)).map f ++ l.drop (l.length - i) := by
  have a1 : normIdx l.length 0 = 0 := by simp [normIdx]
  simp only [mapSlice, a1, normIdx_neg _ _ h0 h]
  simp

end Verif.Grid
