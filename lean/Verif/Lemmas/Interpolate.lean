import Verif.Model.Interpolate
import Mathlib.Order.Monotone.Basic
import Mathlib.Algebra.Order.BigOperators.Group.List
import Mathlib.Tactic.Linarith
import Mathlib.Tactic.FieldSimp
import Mathlib.Tactic.Ring
/-! Helper lemmas for C10: cell search on an increasing axis, weighted means. -/
namespace Verif.Interp
open Verif

variable {K : Type*} [Field K] [LinearOrder K] [IsStrictOrderedRing K]

/-- The axis is strictly increasing and has at least two nodes. -/
structure Axis.Increasing (a : Axis K) : Prop where
  two : 2 ≤ a.n
  step : ∀ i, i + 1 < a.n → a.x i < a.x (i + 1)

theorem Axis.Increasing.lt {a : Axis K} (h : a.Increasing) {i j : ℕ} (hij : i < j) (hj : j < a.n) :
    a.x i < a.x j := by
  induction j with
  | zero => omega
  | succ j ih =>
    by_cases e : i = j
    · subst e; exact h.step i hj
    · exact lt_trans (ih (by omega) (by omega)) (h.step j hj)

theorem Axis.Increasing.le {a : Axis K} (h : a.Increasing) {i j : ℕ} (hij : i ≤ j) (hj : j < a.n) :
    a.x i ≤ a.x j := by
  rcases Nat.lt_or_eq_of_le hij with g | g
  · exact (h.lt g hj).le
  · rw [g]

theorem Axis.Increasing.min {a : Axis K} (h : a.Increasing) : a.toList.min? = some (a.x 0) := by
  have h2 := h.two
  rw [List.min?_eq_some_iff]
  constructor
  · exact List.mem_map.mpr ⟨0, List.mem_range.mpr (by omega), rfl⟩
  · intro b hb
    obtain ⟨i, hi, rfl⟩ := List.mem_map.mp hb
    exact h.le (Nat.zero_le _) (List.mem_range.mp hi)

theorem Axis.Increasing.max {a : Axis K} (h : a.Increasing) :
    a.toList.max? = some (a.x (a.n - 1)) := by
  have h2 := h.two
  rw [List.max?_eq_some_iff]
  constructor
  · exact List.mem_map.mpr ⟨a.n - 1, List.mem_range.mpr (by omega), rfl⟩
  · intro b hb
    obtain ⟨i, hi, rfl⟩ := List.mem_map.mp hb
    have := List.mem_range.mp hi
    exact h.le (by omega) (by omega)

/-- Every point between the first and the last node lies in a cell. -/
theorem Axis.Increasing.exists_cell {a : Axis K} (h : a.Increasing) (q : K) (h0 : a.x 0 ≤ q) :
    ∀ m, m < a.n → q < a.x m → ∃ i, i + 1 ≤ m ∧ a.x i ≤ q ∧ q < a.x (i + 1) := by
  intro m
  induction m with
  | zero => intro _ hq; exact absurd h0 (not_le.mpr hq)
  | succ m ih =>
    intro hm hq
    by_cases hc : q < a.x m
    · obtain ⟨i, h1, h2⟩ := ih (by omega) hc
      exact ⟨i, by omega, h2⟩
    · exact ⟨m, le_refl _, not_lt.mp hc, hq⟩

theorem filter_range_unique (n : ℕ) (p : ℕ → Bool) (i : ℕ) (hi : i < n) (hp : p i = true)
    (hu : ∀ j, j < n → p j = true → j = i) : (List.range n).filter p = [i] := by
  have hnd : ((List.range n).filter p).Nodup := List.nodup_range.filter _
  have hmem : ∀ j, j ∈ (List.range n).filter p ↔ j = i := by
    intro j
    rw [List.mem_filter, List.mem_range]
    constructor
    · rintro ⟨h1, h2⟩; exact hu j h1 h2
    · rintro rfl; exact ⟨hi, hp⟩
  match hl : (List.range n).filter p with
  | [] => exact absurd ((hmem i).mpr rfl) (by rw [hl]; simp)
  | [a] => rw [(hmem a).mp (by rw [hl]; simp)]
  | a :: b :: t =>
    rw [hl] at hnd
    have ha := (hmem a).mp (by rw [hl]; simp)
    have hb := (hmem b).mp (by rw [hl]; simp)
    rw [ha, hb] at hnd
    simp at hnd

/-- The search finds exactly the cell that contains the point. -/
theorem Axis.Increasing.find_eq {a : Axis K} (h : a.Increasing) (q : K) (i : ℕ)
    (hi : i + 1 < a.n) (h1 : a.x i ≤ q) (h2 : q < a.x (i + 1)) : a.find q = [i] := by
  refine filter_range_unique _ _ i (by omega) (by simp [h1, h2]) ?_
  intro j hj hp
  simp only [decide_eq_true_eq] at hp
  by_contra hne
  rcases Nat.lt_or_gt_of_ne hne with g | g
  · have := h.le (show j + 1 ≤ i by omega) (by omega)
    exact absurd (lt_of_lt_of_le hp.2 this) (not_lt.mpr h1)
  · have := h.le (show i + 1 ≤ j by omega) (by omega)
    exact absurd (lt_of_lt_of_le h2 this) (not_lt.mpr hp.1)

/-- Beyond the last node no cell is found. -/
theorem Axis.Increasing.find_last {a : Axis K} (h : a.Increasing) (q : K)
    (hq : a.x (a.n - 1) ≤ q) : a.find q = [] := by
  unfold Axis.find
  rw [List.filter_eq_nil_iff]
  intro j hj
  have hj' := List.mem_range.mp hj
  simp only [decide_eq_true_eq, not_and, not_lt]
  intro _
  exact le_trans (h.le (by omega) (by omega)) hq

/-- A weighted mean with nonnegative weights lies between the bounds of its values. -/
theorem weighted_between (ws : List (K × K)) (hw : ∀ p ∈ ws, 0 ≤ p.1) (lo hi v : K)
    (hlo : ∀ p ∈ ws, lo ≤ p.2) (hhi : ∀ p ∈ ws, p.2 ≤ hi) (h : weighted ws = some v) :
    lo ≤ v ∧ v ≤ hi := by
  unfold weighted at h
  simp only at h
  split_ifs at h with ht
  have hs : 0 ≤ (ws.map (·.1)).sum := List.sum_nonneg (by
    intro x hx; obtain ⟨p, hp, rfl⟩ := List.mem_map.mp hx; exact hw p hp)
  have hpos : 0 < (ws.map (·.1)).sum := lt_of_le_of_ne hs (Ne.symm ht)
  have key : lo * (ws.map (·.1)).sum ≤ (ws.map (fun p => p.1 * p.2)).sum ∧
      (ws.map (fun p => p.1 * p.2)).sum ≤ hi * (ws.map (·.1)).sum := by
    clear h ht hs hpos
    induction ws with
    | nil => simp
    | cons p t ih =>
      obtain ⟨i1, i2⟩ := ih (fun q hq => hw q (List.mem_cons_of_mem _ hq))
        (fun q hq => hlo q (List.mem_cons_of_mem _ hq))
        (fun q hq => hhi q (List.mem_cons_of_mem _ hq))
      have w0 := hw p List.mem_cons_self
      have l0 := hlo p List.mem_cons_self
      have h0 := hhi p List.mem_cons_self
      simp only [List.map_cons, List.sum_cons]
      constructor
      · nlinarith [mul_le_mul_of_nonneg_left l0 w0]
      · nlinarith [mul_le_mul_of_nonneg_left h0 w0]
  simp only [Option.some.injEq] at h
  subst h
  exact ⟨(le_div_iff₀ hpos).mpr key.1, (div_le_iff₀ hpos).mpr key.2⟩

theorem mem_validPairs (cs : List (K × Cell K)) (p : K × K) :
    p ∈ validPairs cs ↔ (p.1, ({ val := some p.2, masked := false } : Cell K)) ∈ cs := by
  unfold validPairs
  rw [List.mem_filterMap]
  constructor
  · rintro ⟨⟨w, ⟨v, m⟩⟩, hmem, h⟩
    cases v <;> cases m <;> simp [Cell.valid] at h
    subst h; exact hmem
  · intro h
    exact ⟨_, h, by simp [Cell.valid]⟩

end Verif.Interp
