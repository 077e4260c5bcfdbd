import Verif.Spec.Chart
import Mathlib.Tactic.Ring
import Mathlib.Tactic.Linarith
import Mathlib.Tactic.LinearCombination
/-! The interpolation of a chart is unique and does not depend on the turn of the longitude. -/
namespace Verif.Spec.Chart

variable {K : Type} [Field K] [LinearOrder K] [IsStrictOrderedRing K]

theorem blend_west (C : Chart K) (k j : ℤ) (s : K) :
    blend (C.corners k j 1 s) = blend (C.corners (k + 1) j 0 s) := by
  simp [blend, corners]

theorem blend_south (C : Chart K) (k j : ℤ) (t : K) :
    blend (C.corners k j t 1) = blend (C.corners k (j + 1) t 0) := by
  simp [blend, corners]

theorem mean_west (C : Chart K) (k j : ℤ) (s : K) :
    mean (C.corners k j 1 s) = mean (C.corners (k + 1) j 0 s) := by
  simp [mean, corners, share]

theorem mean_south (C : Chart K) (k j : ℤ) (t : K) :
    mean (C.corners k j t 1) = mean (C.corners k (j + 1) t 0) := by
  simp [mean, corners, share]

/-- On an increasing line of places, a place lies between one pair of neighbours only. -/
theorem line (X : ℤ → K) (P : ℤ → Prop) (inc : ∀ k, P k → P (k + 1) → X k < X (k + 1))
    (conv : ∀ k l m, k ≤ l → l ≤ m → P k → P m → P l) :
    ∀ (d : ℕ) (k : ℤ), P k → P (k + d) → X k ≤ X (k + d) ∧ (0 < d → X k < X (k + d)) := by
  intro d
  induction d with
  | zero => intro k _ _; simp
  | succ d ih =>
    intro k h1 h2
    have hd : P (k + d) := conv k (k + d) (k + (d + 1 : ℕ)) (by omega) (by push_cast; omega) h1 h2
    have e : k + ((d + 1 : ℕ) : ℤ) = (k + d) + 1 := by push_cast; ring
    rw [e] at h2 ⊢
    have := (ih k h1 hd).1
    have := inc _ hd h2
    exact ⟨by linarith, fun _ => by linarith⟩

theorem line_unique (X : ℤ → K) (P : ℤ → Prop) (inc : ∀ k, P k → P (k + 1) → X k < X (k + 1))
    (conv : ∀ k l m, k ≤ l → l ≤ m → P k → P m → P l) {k l : ℤ} {t u : K} (hk : P k)
    (hk' : P (k + 1)) (hl : P l) (hl' : P (l + 1)) (t0 : 0 ≤ t) (t1 : t ≤ 1) (u0 : 0 ≤ u) (u1 : u ≤ 1)
    (e : (1 - t) * X k + t * X (k + 1) = (1 - u) * X l + u * X (l + 1)) :
    (k = l ∧ t = u) ∨ (l = k + 1 ∧ t = 1 ∧ u = 0) ∨ (k = l + 1 ∧ t = 0 ∧ u = 1) := by
  have i1 := inc k hk hk'
  have i2 := inc l hl hl'
  have f1 : (1 - t) * X k + t * X (k + 1) = X k + t * (X (k + 1) - X k) := by ring
  have f2 : (1 - u) * X l + u * X (l + 1) = X l + u * (X (l + 1) - X l) := by ring
  have a1 : 0 ≤ t * (X (k + 1) - X k) := mul_nonneg t0 (by linarith)
  have a2 : 0 ≤ (1 - t) * (X (k + 1) - X k) := mul_nonneg (by linarith) (by linarith)
  have b1 : 0 ≤ u * (X (l + 1) - X l) := mul_nonneg u0 (by linarith)
  have b2 : 0 ≤ (1 - u) * (X (l + 1) - X l) := mul_nonneg (by linarith) (by linarith)
  have a3 : (1 - t) * (X (k + 1) - X k) = X (k + 1) - X k - t * (X (k + 1) - X k) := by ring
  have b3 : (1 - u) * (X (l + 1) - X l) = X (l + 1) - X l - u * (X (l + 1) - X l) := by ring
  rcases lt_trichotomy k l with h | h | h
  · right; left
    obtain ⟨d, rfl⟩ : ∃ d : ℕ, l = (k + 1) + d := ⟨(l - k - 1).toNat, by omega⟩
    have := line X P inc conv d (k + 1) hk' hl
    have p1 : (1 - t) * (X (k + 1) - X k) = 0 := by linarith [this.1]
    have p2 : u * (X (k + 1 + d + 1) - X (k + 1 + d)) = 0 := by linarith [this.1]
    have ht : t = 1 := by
      rcases mul_eq_zero.1 p1 with q | q
      · linarith
      · linarith
    have hu : u = 0 := by
      rcases mul_eq_zero.1 p2 with q | q
      · exact q
      · linarith
    refine ⟨?_, ht, hu⟩
    by_contra hne
    have := this.2 (by omega)
    linarith
  · left
    subst h
    refine ⟨rfl, ?_⟩
    have : (t - u) * (X (k + 1) - X k) = 0 := by linear_combination e
    rcases mul_eq_zero.1 this with q | q
    · linarith
    · linarith
  · right; right
    obtain ⟨d, rfl⟩ : ∃ d : ℕ, k = (l + 1) + d := ⟨(k - l - 1).toNat, by omega⟩
    have := line X P inc conv d (l + 1) hl' hk
    have p1 : (1 - u) * (X (l + 1) - X l) = 0 := by linarith [this.1]
    have p2 : t * (X (l + 1 + d + 1) - X (l + 1 + d)) = 0 := by linarith [this.1]
    have hu : u = 1 := by
      rcases mul_eq_zero.1 p1 with q | q
      · linarith
      · linarith
    have ht : t = 0 := by
      rcases mul_eq_zero.1 p2 with q | q
      · exact q
      · linarith
    refine ⟨?_, ht, hu⟩
    by_contra hne
    have := this.2 (by omega)
    linarith

/-- Whatever is computed from the corners and does not change when a place on the border of two cells
is seen from the other cell depends on the place only. -/
theorem At.unique {C : Chart K} (hC : C.Ordered) {F : List (K × Option (K × K)) → Option (K × K)}
    (w : ∀ k j s, F (C.corners k j 1 s) = F (C.corners (k + 1) j 0 s))
    (v : ∀ k j t, F (C.corners k j t 1) = F (C.corners k (j + 1) t 0)) {x y : K} {k j l i : ℤ}
    {t s u r : K} (h : C.At x y k j t s) (h' : C.At x y l i u r) :
    F (C.corners k j t s) = F (C.corners l i u r) := by
  have e1 : F (C.corners k j t s) = F (C.corners l j u s) := by
    rcases line_unique C.lon C.cols hC.lon hC.between_cols h.col h.col' h'.col h'.col' h.t0 h.t1
      h'.t0 h'.t1 (h.x_eq.symm.trans h'.x_eq) with ⟨rfl, rfl⟩ | ⟨rfl, rfl, rfl⟩ | ⟨rfl, rfl, rfl⟩
    · rfl
    · exact w _ _ _
    · exact (w _ _ _).symm
  rw [e1]
  rcases line_unique C.lat C.rows hC.lat hC.between_rows h.row h.row' h'.row h'.row' h.s0 h.s1
    h'.s0 h'.s1 (h.y_eq.symm.trans h'.y_eq) with ⟨rfl, rfl⟩ | ⟨rfl, rfl, rfl⟩ | ⟨rfl, rfl, rfl⟩
  · rfl
  · exact v _ _ _
  · exact (v _ _ _).symm

theorem Value.unique {C : Chart K} (hC : C.Ordered) {x y : K} {o o' : Option (K × K)}
    (h : C.Value x y o) (h' : C.Value x y o') : o = o' := by
  obtain ⟨k, j, t, s, a, rfl⟩ := h
  obtain ⟨l, i, u, r, b, rfl⟩ := h'
  exact At.unique hC (fun _ _ _ => blend_west ..) (fun _ _ _ => blend_south ..) a b

theorem Mean.unique {C : Chart K} (hC : C.Ordered) {x y : K} {o o' : Option (K × K)}
    (h : C.Mean x y o) (h' : C.Mean x y o') : o = o' := by
  obtain ⟨k, j, t, s, a, rfl⟩ := h
  obtain ⟨l, i, u, r, b, rfl⟩ := h'
  exact At.unique hC (fun _ _ _ => mean_west ..) (fun _ _ _ => mean_south ..) a b

/-- The weights add up to one, so where all four points have a value the mean is the interpolation. -/
theorem mean_eq_blend (C : Chart K) (k j : ℤ) (t s : K) (h : ∀ p ∈ C.corners k j t s, p.2 ≠ none) :
    mean (C.corners k j t s) = blend (C.corners k j t s) := by
  have e : ∀ p ∈ C.corners k j t s, share p = p.1 := fun p hp => by
    unfold share; rw [if_neg (h p hp)]
  have one : ((C.corners k j t s).map share).sum = 1 := by
    rw [List.map_congr_left e]
    simp only [corners, List.map_cons, List.map_nil, List.sum_cons, List.sum_nil]
    ring
  have m1 : (C.corners k j t s).map (fun p => share p * (p.2.getD (0, 0)).1) =
      (C.corners k j t s).map (fun p => p.1 * (p.2.getD (0, 0)).1) :=
    List.map_congr_left fun p hp => by rw [e p hp]
  have m2 : (C.corners k j t s).map (fun p => share p * (p.2.getD (0, 0)).2) =
      (C.corners k j t s).map (fun p => p.1 * (p.2.getD (0, 0)).2) :=
    List.map_congr_left fun p hp => by rw [e p hp]
  unfold mean blend
  rw [one, if_neg one_ne_zero, if_pos (fun p hp _ => h p hp), div_one, div_one, m1, m2]

theorem Round.turns {C : Chart K} {n : ℕ} (h : C.Round n) (m : ℕ) (k : ℤ) :
    C.lon (k + m * n) = C.lon k + m * 360 ∧ ∀ j, C.value (k + m * n) j = C.value k j := by
  induction m with
  | zero => simp
  | succ m ih =>
    have e : k + ((m + 1 : ℕ) : ℤ) * n = (k + m * n) + n := by push_cast; ring
    rw [e, h.lon, ih.1]
    refine ⟨by push_cast; ring, fun j => ?_⟩
    rw [h.value, ih.2]

theorem Round.turn {C : Chart K} {n : ℕ} (h : C.Round n) (m k : ℤ) :
    C.lon (k + m * n) = C.lon k + m * 360 ∧ ∀ j, C.value (k + m * n) j = C.value k j := by
  rcases le_total 0 m with hm | hm
  · obtain ⟨p, rfl⟩ := Int.eq_ofNat_of_zero_le hm
    simpa using h.turns p k
  · obtain ⟨p, hp⟩ := Int.eq_ofNat_of_zero_le (neg_nonneg.2 hm)
    obtain rfl : m = -p := by omega
    have := h.turns p (k + -p * n)
    have e : k + -(p : ℤ) * n + p * n = k := by ring
    rw [e] at this
    refine ⟨by rw [this.1]; push_cast; ring, fun j => (this.2 j).symm⟩

theorem At.turn {C : Chart K} {n : ℕ} (h : C.Round n) (m : ℤ) {x y : K} {k j : ℤ} {t s : K}
    (a : C.At x y k j t s) :
    C.At (x + m * 360) y (k + m * n) j t s ∧ C.corners (k + m * n) j t s = C.corners k j t s := by
  have e : k + m * n + 1 = (k + 1) + m * n := by ring
  constructor
  · refine ⟨h.col _, h.col _, a.row, a.row', a.t0, a.t1, a.s0, a.s1, ?_, a.y_eq⟩
    rw [a.x_eq, e, (h.turn m k).1, (h.turn m (k + 1)).1]
    ring
  · unfold corners
    rw [e, (h.turn m k).2, (h.turn m (k + 1)).2, (h.turn m k).2, (h.turn m (k + 1)).2]

theorem Value.turn {C : Chart K} {n : ℕ} (h : C.Round n) (m : ℤ) {x y : K} {o : Option (K × K)}
    (a : C.Value x y o) : C.Value (x + m * 360) y o := by
  obtain ⟨k, j, t, s, a, rfl⟩ := a
  exact ⟨k + m * n, j, t, s, (a.turn h m).1, by rw [(a.turn h m).2]⟩

theorem Mean.turn {C : Chart K} {n : ℕ} (h : C.Round n) (m : ℤ) {x y : K} {o : Option (K × K)}
    (a : C.Mean x y o) : C.Mean (x + m * 360) y o := by
  obtain ⟨k, j, t, s, a, rfl⟩ := a
  exact ⟨k + m * n, j, t, s, (a.turn h m).1, by rw [(a.turn h m).2]⟩

end Verif.Spec.Chart
