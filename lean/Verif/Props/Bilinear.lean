import Verif.Lemmas.Interpolate
import Mathlib.Tactic.NormNum
/-!
Property C10: bilinear interpolation.
-/
namespace Verif.Interp
open Verif

variable {K : Type*} [Field K] [LinearOrder K] [IsStrictOrderedRing K]

/-- The point lies in the half-open cell with lower corner `(iy, ix)`. -/
def InCell (ax ay : Axis K) (lon lat : K) (ix iy : ℕ) : Prop :=
  ix + 1 < ax.n ∧ iy + 1 < ay.n ∧ ax.x ix ≤ lon ∧ lon < ax.x (ix + 1) ∧
    ay.x iy ≤ lat ∧ lat < ay.x (iy + 1) ∧ ay.x 0 < lat

/-- In a cell the result is that of the cell. -/
theorem bilinear_inCell (ax ay : Axis K) (hx : ax.Increasing) (hy : ay.Increasing)
    (data : ℕ → ℕ → Cell K) (fill : Option K) (lon lat : K) (ix iy : ℕ)
    (h : InCell ax ay lon lat ix iy) :
    bilinear ax ay data fill lon lat = .ok (cell ax ay data fill lon lat ix iy) := by
  obtain ⟨h1, h2, h3, h4, h5, h6, h7⟩ := h
  unfold bilinear
  rw [hx.min, hx.max, hy.min, hy.max]
  have c1 : ax.x 0 ≤ lon := le_trans (hx.le (Nat.zero_le _) (by omega)) h3
  have c2 : lon ≤ ax.x (ax.n - 1) := le_trans h4.le (hx.le (by omega) (by omega))
  have c3 : lat < ay.x (ay.n - 1) := lt_of_lt_of_le h6 (hy.le (by omega) (by omega))
  simp only [c1, c2, c3, h7, and_self, if_true, hx.find_eq lon ix h1 h3 h4,
    hy.find_eq lat iy h2 h5 h6]

/-- C10: every point with `x_first ≤ lon < x_last`, `y_first < lat < y_last` lies in a cell, and
the routine returns (no exception). -/
theorem C10_inside_never_raises_partial (ax ay : Axis K) (hx : ax.Increasing) (hy : ay.Increasing)
    (data : ℕ → ℕ → Cell K) (fill : Option K) (lon lat : K)
    (h1 : ax.x 0 ≤ lon) (h2 : lon < ax.x (ax.n - 1)) (h3 : ay.x 0 < lat)
    (h4 : lat < ay.x (ay.n - 1)) :
    ∃ ix iy, InCell ax ay lon lat ix iy ∧
      bilinear ax ay data fill lon lat = .ok (cell ax ay data fill lon lat ix iy) := by
  have hx2 := hx.two
  have hy2 := hy.two
  obtain ⟨ix, a1, a2, a3⟩ := hx.exists_cell lon h1 (ax.n - 1) (by omega) h2
  obtain ⟨iy, b1, b2, b3⟩ := hy.exists_cell lat h3.le (ay.n - 1) (by omega) h4
  have hc : InCell ax ay lon lat ix iy := ⟨by omega, by omega, a2, a3, b2, b3, h3⟩
  exact ⟨ix, iy, hc, bilinear_inCell ax ay hx hy data fill lon lat ix iy hc⟩

/-- C10 is false on the last meridian: a point with `lon` equal to the largest grid longitude
passes the bounds test but raises. -/
theorem C10_last_meridian_false (ax ay : Axis K) (hx : ax.Increasing) (hy : ay.Increasing)
    (data : ℕ → ℕ → Cell K) (fill : Option K) (lat : K)
    (h3 : ay.x 0 < lat) (h4 : lat < ay.x (ay.n - 1)) :
    bilinear ax ay data fill (ax.x (ax.n - 1)) lat = .error .valueError := by
  have hx2 := hx.two
  unfold bilinear
  rw [hx.min, hx.max, hy.min, hy.max]
  simp only [h3, h4, le_refl, hx.le (Nat.zero_le _) (show ax.n - 1 < ax.n by omega), and_self,
    if_true, hx.find_last _ (le_refl _)]

/-- C10: points outside the grid are masked and carry the fill value. -/
theorem C10_outside_masked (ax ay : Axis K) (hx : ax.Increasing) (hy : ay.Increasing)
    (data : ℕ → ℕ → Cell K) (fill : Option K) (lon lat : K)
    (h : lon < ax.x 0 ∨ ax.x (ax.n - 1) < lon ∨ lat ≤ ay.x 0 ∨ ay.x (ay.n - 1) ≤ lat) :
    bilinear ax ay data fill lon lat = .ok { val := fill, masked := true } := by
  unfold bilinear
  rw [hx.min, hx.max, hy.min, hy.max]
  have : ¬ (ax.x 0 ≤ lon ∧ lon ≤ ax.x (ax.n - 1) ∧ ay.x 0 < lat ∧ lat < ay.x (ay.n - 1)) := by
    rintro ⟨c1, c2, c3, c4⟩
    rcases h with h | h | h | h
    · exact absurd c1 (not_le.mpr h)
    · exact absurd c2 (not_le.mpr h)
    · exact absurd c3 (not_lt.mpr h)
    · exact absurd c4 (not_lt.mpr h)
  simp only [this, if_false]

theorem isclose_self (a : K) : isclose a a = true := by
  unfold isclose
  simp only [sub_self, abs_zero, decide_eq_true_eq]
  positivity

/-- C10: at a grid node (not in the last column, first or last row) the node itself is
returned, with its mask. -/
theorem C10_exact_at_nodes (ax ay : Axis K) (hx : ax.Increasing) (hy : ay.Increasing)
    (data : ℕ → ℕ → Cell K) (fill : Option K) (i j : ℕ) (hi : i + 1 < ax.n) (hj0 : 0 < j)
    (hj : j + 1 < ay.n) :
    bilinear ax ay data fill (ax.x i) (ay.x j) = .ok (data j i) := by
  have hc : InCell ax ay (ax.x i) (ay.x j) i j :=
    ⟨hi, hj, le_refl _, hx.step i hi, le_refl _, hy.step j hj, hy.lt hj0 (by omega)⟩
  rw [bilinear_inCell ax ay hx hy data fill _ _ i j hc]
  simp [cell, isclose_self]

/-- The point is within numpy's tolerance of one of the four corners of its cell. -/
def NearCorner (ax ay : Axis K) (lon lat : K) (ix iy : ℕ) : Prop :=
  (isclose lat (ay.x iy) = true ∨ isclose lat (ay.x (iy + 1)) = true) ∧
    (isclose lon (ax.x ix) = true ∨ isclose lon (ax.x (ix + 1)) = true)

theorem cell_far (ax ay : Axis K) (data : ℕ → ℕ → Cell K) (fill : Option K) (lon lat : K)
    (ix iy : ℕ) (hn : ¬ NearCorner ax ay lon lat ix iy) :
    cell ax ay data fill lon lat ix iy =
      let w := fun (XI YI : ℕ) => |lon - ax.x XI| * |lat - ay.x YI|
      let corners : List (K × Cell K) :=
        [(w (ix + 1) (iy + 1), data iy ix), (w ix (iy + 1), data iy (ix + 1)),
         (w (ix + 1) iy, data (iy + 1) ix), (w ix iy, data (iy + 1) (ix + 1))]
      if corners.any (fun p => p.2.valid) then
        { val := weighted (validPairs corners), masked := false }
      else { val := fill, masked := true } := by
  unfold NearCorner at hn
  unfold cell
  simp only [Bool.and_eq_true]
  rw [if_neg (by tauto), if_neg (by tauto), if_neg (by tauto), if_neg (by tauto)]

/-- C10: a field that is linear in each coordinate is reproduced, away from numpy's tolerance
around the corners. -/
theorem C10_reproduces_bilinear_partial (ax ay : Axis K) (hx : ax.Increasing) (hy : ay.Increasing)
    (data : ℕ → ℕ → Cell K) (fill : Option K) (lon lat : K) (ix iy : ℕ) (a b c d : K)
    (h : InCell ax ay lon lat ix iy) (hn : ¬ NearCorner ax ay lon lat ix iy)
    (hf : ∀ i j, data j i =
      { val := some (a + b * ax.x i + c * ay.x j + d * ax.x i * ay.x j), masked := false }) :
    bilinear ax ay data fill lon lat =
      .ok { val := some (a + b * lon + c * lat + d * lon * lat), masked := false } := by
  rw [bilinear_inCell ax ay hx hy data fill lon lat ix iy h, cell_far _ _ _ _ _ _ _ _ hn]
  obtain ⟨h1, h2, h3, h4, h5, h6, h7⟩ := h
  simp only [hf]
  simp only [List.any, Cell.valid, Option.isSome_some, Bool.not_false, Bool.and_self,
    Bool.true_or, if_true, validPairs, List.filterMap]
  unfold weighted
  simp only [List.map, List.sum_cons, List.sum_nil, add_zero]
  rw [abs_of_nonneg (sub_nonneg.mpr h3), abs_of_neg (sub_neg.mpr h4),
    abs_of_nonneg (sub_nonneg.mpr h5), abs_of_neg (sub_neg.mpr h6)]
  have e : -(lon - ax.x (ix + 1)) * -(lat - ay.x (iy + 1)) +
      ((lon - ax.x ix) * -(lat - ay.x (iy + 1)) +
        (-(lon - ax.x (ix + 1)) * (lat - ay.x iy) + (lon - ax.x ix) * (lat - ay.x iy))) =
      (ax.x (ix + 1) - ax.x ix) * (ay.x (iy + 1) - ay.x iy) := by ring
  have hpos : (ax.x (ix + 1) - ax.x ix) * (ay.x (iy + 1) - ay.x iy) ≠ 0 :=
    mul_ne_zero (sub_ne_zero.mpr (hx.step ix h1).ne') (sub_ne_zero.mpr (hy.step iy h2).ne')
  rw [e, if_neg hpos]
  congr 3
  rw [div_eq_iff hpos]
  ring

/-- C10 is false near corners: a point of a linear field that is 3 millidegrees away from a
node at longitude 300 gets the value of the node (numpy's relative tolerance), here 300 instead
of 300.003. -/
theorem C10_reproduces_linear_false :
    let ax : Axis ℚ := ⟨3, fun i => 299 + i⟩
    let ay : Axis ℚ := ⟨4, fun i => i⟩
    let data : ℕ → ℕ → Cell ℚ := fun _ i => { val := some (299 + i), masked := false }
    bilinear ax ay data none (300 + 3 / 1000) 1 = .ok { val := some 300, masked := false } := by
  decide +kernel

/-- C10: an unmasked finite result lies between the smallest and the largest valid value at the
four surrounding nodes. -/
theorem C10_no_overshoot (ax ay : Axis K) (hx : ax.Increasing) (hy : ay.Increasing)
    (data : ℕ → ℕ → Cell K) (fill : Option K) (lon lat : K) (ix iy : ℕ)
    (h : InCell ax ay lon lat ix iy) (v lo hi : K)
    (hb : ∀ j i w, (j = iy ∨ j = iy + 1) → (i = ix ∨ i = ix + 1) →
      data j i = { val := some w, masked := false } → lo ≤ w ∧ w ≤ hi)
    (hr : bilinear ax ay data fill lon lat = .ok { val := some v, masked := false }) :
    lo ≤ v ∧ v ≤ hi := by
  rw [bilinear_inCell ax ay hx hy data fill lon lat ix iy h] at hr
  simp only [Except.ok.injEq] at hr
  unfold cell at hr
  simp only at hr
  split_ifs at hr with c1 c2 c3 c4 c5
  · exact hb iy ix v (Or.inl rfl) (Or.inl rfl) hr
  · exact hb (iy + 1) ix v (Or.inr rfl) (Or.inl rfl) hr
  · exact hb iy (ix + 1) v (Or.inl rfl) (Or.inr rfl) hr
  · exact hb (iy + 1) (ix + 1) v (Or.inr rfl) (Or.inr rfl) hr
  · simp only [Cell.mk.injEq, and_true] at hr
    have key : ∀ p ∈ validPairs
        [(|lon - ax.x (ix + 1)| * |lat - ay.x (iy + 1)|, data iy ix),
         (|lon - ax.x ix| * |lat - ay.x (iy + 1)|, data iy (ix + 1)),
         (|lon - ax.x (ix + 1)| * |lat - ay.x iy|, data (iy + 1) ix),
         (|lon - ax.x ix| * |lat - ay.x iy|, data (iy + 1) (ix + 1))],
        0 ≤ p.1 ∧ lo ≤ p.2 ∧ p.2 ≤ hi := by
      intro p hp
      rw [mem_validPairs] at hp
      simp only [List.mem_cons, Prod.mk.injEq, List.not_mem_nil, or_false] at hp
      rcases hp with ⟨e1, e2⟩ | ⟨e1, e2⟩ | ⟨e1, e2⟩ | ⟨e1, e2⟩
      · exact ⟨by rw [e1]; positivity, hb iy ix _ (Or.inl rfl) (Or.inl rfl) e2.symm⟩
      · exact ⟨by rw [e1]; positivity, hb iy (ix + 1) _ (Or.inl rfl) (Or.inr rfl) e2.symm⟩
      · exact ⟨by rw [e1]; positivity, hb (iy + 1) ix _ (Or.inr rfl) (Or.inl rfl) e2.symm⟩
      · exact ⟨by rw [e1]; positivity, hb (iy + 1) (ix + 1) _ (Or.inr rfl) (Or.inr rfl) e2.symm⟩
    exact weighted_between _ (fun p hp => (key p hp).1) lo hi v (fun p hp => (key p hp).2.1)
      (fun p hp => (key p hp).2.2) hr
  · simp at hr

/-- C10: away from the corners the result is masked exactly when none of the four surrounding
nodes is valid, and then it carries the fill value. -/
theorem C10_mask_iff (ax ay : Axis K) (hx : ax.Increasing) (hy : ay.Increasing)
    (data : ℕ → ℕ → Cell K) (fill : Option K) (lon lat : K) (ix iy : ℕ)
    (h : InCell ax ay lon lat ix iy) (hn : ¬ NearCorner ax ay lon lat ix iy) :
    ∃ r, bilinear ax ay data fill lon lat = .ok r ∧
      (r.masked = true ↔ ∀ j i, (j = iy ∨ j = iy + 1) → (i = ix ∨ i = ix + 1) →
        (data j i).valid = false) ∧
      (r.masked = true → r.val = fill) := by
  refine ⟨_, bilinear_inCell ax ay hx hy data fill lon lat ix iy h, ?_⟩
  rw [cell_far _ _ _ _ _ _ _ _ hn]
  simp only [List.any, Bool.or_false]
  split_ifs with hv
  · refine ⟨⟨fun hf => by simp at hf, fun hall => ?_⟩, fun hf => by simp at hf⟩
    rw [hall iy ix (Or.inl rfl) (Or.inl rfl), hall iy (ix + 1) (Or.inl rfl) (Or.inr rfl),
      hall (iy + 1) ix (Or.inr rfl) (Or.inl rfl),
      hall (iy + 1) (ix + 1) (Or.inr rfl) (Or.inr rfl)] at hv
    simp at hv
  · refine ⟨⟨fun _ => ?_, fun _ => rfl⟩, fun _ => rfl⟩
    simp only [Bool.or_eq_true, not_or, Bool.not_eq_true] at hv
    rintro j i (rfl | rfl) (rfl | rfl)
    · exact hv.1
    · exact hv.2.1
    · exact hv.2.2.1
    · exact hv.2.2.2

/-- C10: strictly inside a cell and away from the corners, one valid node is enough for a finite
value. -/
theorem C10_value_if_any_valid_partial (ax ay : Axis K) (hx : ax.Increasing) (hy : ay.Increasing)
    (data : ℕ → ℕ → Cell K) (fill : Option K) (lon lat : K) (ix iy : ℕ)
    (h : InCell ax ay lon lat ix iy) (hn : ¬ NearCorner ax ay lon lat ix iy)
    (hx' : ax.x ix < lon) (hy' : ay.x iy < lat) (j i : ℕ) (hj : j = iy ∨ j = iy + 1)
    (hi : i = ix ∨ i = ix + 1) (hv : (data j i).valid = true) :
    ∃ v, bilinear ax ay data fill lon lat = .ok { val := some v, masked := false } := by
  rw [bilinear_inCell ax ay hx hy data fill lon lat ix iy h, cell_far _ _ _ _ _ _ _ _ hn]
  obtain ⟨h1, h2, h3, h4, h5, h6, h7⟩ := h
  have p1 : 0 < |lon - ax.x ix| := abs_pos.mpr (sub_ne_zero.mpr hx'.ne')
  have p2 : 0 < |lon - ax.x (ix + 1)| := abs_pos.mpr (sub_ne_zero.mpr h4.ne)
  have p3 : 0 < |lat - ay.x iy| := abs_pos.mpr (sub_ne_zero.mpr hy'.ne')
  have p4 : 0 < |lat - ay.x (iy + 1)| := abs_pos.mpr (sub_ne_zero.mpr h6.ne)
  simp only
  set corners : List (K × Cell K) :=
    [(|lon - ax.x (ix + 1)| * |lat - ay.x (iy + 1)|, data iy ix),
     (|lon - ax.x ix| * |lat - ay.x (iy + 1)|, data iy (ix + 1)),
     (|lon - ax.x (ix + 1)| * |lat - ay.x iy|, data (iy + 1) ix),
     (|lon - ax.x ix| * |lat - ay.x iy|, data (iy + 1) (ix + 1))] with hcs
  have hmem : ∃ w, (w, data j i) ∈ corners := by
    rcases hj with rfl | rfl <;> rcases hi with rfl | rfl <;> rw [hcs]
    · exact ⟨_, List.mem_cons_self⟩
    · exact ⟨_, List.mem_cons_of_mem _ List.mem_cons_self⟩
    · exact ⟨_, List.mem_cons_of_mem _ (List.mem_cons_of_mem _ List.mem_cons_self)⟩
    · exact ⟨_, List.mem_cons_of_mem _ (List.mem_cons_of_mem _
        (List.mem_cons_of_mem _ List.mem_cons_self))⟩
  obtain ⟨w, hw⟩ := hmem
  have hany : corners.any (fun p => p.2.valid) = true :=
    List.any_eq_true.mpr ⟨_, hw, hv⟩
  rw [if_pos hany]
  have hpos : ∀ p ∈ validPairs corners, 0 < p.1 := by
    intro p hp
    rw [mem_validPairs, hcs] at hp
    simp only [List.mem_cons, Prod.mk.injEq, List.not_mem_nil, or_false] at hp
    rcases hp with ⟨e, _⟩ | ⟨e, _⟩ | ⟨e, _⟩ | ⟨e, _⟩ <;> rw [e] <;> positivity
  have hne : validPairs corners ≠ [] := by
    intro he
    cases hd : data j i with
    | mk v m =>
      rw [hd] at hw hv
      cases v with
      | none => simp [Cell.valid] at hv
      | some v =>
        cases m with
        | true => simp [Cell.valid] at hv
        | false =>
          have := (mem_validPairs corners (w, v)).mpr hw
          rw [he] at this
          simp at this
  have hsum : ((validPairs corners).map (·.1)).sum ≠ 0 := by
    have : 0 < ((validPairs corners).map (·.1)).sum := by
      apply List.sum_pos
      · intro x hx
        obtain ⟨p, hp, rfl⟩ := List.mem_map.mp hx
        exact hpos p hp
      · simpa using hne
    exact this.ne'
  exact ⟨_, by unfold weighted; rw [if_neg hsum]⟩

/-- C10 is false on cell edges: if the two nodes of the edge are masked and the opposite ones
are valid, the valid weights are zero and an unmasked NaN is returned. -/
theorem C10_edge_nan_false :
    let ax : Axis ℚ := ⟨3, fun i => i⟩
    let ay : Axis ℚ := ⟨3, fun i => i⟩
    let data : ℕ → ℕ → Cell ℚ := fun _ i => { val := some 5, masked := decide (i = 1) }
    bilinear ax ay data (some 99) 1 (1 / 2) = .ok { val := none, masked := false } := by
  decide +kernel

/-- A point inside a cell of a regular grid and far from its corners. -/
example :
    let ax : Axis ℚ := ⟨3, fun i => i⟩
    ax.Increasing ∧ InCell ax ax (3 / 2) (1 / 2) 1 0 ∧ ¬ NearCorner ax ax (3 / 2) (1 / 2) 1 0 := by
  refine ⟨⟨by decide, fun i _ => ?_⟩, ?_, ?_⟩
  · push_cast; linarith
  · norm_num [InCell]
  · norm_num [NearCorner, isclose, abs_le]

end Verif.Interp
