import Verif.Model.RoundedGrid
import Verif.Spec.RoundedGrid
import Verif.Lemmas.Rounded
import Verif.Lemmas.RoundedArgs
import Verif.Props.Bilinear
import Verif.Props.RoundedBinary
/-!
Property C115: bilinear interpolation in floating point arithmetic.
-/
namespace Verif.Rounded
open Verif Verif.Spec
open Verif.Interp (Axis Cell InCell validPairs)

theorem gap_rel {A : Arith} {u : ℝ} (hA : Standard A u) (a b : ℝ) :
    Rel (1 + u) |a - b| (gap A a b) |a - b| := by
  refine ⟨by linarith [hA.nonneg], by rw [abs_abs], ?_⟩
  have := hA.rd (a - b)
  have h2 := abs_abs_sub_abs_le (A.rd (a - b)) (a - b)
  unfold gap
  nlinarith

theorem tolerance_pos (b : ℝ) : 0 < tolerance b := by
  unfold tolerance
  positivity

theorem tolerance_rel {A : Arith} {u : ℝ} (hA : Standard A u) (b : ℝ) :
    Rel ((1 + u) ^ 3) (tolerance b) (A.rd (A.rd (1 / 10 ^ 8) + A.rd (A.rd (1 / 10 ^ 5) * |b|)))
      (tolerance b) := by
  have hu := hA.nonneg
  have e1 : |(1 / 10 ^ 8 : ℝ)| = 1 / 10 ^ 8 := abs_of_pos (by positivity)
  have e2 : |(1 / 10 ^ 5 : ℝ)| = 1 / 10 ^ 5 := abs_of_pos (by positivity)
  have h1 : Rel (1 + u) (1 / 10 ^ 8) (A.rd (1 / 10 ^ 8)) (1 / 10 ^ 8) := by
    have := (Rel.self (1 / 10 ^ 8)).rd hA
    rwa [e1, one_mul] at this
  have h2 : Rel (1 + u) (1 / 10 ^ 5) (A.rd (1 / 10 ^ 5)) (1 / 10 ^ 5) := by
    have := (Rel.self (1 / 10 ^ 5)).rd hA
    rwa [e2, one_mul] at this
  have h3 : Rel 1 |b| |b| |b| := by
    have := Rel.self |b|
    rwa [abs_abs] at this
  have h4 := (h2.mul h3).rd hA
  rw [mul_one] at h4
  have h5 := ((h1.mono (b := (1 + u) * (1 + u)) (by nlinarith)).add h4).rd hA
  rw [show (1 + u) * (1 + u) * (1 + u) = (1 + u) ^ 3 from by ring] at h5
  exact h5

/-- Coordinates that are close in floating point arithmetic are close. -/
theorem isclose_at {A : Arith} {u : ℝ} (hA : Standard A u) {a b : ℝ} (h : isclose A a b = true) :
    At (1 + 5 * u) a b := by
  unfold isclose at h
  have h := of_decide_eq_true h
  have hu := hA.nonneg
  have hs := hA.small
  have g := (gap_rel hA a b).err
  have t := (tolerance_rel hA b).abs_le
  have tp := tolerance_pos b
  have h1 : gap A a b ≤ (1 + u) ^ 3 * tolerance b := (h.trans (le_abs_self _)).trans t
  have h2 : |a - b| * (1 - u) ≤ gap A a b := by
    have := (abs_le.1 g).1
    linarith
  unfold At
  have hu1 : u ≤ 1 / 1000 := hs.trans (by norm_num)
  have h3 : (1 + u) ^ 3 ≤ (1 + 5 * u) * (1 - u) := by nlinarith [mul_nonneg hu hu, mul_nonneg hu (mul_nonneg hu hu)]
  have h4 : |a - b| * (1 - u) ≤ (1 + 5 * u) * tolerance b * (1 - u) := by
    have := mul_le_mul_of_nonneg_right h3 tp.le
    linarith
  exact le_of_mul_le_mul_right h4 (by linarith)

/-- Coordinates that are clearly close are close in floating point arithmetic. -/
theorem at_isclose {A : Arith} {u : ℝ} (hA : Standard A u) {a b : ℝ} (h : At (1 - 5 * u) a b) :
    isclose A a b = true := by
  unfold isclose
  rw [decide_eq_true_eq]
  have hu := hA.nonneg
  have hs := hA.small
  have g := (gap_rel hA a b).err
  have t := (tolerance_rel hA b).err
  have tp := tolerance_pos b
  have hu1 : u ≤ 1 / 1000 := hs.trans (by norm_num)
  unfold At at h
  have h1 : gap A a b ≤ (1 + u) * |a - b| := by
    have := (abs_le.1 g).2
    linarith
  have h2 : (2 - (1 + u) ^ 3) * tolerance b ≤
      A.rd (A.rd (1 / 10 ^ 8) + A.rd (A.rd (1 / 10 ^ 5) * |b|)) := by
    have := (abs_le.1 t).1
    linarith
  refine (h1.trans ?_).trans h2
  have h3 := mul_le_mul_of_nonneg_left h (show 0 ≤ 1 + u by linarith)
  have h4 : (1 + u) * (1 - 5 * u) ≤ 2 - (1 + u) ^ 3 := by
    nlinarith [mul_nonneg hu hu, mul_nonneg hu (mul_nonneg hu hu)]
  have h5 := mul_le_mul_of_nonneg_right h4 tp.le
  linarith

/-- A rounded sum of rounded numbers. -/
theorem sum_rel {A : Arith} {u a : ℝ} (hA : Standard A u) (ha : 1 ≤ a) {α : Type} (l : List α)
    (f' f M : α → ℝ) (h : ∀ x ∈ l, Rel a (M x) (f' x) (f x)) :
    Rel (a * (1 + u) ^ l.length) (l.map M).sum (A.sum (l.map f')) (l.map f).sum := by
  have hu := hA.nonneg
  have h1 : 1 ≤ (1 + u) ^ l.length := one_le_pow₀ (by linarith)
  have hM : 0 ≤ (l.map M).sum := List.sum_nonneg (by
    intro x hx
    obtain ⟨y, hy, rfl⟩ := List.mem_map.1 hx
    exact (h y hy).nonneg)
  have key : |(l.map f').sum - (l.map f).sum| ≤ (a - 1) * (l.map M).sum ∧
      ((l.map f').map abs).sum ≤ a * (l.map M).sum ∧ |(l.map f).sum| ≤ (l.map M).sum := by
    clear hM h1
    induction l with
    | nil => simp
    | cons x l ih =>
      obtain ⟨i1, i2, i3⟩ := ih fun y hy => h y (List.mem_cons_of_mem _ hy)
      have hx := h x (List.mem_cons_self)
      simp only [List.map_cons, List.sum_cons]
      refine ⟨?_, ?_, ?_⟩
      · have e : f' x + (l.map f').sum - (f x + (l.map f).sum) =
            (f' x - f x) + ((l.map f').sum - (l.map f).sum) := by ring
        rw [e]
        have := abs_add_le (f' x - f x) ((l.map f').sum - (l.map f).sum)
        have := hx.err
        linarith
      · have := hx.abs_le
        linarith
      · have := abs_add_le (f x) (l.map f).sum
        have := hx.le
        linarith
  obtain ⟨k1, k2, k3⟩ := key
  refine ⟨by nlinarith, k3, ?_⟩
  have s := hA.sum (l.map f')
  rw [List.length_map] at s
  have t := abs_sub_le (A.sum (l.map f')) (l.map f').sum (l.map f).sum
  have := mul_le_mul_of_nonneg_left k2 (sub_nonneg.2 h1)
  nlinarith

/-- Quotients of rounded numbers. -/
theorem quotient_near {A : Arith} {u Z N' N S D' D : ℝ} (hA : Standard A u) (complex : Bool)
    (hZ : 0 ≤ Z) (hD : 0 < D) (hS : S ≤ Z * D) (n : Rel ((1 + u) ^ 8) S N' N)
    (d : Rel ((1 + u) ^ 7) D D' D) :
    D' ≠ 0 ∧ |quotient A complex N' D' - N / D| ≤ 18 * u * Z := by
  have hu := hA.nonneg
  have hs := hA.small
  have b1 : (1 + u) ^ 8 - 1 ≤ 8 * u + 1 / 100 * u := by
    have hu1 : u ≤ 1 / 2 ^ 20 := hs.trans (by norm_num)
    have := sub_nonneg.2 hu1
    nlinarith [mul_nonneg hu hu, mul_nonneg hu this, mul_nonneg (mul_nonneg hu hu) this,
      pow_nonneg hu 3, pow_nonneg hu 4, pow_nonneg hu 5, pow_nonneg hu 6, pow_nonneg hu 7,
      mul_nonneg (pow_nonneg hu 3) this, mul_nonneg (pow_nonneg hu 4) this,
      mul_nonneg (pow_nonneg hu 5) this, mul_nonneg (pow_nonneg hu 6) this,
      mul_nonneg (pow_nonneg hu 7) this]
  have b0 : 1 ≤ (1 + u) ^ 8 := one_le_pow₀ (by linarith)
  have c1 : (1 + u) ^ 7 - 1 ≤ 7 * u + 1 / 100 * u := by
    have hu1 : u ≤ 1 / 2 ^ 20 := hs.trans (by norm_num)
    have := sub_nonneg.2 hu1
    nlinarith [mul_nonneg hu hu, mul_nonneg hu this, mul_nonneg (mul_nonneg hu hu) this,
      pow_nonneg hu 3, pow_nonneg hu 4, pow_nonneg hu 5, pow_nonneg hu 6,
      mul_nonneg (pow_nonneg hu 3) this, mul_nonneg (pow_nonneg hu 4) this,
      mul_nonneg (pow_nonneg hu 5) this, mul_nonneg (pow_nonneg hu 6) this]
  have c0 : 1 ≤ (1 + u) ^ 7 := one_le_pow₀ (by linarith)
  generalize (1 + u) ^ 8 = b at *
  generalize (1 + u) ^ 7 = c at *
  have hu1 : u ≤ 1 / 2 ^ 20 := hs.trans (by norm_num)
  have hD1 : (2 - c) * D ≤ D' := by
    have := (abs_le.1 d.err).1
    linarith
  have hc : 999 / 1000 ≤ 2 - c := by
    have : u ≤ 1 / 10 ^ 5 := hu1.trans (by norm_num)
    linarith
  have hD2 : 999 / 1000 * D ≤ D' := (mul_le_mul_of_nonneg_right hc hD.le).trans hD1
  have hD' : 0 < D' := lt_of_lt_of_le (by linarith) hD2
  refine ⟨hD'.ne', ?_⟩
  -- the exact quotient of the rounded numbers
  have hN : |N| ≤ Z * D := n.le.trans hS
  have q : |N' / D' - N / D| ≤ 1002 / 1000 * (15 * u + 2 / 100 * u) * Z := by
    have e : N' / D' - N / D = ((N' - N) * D + N * (D - D')) / (D' * D) := by
      field_simp
      ring
    rw [e, abs_div, abs_of_pos (mul_pos hD' hD), div_le_iff₀ (mul_pos hD' hD)]
    have t1 : |(N' - N) * D + N * (D - D')| ≤ (b - 1) * (Z * D) * D + Z * D * ((c - 1) * D) := by
      refine (abs_add_le _ _).trans (add_le_add ?_ ?_)
      · rw [abs_mul, abs_of_pos hD]
        exact mul_le_mul_of_nonneg_right (n.err.trans (mul_le_mul_of_nonneg_left hS (by linarith))) hD.le
      · rw [abs_mul, abs_sub_comm]
        exact mul_le_mul hN d.err (abs_nonneg _) (mul_nonneg hZ hD.le)
    refine t1.trans ?_
    have t2 : (b - 1) + (c - 1) ≤ 15 * u + 2 / 100 * u := by linarith
    have t3 : (b - 1) * (Z * D) * D + Z * D * ((c - 1) * D) = ((b - 1) + (c - 1)) * (Z * D * D) := by ring
    rw [t3]
    have hp : 0 ≤ Z * D * D := mul_nonneg (mul_nonneg hZ hD.le) hD.le
    refine (mul_le_mul_of_nonneg_right t2 hp).trans ?_
    have t4 : D ≤ 1002 / 1000 * D' := by linarith
    have t5 : Z * D * D ≤ Z * D * (1002 / 1000 * D') :=
      mul_le_mul_of_nonneg_left t4 (mul_nonneg hZ hD.le)
    have := mul_le_mul_of_nonneg_left t5 (show 0 ≤ 15 * u + 2 / 100 * u by linarith)
    nlinarith
  have r : |quotient A complex N' D' - N' / D'| ≤ (2 * u + u * u) * |N' / D'| := by
    unfold quotient
    cases complex with
    | false =>
      have := hA.rd (N' / D')
      simp only [Bool.false_eq_true, if_false]
      nlinarith [abs_nonneg (N' / D'), mul_nonneg hu hu]
    | true =>
      simp only [if_true]
      have h1 := (((Rel.self N').mul ((Rel.self (1 / D')).rd hA)).rd hA).err
      rw [mul_one_div, ← abs_mul, mul_one_div] at h1
      refine h1.trans (le_of_eq ?_)
      ring
  have s : |N' / D'| ≤ 11 / 10 * Z := by
    have h1 : |N / D| ≤ Z := by
      rw [abs_div, abs_of_pos hD, div_le_iff₀ hD]
      exact hN
    have h2 : |N' / D'| ≤ |N' / D' - N / D| + |N / D| := by
      have := abs_add_le (N' / D' - N / D) (N / D)
      rwa [sub_add_cancel] at this
    have h3 : 1002 / 1000 * (15 * u + 2 / 100 * u) ≤ 1 / 10 := by
      have : u ≤ 1 / 10 ^ 5 := hu1.trans (by norm_num)
      linarith
    have := mul_le_mul_of_nonneg_right h3 hZ
    linarith
  have t := abs_sub_le (quotient A complex N' D') (N' / D') (N / D)
  have r1 : 2 * u + u * u ≤ 201 / 100 * u := by
    have : u ≤ 1 / 100 := hu1.trans (by norm_num)
    nlinarith
  have r2 := r.trans ((mul_le_mul_of_nonneg_right r1 (abs_nonneg _)).trans
    (mul_le_mul_of_nonneg_left s (by linarith)))
  have hz : 0 ≤ u * Z := mul_nonneg hu hZ
  nlinarith

/-- The value of a cell of a masked array, if it is finite and not masked. -/
def value (c : Cell ℝ) : Option ℝ := if c.masked then none else c.val

theorem valid_value (c : Cell ℝ) : c.valid = (value c).isSome := by
  unfold Cell.valid value
  cases c.masked <;> simp

/-- Corners with their rounded weights, weights and cells: those with a value. -/
def valued (C : List (ℝ × ℝ × Cell ℝ)) : List (ℝ × ℝ × ℝ) :=
  C.filterMap fun q => (value q.2.2).map fun z => (q.1, q.2.1, z)

theorem valued_pairs (C : List (ℝ × ℝ × Cell ℝ)) :
    validPairs (C.map fun q => (q.1, q.2.2)) = (valued C).map fun t => (t.1, t.2.2) := by
  unfold validPairs valued
  rw [List.filterMap_map, List.map_filterMap]
  refine List.filterMap_congr ?_
  rintro ⟨w', w, ⟨v, m⟩⟩ -
  cases m <;> cases v <;> simp [value, Cell.valid]

theorem valued_weight (C : List (ℝ × ℝ × Cell ℝ)) :
    weightOf (C.map fun q => (q.2.1, value q.2.2)) = ((valued C).map fun t => t.2.1).sum := by
  induction C with
  | nil => rfl
  | cons q C ih =>
    unfold weightOf valued at *
    rw [List.map_cons, List.map_cons, List.sum_cons, ih, List.filterMap_cons]
    cases h : value q.2.2 <;> simp

theorem valued_mass (C : List (ℝ × ℝ × Cell ℝ)) :
    massOf (C.map fun q => (q.2.1, value q.2.2)) = ((valued C).map fun t => t.2.1 * t.2.2).sum := by
  induction C with
  | nil => rfl
  | cons q C ih =>
    unfold massOf valued at *
    rw [List.map_cons, List.map_cons, List.sum_cons, ih, List.filterMap_cons]
    cases h : value q.2.2 <;> simp

/-- The mean of the valid corners. -/
theorem weighted_near {A : Arith} {u : ℝ} (hA : Standard A u) (complex : Bool)
    (C : List (ℝ × ℝ × Cell ℝ)) (hl : C.length = 4) (hC : ∀ q ∈ C, Rel ((1 + u) ^ 3) q.2.1 q.1 q.2.1) :
    (weightOf (C.map fun q => (q.2.1, value q.2.2)) = 0 ∧
      weighted A complex (validPairs (C.map fun q => (q.1, q.2.2))) = none) ∨
    (weightOf (C.map fun q => (q.2.1, value q.2.2)) ≠ 0 ∧
      ∃ v, weighted A complex (validPairs (C.map fun q => (q.1, q.2.2))) = some v ∧
        ∀ Z, (∀ p ∈ C.map fun q => (q.2.1, value q.2.2), ∀ z, p.2 = some z → |z| ≤ Z) →
          |v - massOf (C.map fun q => (q.2.1, value q.2.2)) /
            weightOf (C.map fun q => (q.2.1, value q.2.2))| ≤ 18 * u * Z) := by
  have hu := hA.nonneg
  have o : ∀ k, 1 ≤ (1 + u) ^ k := fun k => one_le_pow₀ (by linarith)
  have mem : ∀ t ∈ valued C, ∃ q ∈ C, value q.2.2 = some t.2.2 ∧ t.1 = q.1 ∧ t.2.1 = q.2.1 := by
    intro t ht
    obtain ⟨q, hq, e⟩ := List.mem_filterMap.1 ht
    cases h : value q.2.2 with
    | none => rw [h] at e; cases e
    | some z =>
      rw [h] at e
      cases e
      exact ⟨q, hq, h, rfl, rfl⟩
  have len : (valued C).length ≤ 4 := by
    rw [← hl]
    exact List.length_filterMap_le _ _
  have big : ∀ a, 1 ≤ a → a * (1 + u) ^ (valued C).length ≤ a * (1 + u) ^ 4 := fun a ha =>
    mul_le_mul_of_nonneg_left (pow_le_pow_right₀ (by linarith) len) (by linarith)
  have d : Rel ((1 + u) ^ 7) ((valued C).map fun t => t.2.1).sum (A.sum ((valued C).map fun t => t.1))
      ((valued C).map fun t => t.2.1).sum := by
    have := (sum_rel hA (o 3) (valued C) (fun t => t.1) (fun t => t.2.1) (fun t => t.2.1) (by
      intro t ht
      obtain ⟨q, hq, -, e1, e2⟩ := mem t ht
      rw [e1, e2]
      exact hC q hq)).mono (big _ (o 3))
    rwa [← pow_add] at this
  have n : Rel ((1 + u) ^ 8) ((valued C).map fun t => t.2.1 * |t.2.2|).sum
      (A.sum ((valued C).map fun t => A.rd (t.1 * t.2.2))) ((valued C).map fun t => t.2.1 * t.2.2).sum := by
    have := (sum_rel hA (o 4) (valued C) (fun t => A.rd (t.1 * t.2.2)) (fun t => t.2.1 * t.2.2)
      (fun t => t.2.1 * |t.2.2|) (by
      intro t ht
      obtain ⟨q, hq, -, e1, e2⟩ := mem t ht
      rw [e1, e2]
      have := ((hC q hq).mul (Rel.self t.2.2)).rd hA
      rwa [mul_one, ← pow_succ] at this)).mono (big _ (o 4))
    rwa [← pow_add] at this
  have pos : ∀ t ∈ valued C, 0 ≤ t.2.1 := by
    intro t ht
    obtain ⟨q, hq, -, -, e2⟩ := mem t ht
    rw [e2]
    exact (hC q hq).nonneg
  rw [valued_pairs, valued_weight, valued_mass]
  unfold weighted
  simp only [List.map_map, Function.comp_def]
  rcases eq_or_lt_of_le d.nonneg with h0 | h0
  · left
    refine ⟨h0.symm, ?_⟩
    have := d.err
    rw [← h0, mul_zero, sub_zero] at this
    rw [if_pos (abs_nonpos_iff.1 this)]
  · right
    have ne : A.sum ((valued C).map fun t => t.1) ≠ 0 := by
      intro h
      have e := d.err
      rw [h, zero_sub, abs_neg, abs_of_pos h0] at e
      have hs : u ≤ 1 / 100 := hA.small.trans (by norm_num)
      have h7 : (1 + u) ^ 7 ≤ (1 + 1 / 100) ^ 7 := pow_le_pow_left₀ (by linarith) (by linarith) 7
      have h8 : ((1 : ℝ) + 1 / 100) ^ 7 < 2 := by norm_num
      have := mul_lt_mul_of_pos_right (show (1 + u) ^ 7 - 1 < 1 by linarith) h0
      linarith
    refine ⟨h0.ne', _, if_neg ne, ?_⟩
    intro Z hZ
    have hb : ∀ t ∈ valued C, |t.2.2| ≤ Z := by
      intro t ht
      obtain ⟨q, hq, e, -, -⟩ := mem t ht
      exact hZ _ (List.mem_map.2 ⟨q, hq, rfl⟩) _ e
    have hZ0 : 0 ≤ Z := by
      cases hv : valued C with
      | nil => rw [hv] at h0; simp at h0
      | cons t l => exact (abs_nonneg _).trans (hb t (by rw [hv]; exact List.mem_cons_self))
    refine (quotient_near hA complex hZ0 h0 ?_ n d).2
    rw [← List.sum_map_mul_left]
    refine List.sum_le_sum fun t ht => ?_
    rw [mul_comm]
    exact mul_le_mul_of_nonneg_right (hb t ht) (pos t ht)

theorem weight_rel {A : Arith} {u : ℝ} (hA : Standard A u) (a b c d : ℝ) :
    Rel ((1 + u) ^ 3) (|a - b| * |c - d|) (A.rd (gap A a b * gap A c d)) (|a - b| * |c - d|) := by
  have := ((gap_rel hA a b).mul (gap_rel hA c d)).rd hA
  rwa [show (1 + u) * (1 + u) * (1 + u) = (1 + u) ^ 3 from by ring] at this

theorem bilinear_inCell (A : Arith) (complex : Bool) (ax ay : Axis ℝ) (hx : ax.Increasing) (hy : ay.Increasing)
    (data : ℕ → ℕ → Cell ℝ) (fill : Option ℝ) (lon lat : ℝ) (ix iy : ℕ) (h : InCell ax ay lon lat ix iy) :
    bilinear A complex ax ay data fill lon lat = .ok (cell A complex ax ay data fill lon lat ix iy) := by
  obtain ⟨h1, h2, h3, h4, h5, h6, h7⟩ := h
  unfold bilinear
  rw [hx.min, hx.max, hy.min, hy.max]
  have c1 : ax.x 0 ≤ lon := le_trans (hx.le (Nat.zero_le _) (by omega)) h3
  have c2 : lon ≤ ax.x (ax.n - 1) := le_trans h4.le (hx.le (by omega) (by omega))
  have c3 : lat < ay.x (ay.n - 1) := lt_of_lt_of_le h6 (hy.le (by omega) (by omega))
  simp only [c1, c2, c3, h7, and_self, if_true, hx.find_eq lon ix h1 h3 h4,
    hy.find_eq lat iy h2 h5 h6]

/-- The four corners of a cell with their weights and values. -/
def cornersOf (ax ay : Axis ℝ) (data : ℕ → ℕ → Cell ℝ) (lon lat : ℝ) (ix iy : ℕ) : List (ℝ × Option ℝ) :=
  around (ax.x ix) (ax.x (ix + 1)) (ay.x iy) (ay.x (iy + 1)) lon lat (value (data iy ix))
    (value (data iy (ix + 1))) (value (data (iy + 1) ix)) (value (data (iy + 1) (ix + 1)))

/-- C115: inside the grid, the bilinear interpolation in floating point arithmetic finds the cell of the
point and returns the stored value of one of its corners, which is then as near as numpy's tolerance up to
five units of rounding; or, if no corner is that near, the mean of the values at the corners that have one,
weighted with the opposite areas, with an error of at most eighteen units of rounding of the largest value;
or NaN if these areas are empty; or a masked fill value if no corner has a value. -/
theorem C115_bilinear (A : Arith) (u : ℝ) (hA : Standard A u) (complex : Bool) (ax ay : Axis ℝ)
    (hx : ax.Increasing) (hy : ay.Increasing) (data : ℕ → ℕ → Cell ℝ) (fill : Option ℝ) (lon lat : ℝ)
    (h1 : ax.x 0 ≤ lon) (h2 : lon < ax.x (ax.n - 1)) (h3 : ay.x 0 < lat) (h4 : lat < ay.x (ay.n - 1)) :
    ∃ ix iy c, InCell ax ay lon lat ix iy ∧ bilinear A complex ax ay data fill lon lat = .ok c ∧
      ((∃ i ∈ [ix, ix + 1], ∃ j ∈ [iy, iy + 1],
          At (1 + 5 * u) lon (ax.x i) ∧ At (1 + 5 * u) lat (ay.x j) ∧ c = data j i) ∨
        ((∀ i ∈ [ix, ix + 1], ∀ j ∈ [iy, iy + 1],
            ¬ (At (1 - 5 * u) lon (ax.x i) ∧ At (1 - 5 * u) lat (ay.x j))) ∧
          (((∀ p ∈ cornersOf ax ay data lon lat ix iy, p.2 = none) ∧ c = ⟨fill, true⟩) ∨
            ((∃ p ∈ cornersOf ax ay data lon lat ix iy, p.2 ≠ none) ∧ c.masked = false ∧
              ((weightOf (cornersOf ax ay data lon lat ix iy) = 0 ∧ c.val = none) ∨
                (weightOf (cornersOf ax ay data lon lat ix iy) ≠ 0 ∧ ∃ v, c.val = some v ∧
                  ∀ Z, (∀ p ∈ cornersOf ax ay data lon lat ix iy, ∀ z, p.2 = some z → |z| ≤ Z) →
                    |v - massOf (cornersOf ax ay data lon lat ix iy) /
                      weightOf (cornersOf ax ay data lon lat ix iy)| ≤ 18 * u * Z)))))) := by
  have hx2 := hx.two
  have hy2 := hy.two
  obtain ⟨ix, a1, a2, a3⟩ := hx.exists_cell lon h1 (ax.n - 1) (by omega) h2
  obtain ⟨iy, b1, b2, b3⟩ := hy.exists_cell lat h3.le (ay.n - 1) (by omega) h4
  have hc : InCell ax ay lon lat ix iy := ⟨by omega, by omega, a2, a3, b2, b3, h3⟩
  refine ⟨ix, iy, _, hc, bilinear_inCell A complex ax ay hx hy data fill lon lat ix iy hc, ?_⟩
  have corner : ∀ i j, i ∈ [ix, ix + 1] → j ∈ [iy, iy + 1] →
      (isclose A lat (ay.x j) && isclose A lon (ax.x i)) = true →
      ∃ i' ∈ [ix, ix + 1], ∃ j' ∈ [iy, iy + 1],
        At (1 + 5 * u) lon (ax.x i') ∧ At (1 + 5 * u) lat (ay.x j') ∧ data j i = data j' i' := by
    intro i j hi hj h
    obtain ⟨g1, g2⟩ := Bool.and_eq_true_iff.1 h
    exact ⟨i, hi, j, hj, isclose_at hA g2, isclose_at hA g1, rfl⟩
  unfold cell
  dsimp only
  split
  · rename_i h
    exact Or.inl (corner ix iy (by simp) (by simp) h)
  split
  · rename_i h
    exact Or.inl (corner ix (iy + 1) (by simp) (by simp) h)
  split
  · rename_i h
    exact Or.inl (corner (ix + 1) iy (by simp) (by simp) h)
  split
  · rename_i h
    exact Or.inl (corner (ix + 1) (iy + 1) (by simp) (by simp) h)
  rename_i n1 n2 n3 n4
  right
  have far : ∀ i j, (¬ (isclose A lat (ay.x j) && isclose A lon (ax.x i)) = true) →
      ¬ (At (1 - 5 * u) lon (ax.x i) ∧ At (1 - 5 * u) lat (ay.x j)) := by
    rintro i j h ⟨g1, g2⟩
    exact h (by rw [at_isclose hA g1, at_isclose hA g2]; rfl)
  refine ⟨?_, ?_⟩
  · intro i hi j hj
    simp only [List.mem_cons, List.not_mem_nil, or_false] at hi hj
    rcases hi with rfl | rfl <;> rcases hj with rfl | rfl <;> exact far _ _ ‹_›
  -- the corners
  let C : List (ℝ × ℝ × Cell ℝ) :=
    [(A.rd (gap A lon (ax.x (ix + 1)) * gap A lat (ay.x (iy + 1))),
        |lon - ax.x (ix + 1)| * |lat - ay.x (iy + 1)|, data iy ix),
      (A.rd (gap A lon (ax.x ix) * gap A lat (ay.x (iy + 1))), |lon - ax.x ix| * |lat - ay.x (iy + 1)|,
        data iy (ix + 1)),
      (A.rd (gap A lon (ax.x (ix + 1)) * gap A lat (ay.x iy)), |lon - ax.x (ix + 1)| * |lat - ay.x iy|,
        data (iy + 1) ix),
      (A.rd (gap A lon (ax.x ix) * gap A lat (ay.x iy)), |lon - ax.x ix| * |lat - ay.x iy|,
        data (iy + 1) (ix + 1))]
  have hCs : cornersOf ax ay data lon lat ix iy = C.map fun q => (q.2.1, value q.2.2) := by
    have e1 : |lon - ax.x (ix + 1)| = ax.x (ix + 1) - lon := by
      rw [abs_sub_comm]
      exact abs_of_nonneg (by linarith)
    have e2 : |lon - ax.x ix| = lon - ax.x ix := abs_of_nonneg (by linarith)
    have e3 : |lat - ay.x (iy + 1)| = ay.x (iy + 1) - lat := by
      rw [abs_sub_comm]
      exact abs_of_nonneg (by linarith)
    have e4 : |lat - ay.x iy| = lat - ay.x iy := abs_of_nonneg (by linarith)
    simp only [C, cornersOf, around, List.map_cons, List.map_nil, e1, e2, e3, e4]
  have hR : ∀ q ∈ C, Rel ((1 + u) ^ 3) q.2.1 q.1 q.2.1 := by
    intro q hq
    simp only [C, List.mem_cons, List.not_mem_nil, or_false] at hq
    rcases hq with rfl | rfl | rfl | rfl <;> exact weight_rel hA _ _ _ _
  have key := weighted_near hA complex C rfl hR
  rw [← hCs] at key
  split
  · rename_i h
    right
    refine ⟨?_, rfl, key⟩
    simp only [List.any_cons, List.any_nil, Bool.or_false, Bool.or_eq_true, valid_value] at h
    have some_ne : ∀ c : Cell ℝ, (value c).isSome = true → value c ≠ none := by
      intro c hc e
      rw [e] at hc
      cases hc
    unfold cornersOf around
    simp only [List.mem_cons, List.not_mem_nil, or_false, exists_eq_or_imp, exists_eq_left]
    rcases h with h | h | h | h
    · exact Or.inl (some_ne _ h)
    · exact Or.inr (Or.inl (some_ne _ h))
    · exact Or.inr (Or.inr (Or.inl (some_ne _ h)))
    · exact Or.inr (Or.inr (Or.inr (some_ne _ h)))
  · rename_i h
    left
    refine ⟨?_, rfl⟩
    simp only [List.any_cons, List.any_nil, Bool.or_false, Bool.or_eq_true, valid_value, not_or,
      Bool.not_eq_true, Option.isSome_eq_false_iff, Option.isNone_iff_eq_none] at h
    obtain ⟨k1, k2, k3, k4⟩ := h
    intro p hp
    simp only [cornersOf, around, List.mem_cons, List.not_mem_nil, or_false] at hp
    rcases hp with rfl | rfl | rfl | rfl
    · exact k1
    · exact k2
    · exact k3
    · exact k4

/-- Outside of the grid the result is the masked fill value, as without rounding. -/
theorem C115_outside (A : Arith) (complex : Bool) (ax ay : Axis ℝ) (hx : ax.Increasing) (hy : ay.Increasing)
    (data : ℕ → ℕ → Cell ℝ) (fill : Option ℝ) (lon lat : ℝ)
    (h : lon < ax.x 0 ∨ ax.x (ax.n - 1) < lon ∨ lat ≤ ay.x 0 ∨ ay.x (ay.n - 1) ≤ lat) :
    bilinear A complex ax ay data fill lon lat = .ok { val := fill, masked := true } := by
  unfold bilinear
  rw [hx.min, hx.max, hy.min, hy.max]
  have : ¬ (ax.x 0 ≤ lon ∧ lon ≤ ax.x (ax.n - 1) ∧ ay.x 0 < lat ∧ lat < ay.x (ay.n - 1)) := by
    rintro ⟨c1, c2, c3, c4⟩
    rcases h with h | h | h | h
    · exact absurd c1 (not_le.mpr h)
    · exact absurd c2 (not_le.mpr h)
    · exact absurd c3 (not_lt.mpr h)
    · exact absurd c4 (not_lt.mpr h)
  simp only [this, if_false]

/-- On the last meridian an exception is raised, as without rounding. -/
theorem C115_last_meridian (A : Arith) (complex : Bool) (ax ay : Axis ℝ) (hx : ax.Increasing)
    (hy : ay.Increasing) (data : ℕ → ℕ → Cell ℝ) (fill : Option ℝ) (lat : ℝ) (h3 : ay.x 0 < lat)
    (h4 : lat < ay.x (ay.n - 1)) :
    bilinear A complex ax ay data fill (ax.x (ax.n - 1)) lat = .error .valueError := by
  have hx2 := hx.two
  unfold bilinear
  rw [hx.min, hx.max, hy.min, hy.max]
  simp only [h3, h4, le_refl, hx.le (Nat.zero_le _) (show ax.n - 1 < ax.n by omega), and_self,
    if_true, hx.find_last _ (le_refl _)]

/-- The interpolated value exceeds the values at the corners by rounding only: a mean of values between
`lo` and `hi` is between them up to the error of `C115_bilinear`. -/
theorem C115_between (cs : List (ℝ × Option ℝ)) (hw : ∀ p ∈ cs, 0 ≤ p.1) (lo hi : ℝ)
    (h : ∀ p ∈ cs, ∀ z, p.2 = some z → lo ≤ z ∧ z ≤ hi) (h0 : weightOf cs ≠ 0) :
    lo ≤ massOf cs / weightOf cs ∧ massOf cs / weightOf cs ≤ hi := by
  have key : 0 ≤ weightOf cs ∧ lo * weightOf cs ≤ massOf cs ∧ massOf cs ≤ hi * weightOf cs := by
    clear h0
    induction cs with
    | nil => simp [weightOf, massOf]
    | cons p cs ih =>
      obtain ⟨i0, i1, i2⟩ := ih (fun q hq => hw q (List.mem_cons_of_mem _ hq))
        fun q hq => h q (List.mem_cons_of_mem _ hq)
      unfold weightOf massOf at *
      rw [List.map_cons, List.map_cons, List.sum_cons, List.sum_cons]
      have hp := hw p List.mem_cons_self
      cases e : p.2 with
      | none => simpa using ⟨i0, i1, i2⟩
      | some z =>
        obtain ⟨l1, l2⟩ := h p List.mem_cons_self z e
        simp only [Option.elim_some]
        exact ⟨by linarith, by nlinarith, by nlinarith⟩
  obtain ⟨k0, k1, k2⟩ := key
  have pos := lt_of_le_of_ne k0 (Ne.symm h0)
  exact ⟨(le_div_iff₀ pos).2 k1, (div_le_iff₀ pos).2 k2⟩

/-- C115 for numbers with 53 binary digits. -/
theorem C115_double (complex : Bool) (ax ay : Axis ℝ) (hx : ax.Increasing) (hy : ay.Increasing)
    (data : ℕ → ℕ → Cell ℝ) (fill : Option ℝ) (lon lat : ℝ) (ix iy : ℕ) (hc : InCell ax ay lon lat ix iy)
    (z : ℕ → ℕ → ℝ) (hz : ∀ i ∈ [ix, ix + 1], ∀ j ∈ [iy, iy + 1], data j i = ⟨some (z j i), false⟩)
    (far : ∀ i ∈ [ix, ix + 1], ∀ j ∈ [iy, iy + 1],
      ¬ (At (1 + 5 / 2 ^ 53) lon (ax.x i) ∧ At (1 + 5 / 2 ^ 53) lat (ay.x j)))
    (Z : ℝ) (hZ : ∀ i ∈ [ix, ix + 1], ∀ j ∈ [iy, iy + 1], |z j i| ≤ Z) :
    ∃ v, bilinear binary complex ax ay data fill lon lat = .ok ⟨some v, false⟩ ∧
      |v - ((ax.x (ix + 1) - lon) * (ay.x (iy + 1) - lat) * z iy ix
          + (lon - ax.x ix) * (ay.x (iy + 1) - lat) * z iy (ix + 1)
          + (ax.x (ix + 1) - lon) * (lat - ay.x iy) * z (iy + 1) ix
          + (lon - ax.x ix) * (lat - ay.x iy) * z (iy + 1) (ix + 1))
        / ((ax.x (ix + 1) - ax.x ix) * (ay.x (iy + 1) - ay.x iy))| ≤ 18 / 2 ^ 53 * Z := by
  obtain ⟨g1, g2, g3, g4, g5, g6, g7⟩ := hc
  obtain ⟨ix', iy', c, hc', e, h⟩ := C115_bilinear binary (1 / 2 ^ 53) C114_binary complex ax ay hx hy data fill
    lon lat ((hx.le (Nat.zero_le _) (by omega)).trans g3) (lt_of_lt_of_le g4 (hx.le (by omega) (by omega))) g7
    (lt_of_lt_of_le g6 (hy.le (by omega) (by omega)))
  have ex : ix' = ix := by
    have := hx.find_eq lon ix g1 g3 g4
    rw [hx.find_eq lon ix' hc'.1 hc'.2.2.1 hc'.2.2.2.1] at this
    simpa using this
  have ey : iy' = iy := by
    have := hy.find_eq lat iy g2 g5 g6
    rw [hy.find_eq lat iy' hc'.2.1 hc'.2.2.2.2.1 hc'.2.2.2.2.2.1] at this
    simpa using this
  subst ex ey
  have v1 := hz ix' (by simp) iy' (by simp)
  have v2 := hz (ix' + 1) (by simp) iy' (by simp)
  have v3 := hz ix' (by simp) (iy' + 1) (by simp)
  have v4 := hz (ix' + 1) (by simp) (iy' + 1) (by simp)
  have ec : cornersOf ax ay data lon lat ix' iy' = around (ax.x ix') (ax.x (ix' + 1)) (ay.x iy') (ay.x (iy' + 1))
      lon lat (some (z iy' ix')) (some (z iy' (ix' + 1))) (some (z (iy' + 1) ix'))
      (some (z (iy' + 1) (ix' + 1))) := by
    unfold cornersOf
    rw [v1, v2, v3, v4]
    rfl
  have ew : weightOf (cornersOf ax ay data lon lat ix' iy') =
      (ax.x (ix' + 1) - ax.x ix') * (ay.x (iy' + 1) - ay.x iy') := by
    rw [ec]
    simp only [weightOf, around, List.map_cons, List.map_nil, List.sum_cons, List.sum_nil, Option.elim]
    ring
  have em : massOf (cornersOf ax ay data lon lat ix' iy') =
      (ax.x (ix' + 1) - lon) * (ay.x (iy' + 1) - lat) * z iy' ix'
          + (lon - ax.x ix') * (ay.x (iy' + 1) - lat) * z iy' (ix' + 1)
          + (ax.x (ix' + 1) - lon) * (lat - ay.x iy') * z (iy' + 1) ix'
          + (lon - ax.x ix') * (lat - ay.x iy') * z (iy' + 1) (ix' + 1) := by
    rw [ec]
    simp only [massOf, around, List.map_cons, List.map_nil, List.sum_cons, List.sum_nil, Option.elim]
    ring
  have pw : 0 < (ax.x (ix' + 1) - ax.x ix') * (ay.x (iy' + 1) - ay.x iy') :=
    mul_pos (by linarith) (by linarith)
  rw [mul_one_div] at h
  rcases h with ⟨i, hi, j, hj, f1, f2, -⟩ | ⟨-, h⟩
  · exact absurd ⟨f1, f2⟩ (far i hi j hj)
  · rcases h with ⟨h, -⟩ | ⟨-, hm, h⟩
    · rw [ec] at h
      exact absurd (h _ (List.mem_cons_self)) (by simp)
    · rcases h with ⟨h, -⟩ | ⟨-, v, hv, h⟩
      · rw [ew] at h
        exact absurd h pw.ne'
      · refine ⟨v, ?_, ?_⟩
        · rw [e]
          congr 1
          cases c
          simp only at hm hv
          rw [hm, hv]
        · have := h Z (by
            intro p hp w hw
            rw [ec] at hp
            simp only [around, List.mem_cons, List.not_mem_nil, or_false] at hp
            rcases hp with rfl | rfl | rfl | rfl <;> cases hw
            · exact hZ ix' (by simp) iy' (by simp)
            · exact hZ (ix' + 1) (by simp) iy' (by simp)
            · exact hZ ix' (by simp) (iy' + 1) (by simp)
            · exact hZ (ix' + 1) (by simp) (iy' + 1) (by simp))
          rw [ew, em, show (18 : ℝ) * (1 / 2 ^ 53) = 18 / 2 ^ 53 from by ring] at this
          exact this

/-- A point between nodes of a grid of whole degrees. -/
example : ∃ v, bilinear binary true ⟨361, fun i => i⟩ ⟨181, fun j => (j : ℝ) - 90⟩
    (fun j i => ⟨some (i + 2 * j), false⟩) none 10.5 20.5 = .ok ⟨some v, false⟩ ∧
      |v - 231.5| ≤ 18 / 2 ^ 53 * 233 := by
  obtain ⟨v, e, h⟩ := C115_double true ⟨361, fun i => i⟩ ⟨181, fun j => (j : ℝ) - 90⟩
    ⟨by norm_num, fun i _ => by push_cast; linarith⟩ ⟨by norm_num, fun i _ => by push_cast; linarith⟩
    (fun j i => ⟨some (i + 2 * j), false⟩) none 10.5 20.5 10 110 (by
      unfold InCell
      norm_num) (fun j i => i + 2 * j) (fun _ _ _ _ => rfl) (by
      rintro i hi j - ⟨h, -⟩
      simp only [List.mem_cons, List.not_mem_nil, or_false] at hi
      unfold At tolerance at h
      rcases hi with rfl | rfl <;> norm_num [abs_of_pos] at h) 233 (by
      intro i hi j hj
      simp only [List.mem_cons, List.not_mem_nil, or_false] at hi hj
      rcases hi with rfl | rfl <;> rcases hj with rfl | rfl <;> norm_num [abs_of_pos])
  refine ⟨v, e, ?_⟩
  norm_num at h ⊢
  exact h

end Verif.Rounded
