import Verif.Lemmas.RoundedTide
import Mathlib.Analysis.Real.Pi.Bounds
import Mathlib.Algebra.Order.Ring.GeomSum
/-!
The errors of the rounded tidal arguments.
-/
namespace Verif.Rounded
open Verif Verif.Spec

theorem pow_le {u : ℝ} (hu : 0 ≤ u) (k : ℕ) (hk : 2 * (k : ℝ) * u ≤ 1) :
    (1 + u) ^ k ≤ 1 + 2 * k * u := by
  induction k with
  | zero => simp
  | succ k ih =>
    push_cast at hk ⊢
    have h1 := ih (by nlinarith)
    rw [pow_succ]
    have h2 : (1 + u) ^ k * (1 + u) ≤ (1 + 2 * k * u) * (1 + u) :=
      mul_le_mul_of_nonneg_right h1 (by linarith)
    have h3 : 0 ≤ (k : ℝ) := Nat.cast_nonneg k
    nlinarith

theorem truncate_near (x : ℝ) : |x - truncate x| < 1 := by
  unfold truncate
  have h1 := Int.floor_le x
  have h2 := Int.lt_floor_add_one x
  have h3 := Int.le_ceil x
  have h4 := Int.ceil_lt_add_one x
  rw [abs_lt]
  split_ifs <;> constructor <;> linarith

/-- `np.mod` with a positive divisor. -/
theorem npmod_near {A : Arith} {u : ℝ} (hA : Standard A u) (x y : ℝ) (hy : 0 < y) :
    ∃ k : ℤ, |npmod A x y - (x + y * k)| ≤ u * y ∧ |npmod A x y| ≤ 2 * y := by
  have hu := hA.nonneg
  have hs := hA.small
  have hx := truncate_near (x / y)
  have hm : |x - y * (truncate (x / y) : ℝ)| < y := by
    have e : x - y * (truncate (x / y) : ℝ) = y * (x / y - truncate (x / y)) := by
      rw [mul_sub, mul_div_cancel₀ _ hy.ne']
    rw [e, abs_mul, abs_of_pos hy]
    nlinarith
  unfold npmod
  dsimp only
  set m := x - y * (truncate (x / y) : ℝ) with hmd
  split_ifs with h
  · have hneg : m < 0 := by
      by_contra hc
      exact h.2 (propext ⟨fun a => absurd a (not_lt.mpr hy.le), fun a => absurd a hc⟩)
    rw [abs_lt] at hm
    have h1 := hA.rd (m + y)
    have h2 : |m + y| ≤ y := by rw [abs_le]; constructor <;> linarith
    have h3 : u * |m + y| ≤ u * y := mul_le_mul_of_nonneg_left h2 hu
    refine ⟨1 - truncate (x / y), ?_, ?_⟩
    · have e : x + y * ((1 - truncate (x / y) : ℤ) : ℝ) = m + y := by
        rw [hmd]; push_cast; ring
      rw [e]
      exact h1.trans h3
    · have h4 : |A.rd (m + y)| ≤ |A.rd (m + y) - (m + y)| + |m + y| := by
        have := abs_add_le (A.rd (m + y) - (m + y)) (m + y)
        rwa [sub_add_cancel] at this
      nlinarith
  · refine ⟨-truncate (x / y), ?_, ?_⟩
    · have e : x + y * ((-truncate (x / y) : ℤ) : ℝ) = m := by
        rw [hmd]; push_cast; ring
      rw [e, sub_self, abs_zero]
      positivity
    · linarith

/-- Equal up to whole turns, in degrees. -/
def Deg (e x' x : ℝ) : Prop := ∃ k : ℤ, |x' - (x + 360 * k)| ≤ e

theorem Deg.mono {e f x' x : ℝ} (h : Deg e x' x) (hef : e ≤ f) : Deg f x' x := by
  obtain ⟨k, hk⟩ := h
  exact ⟨k, hk.trans hef⟩

theorem Deg.trans {e f x y z : ℝ} (h : Deg e x y) (g : Deg f y z) : Deg (e + f) x z := by
  obtain ⟨k, hk⟩ := h
  obtain ⟨l, hl⟩ := g
  refine ⟨k + l, ?_⟩
  have e1 : x - (z + 360 * ((k + l : ℤ) : ℝ)) = (x - (y + 360 * k)) + (y - (z + 360 * l)) := by
    push_cast; ring
  rw [e1]
  exact (abs_add_le _ _).trans (add_le_add hk hl)

theorem Deg.of_abs {e x y : ℝ} (h : |x - y| ≤ e) : Deg e x y := ⟨0, by simpa using h⟩

theorem Deg.add {e f x' x y' y : ℝ} (h : Deg e x' x) (g : Deg f y' y) :
    Deg (e + f) (x' + y') (x + y) := by
  obtain ⟨k, hk⟩ := h
  obtain ⟨l, hl⟩ := g
  refine ⟨k + l, ?_⟩
  have e1 : x' + y' - (x + y + 360 * ((k + l : ℤ) : ℝ))
      = (x' - (x + 360 * k)) + (y' - (y + 360 * l)) := by push_cast; ring
  rw [e1]
  exact (abs_add_le _ _).trans (add_le_add hk hl)

theorem Deg.mul {e x' x : ℝ} (h : Deg e x' x) (c : ℤ) :
    Deg (e * |(c : ℝ)|) (x' * c) (x * c) := by
  obtain ⟨k, hk⟩ := h
  refine ⟨k * c, ?_⟩
  have e1 : x' * c - (x * c + 360 * ((k * c : ℤ) : ℝ)) = (x' - (x + 360 * k)) * c := by
    push_cast; ring
  rw [e1, abs_mul]
  exact mul_le_mul_of_nonneg_right hk (abs_nonneg _)

theorem Deg.sub {e f x' x y' y : ℝ} (h : Deg e x' x) (g : Deg f y' y) :
    Deg (e + f) (x' - y') (x - y) := by
  have := h.add (g.mul (-1))
  simpa [sub_eq_add_neg] using this

/-- The sum of the absolute values of integers. -/
def weight (c : List ℤ) : ℝ := (c.map fun (y : ℤ) => |(y : ℝ)|).sum

theorem weight_nonneg (c : List ℤ) : 0 ≤ weight c :=
  List.sum_nonneg (fun x hx => by
    obtain ⟨y, _, rfl⟩ := List.mem_map.mp hx
    exact abs_nonneg _)

theorem dot_deg {e : ℝ} (he : 0 ≤ e) (a' a : List ℝ) (h : List.Forall₂ (Deg e) a' a)
    (c : List ℤ) : Deg (e * weight c) (Astro.dot a' c) (Astro.dot a c) := by
  induction h generalizing c with
  | nil =>
    refine ⟨0, ?_⟩
    simpa [Astro.dot] using mul_nonneg he (weight_nonneg c)
  | cons h _ ih =>
    cases c with
    | nil => exact ⟨0, by simp [Astro.dot, weight]⟩
    | cons y c =>
      have := (h.mul y).add (ih c)
      simp only [Astro.dot, List.zipWith_cons_cons, List.sum_cons] at this ⊢
      exact this.mono (le_of_eq (by simp [weight, mul_add]))

theorem absDot_le {b : ℝ} (hb : 0 ≤ b) (a : List ℝ) (ha : ∀ x ∈ a, |x| ≤ b) (c : List ℤ) :
    absDot a c ≤ b * weight c := by
  induction a generalizing c with
  | nil => simpa [absDot] using mul_nonneg hb (weight_nonneg c)
  | cons x a ih =>
    cases c with
    | nil => simp [absDot, weight]
    | cons y c =>
      have h1 := ih (fun z hz => ha z (List.mem_cons_of_mem _ hz)) c
      have h2 := mul_le_mul_of_nonneg_right (ha x (by simp)) (abs_nonneg (y : ℝ))
      simp only [absDot, List.zipWith_cons_cons, List.sum_cons] at h1 ⊢
      simp only [weight, List.map_cons, List.sum_cons, mul_add] at h1 ⊢
      linarith

theorem abs_dot_le (a : List ℝ) (c : List ℤ) : |Astro.dot a c| ≤ absDot a c := by
  induction a generalizing c with
  | nil => simp [Astro.dot, absDot]
  | cons x a ih =>
    cases c with
    | nil => simp [Astro.dot, absDot]
    | cons y c =>
      have := ih c
      simp only [Astro.dot, absDot, List.zipWith_cons_cons, List.sum_cons] at this ⊢
      refine (abs_add_le _ _).trans ?_
      rw [abs_mul]
      linarith

/-! ### Polynomials -/

theorem sum_near {α : Type} (L : List α) (f g e : α → ℝ) (h : ∀ x ∈ L, |f x - g x| ≤ e x) :
    |(L.map f).sum - (L.map g).sum| ≤ (L.map e).sum := by
  induction L with
  | nil => simp
  | cons x L ih =>
    simp only [List.map_cons, List.sum_cons]
    have h1 := h x (by simp)
    have h2 := ih (fun y hy => h y (List.mem_cons_of_mem _ hy))
    have e1 : f x + (L.map f).sum - (g x + (L.map g).sum)
        = (f x - g x) + ((L.map f).sum - (L.map g).sum) := by ring
    rw [e1]
    exact (abs_add_le _ _).trans (add_le_add h1 h2)

theorem sum_abs_le {α : Type} (L : List α) (f e : α → ℝ) (h : ∀ x ∈ L, |f x| ≤ e x) :
    ((L.map f).map abs).sum ≤ (L.map e).sum := by
  induction L with
  | nil => simp
  | cons x L ih =>
    simp only [List.map_cons, List.sum_cons]
    exact add_le_add (h x (by simp)) (ih (fun y hy => h y (List.mem_cons_of_mem _ hy)))

/-- A rounded coefficient, the coefficient and a bound. -/
abbrev Triple := ℝ × ℝ × ℝ

theorem pow_near {u t' t : ℝ} (hu : 0 ≤ u) (ht' : |t'| ≤ 6 / 5) (ht : |t| ≤ 6 / 5)
    (h : |t' - t| ≤ 9 * u) (i : ℕ) (hi : i ≤ 4) :
    |t' ^ i - t ^ i| ≤ 63 * u ∧ |t' ^ i| ≤ 21 / 10 ∧ |t ^ i| ≤ 21 / 10 := by
  have hp : ∀ x : ℝ, |x| ≤ 6 / 5 → |x ^ i| ≤ 21 / 10 := by
    intro x hx
    rw [abs_pow]
    have h1 : |x| ^ i ≤ (6 / 5 : ℝ) ^ i := pow_le_pow_left₀ (abs_nonneg _) hx i
    have h2 : (6 / 5 : ℝ) ^ i ≤ (6 / 5) ^ 4 := pow_le_pow_right₀ (by norm_num) hi
    norm_num at h2 ⊢
    linarith
  refine ⟨?_, hp t' ht', hp t ht⟩
  have h1 := abs_pow_sub_pow_le t' t i
  have h2 : max |t'| |t| ^ (i - 1) ≤ (6 / 5 : ℝ) ^ 3 :=
    (pow_le_pow_left₀ (le_max_of_le_left (abs_nonneg _)) (max_le ht' ht) _).trans
      (pow_le_pow_right₀ (by norm_num) (by omega))
  have h3 : (i : ℝ) ≤ 4 := by exact_mod_cast hi
  have h4 : 0 ≤ max |t'| |t| ^ (i - 1) := pow_nonneg (le_max_of_le_left (abs_nonneg _)) _
  have h5 : |t' - t| * i * max |t'| |t| ^ (i - 1) ≤ 9 * u * 4 * (6 / 5) ^ 3 := by
    have h6 : |t' - t| * i ≤ 9 * u * 4 :=
      mul_le_mul h h3 (Nat.cast_nonneg i) (by linarith)
    exact mul_le_mul h6 h2 h4 (by linarith)
  norm_num at h5
  linarith

theorem polynomial_near {A : Arith} {u t' t : ℝ} (hA : Standard A u) (ht' : |t'| ≤ 6 / 5)
    (ht : |t| ≤ 6 / 5) (h : |t' - t| ≤ 9 * u) (l : List Triple) (hl : l.length ≤ 5)
    (hw : ∀ q ∈ l, |q.1 - q.2.1| ≤ 3 * u * q.2.2 ∧ |q.2.1| ≤ q.2.2) :
    |polynomialSum A (l.map fun q => q.1) t' - Math.polynomialSum (l.map fun q => q.2.1) t|
      ≤ 110 * u * (l.map fun q => q.2.2).sum := by
  have hu := hA.nonneg
  have hs : u ≤ 1 / 1000000 := hA.small.trans (by norm_num)
  have key : ∀ p ∈ l.zipIdx, |A.rd (p.1.1 * A.pow t' p.2) - p.1.2.1 * t ^ p.2|
        ≤ 82 * u * p.1.2.2 ∧ |A.rd (p.1.1 * A.pow t' p.2)| ≤ 23 / 10 * p.1.2.2 := by
    intro p hp
    have hi : p.2 ≤ 4 := by
      have := List.snd_lt_of_mem_zipIdx hp
      omega
    obtain ⟨g1, g2, g3⟩ := pow_near hu ht' ht h p.2 hi
    obtain ⟨w1, w2⟩ := hw p.1 (List.fst_mem_of_mem_zipIdx hp)
    have w0 : 0 ≤ p.1.2.2 := (abs_nonneg _).trans w2
    have hP := hA.pow t' p.2
    have hP1 : |A.pow t' p.2 - t' ^ p.2| ≤ 84 / 10 * u := by nlinarith
    generalize A.pow t' p.2 = P at *
    generalize t' ^ p.2 = a at *
    generalize t ^ p.2 = b at *
    obtain ⟨⟨c', c, w⟩, i⟩ := p
    dsimp only at *
    have hPb : |P - b| ≤ 72 * u := by
      have := abs_sub_le P a b
      linarith
    have hPn : |P| ≤ 22 / 10 := by
      have := abs_add_le (P - b) b
      rw [sub_add_cancel] at this
      linarith
    have hc : |c'| ≤ 101 / 100 * w := by
      have := abs_add_le (c' - c) c
      rw [sub_add_cancel] at this
      nlinarith
    have hr := hA.rd (c' * P)
    rw [abs_mul] at hr
    have m1 : |c'| * |P| ≤ 101 / 100 * w * (22 / 10) := mul_le_mul hc hPn (abs_nonneg _) (by linarith)
    have m2 : u * (|c'| * |P|) ≤ u * (101 / 100 * w * (22 / 10)) := mul_le_mul_of_nonneg_left m1 hu
    have m3 : |c' * P - c * b| ≤ 101 / 100 * w * (72 * u) + 3 * u * w * (21 / 10) := by
      have e1 : c' * P - c * b = c' * (P - b) + (c' - c) * b := by ring
      rw [e1]
      refine (abs_add_le _ _).trans ?_
      rw [abs_mul, abs_mul]
      exact add_le_add (mul_le_mul hc hPb (abs_nonneg _) (by linarith))
        (mul_le_mul w1 g3 (abs_nonneg _) (by positivity))
    have huw : 0 ≤ u * w := mul_nonneg hu w0
    have m4 : |A.rd (c' * P) - c * b| ≤ 82 * u * w := by
      have := abs_sub_le (A.rd (c' * P)) (c' * P) (c * b)
      linarith
    refine ⟨m4, ?_⟩
    have m5 : |A.rd (c' * P)| ≤ |A.rd (c' * P) - c' * P| + |c' * P| := by
      have := abs_add_le (A.rd (c' * P) - c' * P) (c' * P)
      rwa [sub_add_cancel] at this
    rw [abs_mul] at m5
    nlinarith
  have e1 : polynomialSum A (l.map fun q => q.1) t'
      = A.sum (l.zipIdx.map fun p => A.rd (p.1.1 * A.pow t' p.2)) := by
    rw [polynomialSum, List.zipIdx_map, List.map_map]
    rfl
  have e2 : Math.polynomialSum (l.map fun q => q.2.1) t
      = (l.zipIdx.map fun p => p.1.2.1 * t ^ p.2).sum := by
    rw [Math.polynomialSum, List.zipIdx_map, List.map_map]
    rfl
  have e3 : ∀ k : ℝ, (l.zipIdx.map fun p => k * p.1.2.2).sum = k * (l.map fun q => q.2.2).sum := by
    intro k
    rw [List.sum_map_mul_left]
    congr 2
    have : l.map (fun q => q.2.2) = (l.zipIdx.map Prod.fst).map fun q => q.2.2 := by
      rw [List.zipIdx_map_fst]
    rw [this, List.map_map]
    rfl
  have s1 := sum_near l.zipIdx (fun p => A.rd (p.1.1 * A.pow t' p.2)) (fun p => p.1.2.1 * t ^ p.2)
    (fun p => 82 * u * p.1.2.2) (fun p hp => (key p hp).1)
  have s2 := sum_abs_le l.zipIdx (fun p => A.rd (p.1.1 * A.pow t' p.2))
    (fun p => 23 / 10 * p.1.2.2) (fun p hp => (key p hp).2)
  rw [e3] at s1 s2
  have s3 := hA.sum (l.zipIdx.map fun p => A.rd (p.1.1 * A.pow t' p.2))
  rw [List.length_map, List.length_zipIdx] at s3
  have hW : 0 ≤ (l.map fun q => q.2.2).sum := List.sum_nonneg (fun x hx => by
    obtain ⟨q, hq, rfl⟩ := List.mem_map.mp hx
    exact (abs_nonneg _).trans (hw q hq).2)
  have hpow : (1 + u) ^ l.length - 1 ≤ 10 * u := by
    have h1 : (1 + u) ^ l.length ≤ (1 + u) ^ 5 := pow_le_pow_right₀ (by linarith) hl
    have h2 := pow_le hu 5 (by push_cast; linarith)
    push_cast at h2
    linarith
  have s4 : ((1 + u) ^ l.length - 1) *
      ((l.zipIdx.map fun p => A.rd (p.1.1 * A.pow t' p.2)).map abs).sum
      ≤ 10 * u * (23 / 10 * (l.map fun q => q.2.2).sum) := by
    refine mul_le_mul hpow s2 ?_ (by linarith)
    exact List.sum_nonneg (fun x hx => by
      obtain ⟨q, _, rfl⟩ := List.mem_map.mp hx
      exact abs_nonneg _)
  rw [e1, e2]
  have := abs_sub_le (A.sum (l.zipIdx.map fun p => A.rd (p.1.1 * A.pow t' p.2)))
    (l.zipIdx.map fun p => A.rd (p.1.1 * A.pow t' p.2)).sum
    (l.zipIdx.map fun p => p.1.2.1 * t ^ p.2).sum
  have : 0 ≤ u * (l.map fun q => q.2.2).sum := mul_nonneg hu hW
  linarith

end Verif.Rounded
