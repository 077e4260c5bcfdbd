import Verif.Model.Distance
import Verif.Props.RoundedBinary
/-!
C131: distances between points.
-/
namespace Verif.Distance
open Verif Verif.Rounded

/-- The sum of the squares of the differences. -/
def gaps (a b : List ℝ) : ℝ := (List.zipWith (fun x y => (x - y) ^ 2) a b).sum

/-- The Euclidean distance. -/
noncomputable def euclid (a b : List ℝ) : ℝ := Real.sqrt (gaps a b)

theorem foldl_add (l : List ℝ) (s : ℝ) : l.foldl (fun s y => s + y) s = s + l.sum := by
  induction l generalizing s with
  | nil => simp
  | cons x l ih => rw [List.foldl_cons, ih, List.sum_cons]; ring

theorem total_eq (l : List ℝ) : total id l = l.sum := by
  cases l with
  | nil => rfl
  | cons x l =>
    have := foldl_add l x
    simpa [total] using this

theorem square_eq (a b : List ℝ) (h : b.length = a.length) : square id a b = gaps a b := by
  simp only [square, squares, product, total_eq, id, gaps]
  induction a generalizing b with
  | nil =>
    obtain rfl : b = [] := List.length_eq_zero_iff.1 h
    simp
  | cons x a ih =>
    obtain ⟨y, b, rfl⟩ : ∃ y b', b = y :: b' := by
      cases b with
      | nil => simp at h
      | cons y b => exact ⟨y, b, rfl⟩
    have := ih b (by simpa using h)
    simp only [List.map_cons, List.sum_cons, List.zipWith_cons_cons] at this ⊢
    linarith [this]

theorem gaps_nonneg (a b : List ℝ) : 0 ≤ gaps a b := by
  refine List.sum_nonneg fun x hx => ?_
  obtain ⟨p, -, rfl⟩ := List.mem_map.1 (by rwa [List.zipWith_eq_zipWith_take_min, ← List.map_uncurry_zip_eq_zipWith] at hx)
  exact sq_nonneg _

/-- **C131** (exact).  In exact arithmetic the distances are the Euclidean ones, in any number of coordinates, and
points with other numbers of coordinates are refused. -/
theorem C131_distance (c1 : List ℝ) (c2 : List (List ℝ)) :
    ((∀ r ∈ c2, r.length = c1.length) → distance id c1 c2 = .ok (c2.map fun r => some (euclid c1 r))) ∧
    ((∃ r ∈ c2, r.length ≠ c1.length) → distance id c1 c2 = .error .valueError) := by
  constructor
  · intro h
    rw [distance, if_pos (by simpa using h)]
    refine congrArg Except.ok (List.map_congr_left fun r hr => ?_)
    rw [square_eq c1 r (h r hr), if_neg (not_lt.2 (gaps_nonneg _ _))]
    rfl
  · rintro ⟨r, hr, hne⟩
    rw [distance, if_neg]
    intro h
    rw [List.all_eq_true] at h
    exact hne (by simpa using h r hr)

theorem gaps_zero (a b : List ℝ) (h : b.length = a.length) : gaps a b = 0 ↔ a = b := by
  induction a generalizing b with
  | nil =>
    obtain rfl : b = [] := List.length_eq_zero_iff.1 h
    simp [gaps]
  | cons x a ih =>
    obtain ⟨y, b, rfl⟩ : ∃ y b', b = y :: b' := by
      cases b with
      | nil => simp at h
      | cons y b => exact ⟨y, b, rfl⟩
    have k := ih b (by simpa using h)
    have e : gaps (x :: a) (y :: b) = (x - y) ^ 2 + gaps a b := by simp [gaps]
    have g := gaps_nonneg a b
    have q := sq_nonneg (x - y)
    rw [e]
    constructor
    · intro z
      have z1 : (x - y) ^ 2 = 0 := by linarith
      have z2 : gaps a b = 0 := by linarith
      rw [k.1 z2, sub_eq_zero.1 (pow_eq_zero_iff (two_ne_zero) |>.1 z1)]
    · intro z
      obtain ⟨rfl, rfl⟩ := List.cons.inj z
      rw [k.2 rfl]
      ring

/-- The distance is zero for the same point only, and does not depend on the order of the points. -/
theorem C131_metric (a b : List ℝ) (h : b.length = a.length) :
    (distance id a [b] = .ok [some 0] ↔ a = b) ∧ distance id a [b] = distance id b [a] := by
  have e := (C131_distance a [b]).1 (by simpa using h)
  have e' := (C131_distance b [a]).1 (by simpa using h.symm)
  rw [e, e']
  constructor
  · rw [← gaps_zero a b h]
    simp only [List.map_cons, List.map_nil, Except.ok.injEq, List.cons.injEq, Option.some.injEq, and_true, euclid]
    exact Real.sqrt_eq_zero (gaps_nonneg a b)
  · have : gaps a b = gaps b a := by
      unfold gaps
      rw [List.zipWith_comm]
      congr 2
      funext x y
      ring
    simp only [List.map_cons, List.map_nil, euclid, this]

/-- The closest number with 53 digits. -/
theorem nearest_near {x : ℝ} (e k : ℤ) (h1 : (2 : ℝ) ^ e ≤ |x|) (h2 : |x| < (2 : ℝ) ^ (e + 1))
    (h3 : |x / 2 ^ (e - 52) - k| < 1 / 2) : nearest x = k * 2 ^ (e - 52) := by
  have p : (0 : ℝ) < 2 ^ e := zpow_pos (by norm_num) _
  have x0 : 0 < |x| := p.trans_le h1
  have hl : Int.log 2 |x| = e := by
    apply le_antisymm
    · have := (Int.lt_zpow_iff_log_lt (R := ℝ) (b := 2) (by norm_num) (x := e + 1) (r := |x|) x0).mp
        (by exact_mod_cast h2)
      omega
    · exact (Int.zpow_le_iff_le_log (R := ℝ) (b := 2) (by norm_num) (x := e) (r := |x|) x0).mp
        (by exact_mod_cast h1)
  have hr : Num.round (x / 2 ^ (e - 52)) = k := by
    have a := Num.abs_sub_round_le (x / (2 : ℝ) ^ (e - 52))
    have b : |((Num.round (x / (2 : ℝ) ^ (e - 52)) : ℤ) : ℝ) - k| < 1 := by
      rw [abs_lt] at h3 ⊢
      rw [abs_le] at a
      constructor <;> linarith [a.1, a.2, h3.1, h3.2]
    have c : |Num.round (x / (2 : ℝ) ^ (e - 52)) - k| < 1 := by exact_mod_cast b
    have := Int.abs_lt_one_iff.1 c
    omega
  rw [nearest, ulp, hl, hr]

/-- **C131** (refuted: floats).  The distance is calculated as a difference of large numbers: with the 53 digits of
floats that of two points that are close has a square less than zero and is NaN, although the points and their
difference are floats. -/
theorem C131_floats_false : ∃ x y : ℝ, nearest x = x ∧ nearest y = y ∧ nearest (y - x) = y - x ∧
    euclid [x] [y] = 1 / 2 ^ 28 ∧ distance nearest [x] [[y]] = .ok [none] := by
  have n : ∀ {x : ℝ} (e k : ℤ) (z : ℝ), (2 : ℝ) ^ e ≤ |x| → |x| < (2 : ℝ) ^ (e + 1) →
      |x / 2 ^ (e - 52) - k| < 1 / 2 → (k : ℝ) * 2 ^ (e - 52) = z → nearest x = z :=
    fun e k z h1 h2 h3 h4 => (nearest_near e k h1 h2 h3).trans h4
  have xx : nearest ((1 + 5 / 2 ^ 29) * (1 + 5 / 2 ^ 29)) = 1 + 10 / 2 ^ 29 :=
    n 0 (2 ^ 52 + 10 * 2 ^ 23) _ (by norm_num) (by norm_num) (by norm_num) (by norm_num)
  have yy : nearest ((1 + 7 / 2 ^ 29) * (1 + 7 / 2 ^ 29)) = 1 + 14 / 2 ^ 29 + 1 / 2 ^ 52 :=
    n 0 (2 ^ 52 + 14 * 2 ^ 23 + 1) _ (by norm_num) (by norm_num) (by norm_num) (by norm_num)
  have xy : nearest ((1 + 5 / 2 ^ 29) * (1 + 7 / 2 ^ 29)) = 1 + 12 / 2 ^ 29 + 1 / 2 ^ 52 :=
    n 0 (2 ^ 52 + 12 * 2 ^ 23 + 1) _ (by norm_num) (by norm_num) (by norm_num) (by norm_num)
  have two : nearest (2 * (1 + 12 / 2 ^ 29 + 1 / 2 ^ 52)) = 2 * (1 + 12 / 2 ^ 29 + 1 / 2 ^ 52) :=
    n 1 (2 ^ 52 + 12 * 2 ^ 23 + 1) _ (by norm_num) (by norm_num) (by norm_num) (by norm_num)
  have d1 : nearest (1 + 10 / 2 ^ 29 - 2 * (1 + 12 / 2 ^ 29 + 1 / 2 ^ 52)) = -(1 + 14 / 2 ^ 29 + 2 / 2 ^ 52) :=
    n 0 (-(2 ^ 52 + 14 * 2 ^ 23 + 2)) _ (by norm_num) (by norm_num) (by norm_num) (by norm_num)
  have d2 : nearest (-(1 + 14 / 2 ^ 29 + 2 / 2 ^ 52) + (1 + 14 / 2 ^ 29 + 1 / 2 ^ 52)) = -(1 / 2 ^ 52) :=
    n (-52) (-2 ^ 52) _ (by norm_num) (by norm_num) (by norm_num) (by norm_num)
  have s : square nearest [1 + 5 / 2 ^ 29] [1 + 7 / 2 ^ 29] = -(1 / 2 ^ 52) := by
    simp only [square, squares, product, total, List.map_cons, List.map_nil, List.zipWith_cons_cons,
      List.zipWith_nil_left, List.foldl_nil]
    rw [xx, yy, xy, two, d1, d2]
  refine ⟨1 + 5 / 2 ^ 29, 1 + 7 / 2 ^ 29,
    n 0 (2 ^ 52 + 5 * 2 ^ 23) _ (by norm_num) (by norm_num) (by norm_num) (by norm_num),
    n 0 (2 ^ 52 + 7 * 2 ^ 23) _ (by norm_num) (by norm_num) (by norm_num) (by norm_num),
    n (-28) (2 ^ 52) _ (by norm_num) (by norm_num) (by norm_num) (by norm_num), ?_, ?_⟩
  · have : gaps [1 + 5 / 2 ^ 29] [1 + 7 / 2 ^ 29] = (1 / 2 ^ 28) ^ 2 := by
      simp [gaps]
      norm_num
    rw [euclid, this, Real.sqrt_sq (by norm_num)]
  · rw [distance, if_pos (by simp)]
    simp only [List.map_cons, List.map_nil, s]
    rw [if_pos (by norm_num)]

/-- Points in space: the corners of a cube. -/
example : distance id [0, 0, 0] [[1, 2, 2], [0, 0, 0]] = .ok [some 3, some 0] := by
  rw [(C131_distance _ _).1 (by simp)]
  have : Real.sqrt 9 = 3 := by
    rw [show (9 : ℝ) = 3 ^ 2 by norm_num, Real.sqrt_sq (by norm_num)]
  simp [euclid, gaps]
  norm_num [this]

end Verif.Distance
