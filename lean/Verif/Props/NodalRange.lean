import Verif.Lemmas.NodalFes
import Verif.Props.Nodal
import Verif.Spec.NodalRange

/-!
# C66: nodal factors are positive and stay within their ranges at all times
-/

namespace Verif.Nodal

open Real

/-! ## Series -/

/-- The coefficient of an argument in a series. -/
def coefAt (l : List Term) (q : ℤ × ℤ) : ℚ :=
  ((l.filter fun t => (t.i, t.j) == q).map Term.a).sum

/-- The arguments of two series. -/
def keys (s c : List Term) : List (ℤ × ℤ) := ((s ++ c).map fun t => (t.i, t.j)).eraseDups

/-- The angle of an argument. -/
noncomputable def angleOf (n p : ℝ) (q : ℤ × ℤ) : ℝ := (q.1 * n + q.2 * p) * dtr

theorem sum_at (g : ℤ × ℤ → ℝ) (a : ℝ) (q : ℤ × ℤ) : ∀ K : List (ℤ × ℤ), K.Nodup → q ∈ K →
    (K.map fun r => (if q = r then a else 0) * g r).sum = a * g q
  | [], _, h => by simp at h
  | r :: K, hn, h => by
    rw [List.nodup_cons] at hn
    rw [List.map_cons, List.sum_cons]
    by_cases e : q = r
    · subst e
      have : (K.map fun r => (if q = r then a else 0) * g r).sum = 0 := by
        refine List.sum_eq_zero fun x hx => ?_
        obtain ⟨r, hr, rfl⟩ := List.mem_map.1 hx
        rw [if_neg (by rintro rfl; exact hn.1 hr), zero_mul]
      rw [this, if_pos rfl, add_zero]
    · rw [if_neg e, zero_mul, zero_add]
      refine sum_at g a q K hn.2 ?_
      rcases List.mem_cons.1 h with h | h
      · exact absurd h e
      · exact h

theorem sum_keys (g : ℤ × ℤ → ℝ) (K : List (ℤ × ℤ)) (hn : K.Nodup) : ∀ l : List Term,
    (∀ t ∈ l, (t.i, t.j) ∈ K) →
    (l.map fun t => (t.a : ℝ) * g (t.i, t.j)).sum = (K.map fun q => (coefAt l q : ℝ) * g q).sum
  | [], _ => by simp [coefAt]
  | t :: l, h => by
    rw [List.map_cons, List.sum_cons, sum_keys g K hn l fun x hx => h x (by simp [hx]),
      ← sum_at g t.a (t.i, t.j) K hn (h t (by simp)), ← List.sum_map_add]
    congr 1
    refine List.map_congr_left fun q _ => ?_
    rw [← add_mul]
    congr 1
    unfold coefAt
    by_cases e : (t.i, t.j) = q
    · rw [List.filter_cons_of_pos (by simpa using e), if_pos e]
      simp
    · rw [List.filter_cons_of_neg (by simpa using e), if_neg e]
      simp

/-- The largest contribution of an argument. -/
def weightAt (s c : List Term) (q : ℤ × ℤ) : ℚ := max |coefAt s q| |coefAt c q|

/-- The smallest contribution of an argument. -/
def leastAt (s c : List Term) (q : ℤ × ℤ) : ℚ := min |coefAt s q| |coefAt c q|

theorem sq_max (a b : ℚ) (t : ℝ) : ‖(⟨b * cos t, a * sin t⟩ : ℂ)‖ ≤ ((max |a| |b| : ℚ) : ℝ) := by
  rw [Complex.norm_def, Complex.normSq_mk]
  obtain ⟨m, hm⟩ : ∃ m : ℝ, m = ((max |a| |b| : ℚ) : ℝ) := ⟨_, rfl⟩
  have ha : |(a : ℝ)| ≤ m := by rw [hm]; exact_mod_cast le_max_left _ _
  have hb : |(b : ℝ)| ≤ m := by rw [hm]; exact_mod_cast le_max_right _ _
  have h0 : 0 ≤ m := le_trans (abs_nonneg _) ha
  rw [← hm, sqrt_le_left h0]
  have a2 : (a : ℝ) ^ 2 ≤ m ^ 2 := sq_le_sq.2 (by rwa [abs_of_nonneg h0])
  have b2 : (b : ℝ) ^ 2 ≤ m ^ 2 := sq_le_sq.2 (by rwa [abs_of_nonneg h0])
  have := sin_sq_add_cos_sq t
  nlinarith [sq_nonneg (sin t), sq_nonneg (cos t)]

theorem sq_min (a b : ℚ) (t : ℝ) : ((min |a| |b| : ℚ) : ℝ) ≤ ‖(⟨b * cos t, a * sin t⟩ : ℂ)‖ := by
  rw [Complex.norm_def, Complex.normSq_mk]
  obtain ⟨m, hm⟩ : ∃ m : ℝ, m = ((min |a| |b| : ℚ) : ℝ) := ⟨_, rfl⟩
  have ha : m ≤ |(a : ℝ)| := by rw [hm]; exact_mod_cast min_le_left _ _
  have hb : m ≤ |(b : ℝ)| := by rw [hm]; exact_mod_cast min_le_right _ _
  have h0 : 0 ≤ m := by
    rw [hm]; exact_mod_cast le_min (abs_nonneg a) (abs_nonneg b)
  rw [← hm]
  refine le_sqrt_of_sq_le ?_
  have a2 : m ^ 2 ≤ (a : ℝ) ^ 2 := sq_le_sq.2 (by rwa [abs_of_nonneg h0])
  have b2 : m ^ 2 ≤ (b : ℝ) ^ 2 := sq_le_sq.2 (by rwa [abs_of_nonneg h0])
  have := sin_sq_add_cos_sq t
  nlinarith [sq_nonneg (sin t), sq_nonneg (cos t)]

/-- The two series as one complex number. -/
noncomputable def vec (s : List Term) (c0 : ℚ) (c : List Term) (n p : ℝ) : ℂ :=
  ⟨c0 + cosSum c n p, sinSum s n p⟩

theorem vec_norm (s : List Term) (c0 : ℚ) (c : List Term) (n p : ℝ) :
    ‖vec s c0 c n p‖ = sqrt (sinSum s n p ^ 2 + (c0 + cosSum c n p) ^ 2) := by
  rw [vec, Complex.norm_def, Complex.normSq_mk]
  congr 1; ring

/-- The contribution of one argument. -/
noncomputable def part (s c : List Term) (n p : ℝ) (q : ℤ × ℤ) : ℂ :=
  ⟨coefAt c q * cos (angleOf n p q), coefAt s q * sin (angleOf n p q)⟩

theorem re_sum : ∀ l : List ℂ, l.sum.re = (l.map Complex.re).sum
  | [] => rfl
  | z :: l => by simp [re_sum l]

theorem im_sum : ∀ l : List ℂ, l.sum.im = (l.map Complex.im).sum
  | [] => rfl
  | z :: l => by simp [im_sum l]

theorem norm_sum_le : ∀ l : List ℂ, ‖l.sum‖ ≤ (l.map fun z => ‖z‖).sum
  | [] => by simp
  | z :: l => by
    rw [List.sum_cons, List.map_cons, List.sum_cons]
    exact le_trans (norm_add_le _ _) (by linarith [norm_sum_le l])

theorem vec_parts (s : List Term) (c0 : ℚ) (c : List Term) (n p : ℝ) (K : List (ℤ × ℤ))
    (hn : K.Nodup) (hs : ∀ t ∈ s, (t.i, t.j) ∈ K) (hc : ∀ t ∈ c, (t.i, t.j) ∈ K) :
    vec s c0 c n p = c0 + (K.map (part s c n p)).sum := by
  apply Complex.ext
  · rw [Complex.add_re, re_sum, List.map_map]
    refine congrArg (fun y => (c0 : ℝ) + y) ?_
    exact sum_keys (fun q => cos (angleOf n p q)) K hn c hc
  · rw [Complex.add_im, im_sum, List.map_map, Complex.ratCast_im, zero_add]
    exact sum_keys (fun q => sin (angleOf n p q)) K hn s hs

/-- The sum of the largest contributions. -/
def spread (s c : List Term) (K : List (ℤ × ℤ)) : ℚ := (K.map (weightAt s c)).sum

theorem parts_le (s c : List Term) (n p : ℝ) : ∀ K : List (ℤ × ℤ),
    ‖(K.map (part s c n p)).sum‖ ≤ (spread s c K : ℝ)
  | [] => by simp [spread]
  | q :: K => by
    have h := parts_le s c n p K
    have h1 := sq_max (coefAt s q) (coefAt c q) (angleOf n p q)
    unfold spread at h ⊢
    rw [List.map_cons, List.sum_cons, List.map_cons, List.sum_cons, Rat.cast_add]
    refine le_trans (norm_add_le _ _) (add_le_add ?_ h)
    exact h1

/-- The arguments are listed once each. -/
def keysOk (s c : List Term) (K : List (ℤ × ℤ)) : Bool :=
  decide K.Nodup && s.all (fun t => K.contains (t.i, t.j)) &&
    c.all (fun t => K.contains (t.i, t.j))

theorem vec_parts' (s : List Term) (c0 : ℚ) (c : List Term) (n p : ℝ) (K : List (ℤ × ℤ))
    (h : keysOk s c K = true) : vec s c0 c n p = c0 + (K.map (part s c n p)).sum := by
  simp only [keysOk, Bool.and_eq_true, decide_eq_true_eq, List.all_eq_true,
    List.contains_iff_mem] at h
  exact vec_parts s c0 c n p K h.1.1 h.1.2 h.2

theorem vec_le (s : List Term) (c0 : ℚ) (c : List Term) (n p : ℝ) (K : List (ℤ × ℤ))
    (h : keysOk s c K = true) : ‖vec s c0 c n p‖ ≤ ((|c0| + spread s c K : ℚ) : ℝ) := by
  rw [vec_parts' s c0 c n p K h, Rat.cast_add]
  refine le_trans (norm_add_le _ _) (add_le_add ?_ (parts_le s c n p K))
  rw [Complex.norm_ratCast, Rat.cast_abs]

theorem cosSum_abs (n p : ℝ) : ∀ c : List Term,
    |cosSum c n p| ≤ ((c.map fun t => |t.a|).sum : ℚ)
  | [] => by simp [cosSum]
  | t :: c => by
    have h := cosSum_abs n p c
    have e : cosSum (t :: c) n p = t.a * cos ((t.i * n + t.j * p) * dtr) + cosSum c n p := by
      simp [cosSum]
    rw [e, List.map_cons, List.sum_cons, Rat.cast_add]
    refine le_trans (abs_add_le _ _) (add_le_add ?_ h)
    rw [abs_mul, Rat.cast_abs]
    exact mul_le_of_le_one_right (abs_nonneg _) (abs_cos_le_one _)

theorem vec_ge (s : List Term) (c0 : ℚ) (c : List Term) (n p : ℝ) :
    ((c0 - (c.map fun t => |t.a|).sum : ℚ) : ℝ) ≤ ‖vec s c0 c n p‖ := by
  have h1 := Complex.re_le_norm (vec s c0 c n p)
  have h2 := (abs_le.1 (cosSum_abs n p c)).1
  have h3 : (vec s c0 c n p).re = c0 + cosSum c n p := rfl
  rw [h3] at h1
  rw [Rat.cast_sub]
  linarith

/-! ## Rules -/

/-- The smallest and largest factor of a branch, from its coefficients. -/
def Rule.range : Rule → ℚ × ℚ
  | .terms s c0 c => (c0 - (c.map fun t => |t.a|).sum, |c0| + spread s c (keys s c))
  | .direct c0 c _ => (c0 - (c.map fun t => |t.a|).sum, c0 + (c.map fun t => |t.a|).sum)
  | .mixed s c0 c _ => (c0 - (c.map fun t => |t.a|).sum, |c0| + spread s c (keys s c))
  | .qOtis a _ => (1 - |a|, 1 + |a|)
  | .fes k => k.range
  | .compound _ => (1, 1)

/-- The arguments of the series are listed once each. -/
def Rule.ok : Rule → Bool
  | .terms s _ c => keysOk s c (keys s c)
  | .mixed s _ c _ => keysOk s c (keys s c)
  | _ => true

theorem Rule.range_eval (r : Rule) (h : r.ok = true) (n p : ℝ) :
    (r.range.1 : ℝ) ≤ (r.eval n p).2 ∧ (r.eval n p).2 ≤ r.range.2 := by
  cases r with
  | terms s c0 c =>
    simp only [Rule.eval, Rule.range, ← vec_norm]
    exact ⟨vec_ge s c0 c n p, vec_le s c0 c n p _ h⟩
  | mixed s c0 c us =>
    simp only [Rule.eval, Rule.range, ← vec_norm]
    exact ⟨vec_ge s c0 c n p, vec_le s c0 c n p _ h⟩
  | direct c0 c s =>
    have := abs_le.1 (cosSum_abs n p c)
    simp only [Rule.eval, Rule.range, Rat.cast_sub, Rat.cast_add]
    constructor <;> linarith
  | qOtis a b =>
    simp only [Rule.eval, Rule.range]
    have e : sqrt ((1 + a * cos (n * dtr)) ^ 2 + (a * sin (n * dtr)) ^ 2) =
        ‖vec [⟨a, 1, 0⟩] 1 [⟨a, 1, 0⟩] n p‖ := by
      rw [vec_norm]; congr 1; simp [sinSum, cosSum]; ring
    rw [e]
    constructor
    · refine le_trans (le_of_eq ?_) (vec_ge _ _ _ _ _)
      simp
    · refine le_trans (vec_le _ _ _ _ _ [(1, 0)] (by simp [keysOk])) (le_of_eq ?_)
      simp [spread, weightAt, coefAt]
  | fes k => exact fes_range k n p
  | compound ps => simp [Rule.eval, Rule.range]

theorem chain_ok : ∀ b ∈ chain, b.rule.ok = true := by decide +kernel

theorem rule_ok (k : Cfg) (c : String) : (rule k c).ok = true := by
  rcases rule_cases k c with h | ⟨b, hb, _, h⟩
  · rw [h]; decide +kernel
  · rw [h]; exact chain_ok b hb

/-! ## Positive factors -/

/-- The branches whose coefficients alone do not show that the factor is positive. -/
def special : List Rule := [
  .terms [⟨1.0, 0, 1⟩, ⟨0.2, -1, 1⟩] 0 [⟨2.0, 0, 1⟩, ⟨0.4, -1, 1⟩],
  .terms [⟨0.64, 0, 1⟩, ⟨0.135, -1, 1⟩] 0 [⟨1.36, 0, 1⟩, ⟨0.267, -1, 1⟩],
  .terms [⟨0.505, 0, 2⟩, ⟨0.505, 1, 0⟩, ⟨-0.165, 2, 0⟩] 1.0
    [⟨-0.505, 0, 2⟩, ⟨-0.505, 1, 0⟩, ⟨0.165, 2, 0⟩]]

theorem chain_positive : ∀ b ∈ chain, 0 < b.rule.range.1 ∨ b.rule ∈ special := by
  decide +kernel

/-- The factor of delta2. -/
theorem delta2_positive (n p : ℝ) : 0 < ‖vec [⟨0.505, 0, 2⟩, ⟨0.505, 1, 0⟩, ⟨-0.165, 2, 0⟩] 1.0
    [⟨-0.505, 0, 2⟩, ⟨-0.505, 1, 0⟩, ⟨0.165, 2, 0⟩] n p‖ := by
  obtain ⟨x, hx⟩ : ∃ x, x = n * dtr := ⟨_, rfl⟩
  obtain ⟨y, hy⟩ : ∃ y, y = 2 * p * dtr := ⟨_, rfl⟩
  rw [norm_pos_iff]
  intro h
  have hre := congrArg Complex.re h
  have him := congrArg Complex.im h
  simp [vec, sinSum, cosSum] at hre him
  rw [mul_assoc 2 n, ← hx, ← hy] at hre him
  have s1 := sin_sq_add_cos_sq x
  have s2 := sin_sq_add_cos_sq y
  have e1 := cos_two_mul x
  have e2 := sin_two_mul x
  rw [e1] at hre
  rw [e2] at him
  have c1 := cos_le_one x
  have key : (0.505 : ℝ) ^ 2 = (1 - 0.505 * cos x + 0.165 * (2 * cos x ^ 2 - 1)) ^ 2 +
      (0.505 * sin x - 0.165 * (2 * sin x * cos x)) ^ 2 := by
    have a : (1 - 0.505 * cos x + 0.165 * (2 * cos x ^ 2 - 1)) = 0.505 * cos y := by linarith
    have b : (0.505 * sin x - 0.165 * (2 * sin x * cos x)) = -(0.505 * sin y) := by linarith
    rw [a, b]; linear_combination (-0.505 ^ 2 : ℝ) * s2
  have hs : sin x ^ 2 = 1 - cos x ^ 2 := by linarith
  have key2 : (0.505 * sin x - 0.165 * (2 * sin x * cos x)) ^ 2 =
      sin x ^ 2 * (0.505 - 0.33 * cos x) ^ 2 := by ring
  rw [key2, hs] at key
  generalize cos x = z at key
  nlinarith [sq_nonneg (z - 0.89)]

theorem special_positive (r : Rule) (h : r ∈ special) (n p : ℝ) : 0 < (r.eval n p).2 := by
  have two : ∀ s1 s2 c1 c2 : ℚ, |c2| < |s1| → |s2| < |s1| → |c2| < |c1| → |s2| < |c1| →
      0 < ‖vec [⟨s1, 0, 1⟩, ⟨s2, -1, 1⟩] 0 [⟨c1, 0, 1⟩, ⟨c2, -1, 1⟩] n p‖ := by
    intro s1 s2 c1 c2 h1 h2 h3 h4
    rw [vec_parts' _ _ _ n p [(0, 1), (-1, 1)] (by simp [keysOk])]
    simp only [Rat.cast_zero, zero_add, List.map_cons, List.map_nil, List.sum_cons, List.sum_nil,
      add_zero]
    have g1 := sq_min s1 c1 (angleOf n p (0, 1))
    have g2 := sq_max s2 c2 (angleOf n p (-1, 1))
    have p1 : part [⟨s1, 0, 1⟩, ⟨s2, -1, 1⟩] [⟨c1, 0, 1⟩, ⟨c2, -1, 1⟩] n p (0, 1) =
        ⟨c1 * cos (angleOf n p (0, 1)), s1 * sin (angleOf n p (0, 1))⟩ := by
      simp [part, coefAt]
    have p2 : part [⟨s1, 0, 1⟩, ⟨s2, -1, 1⟩] [⟨c1, 0, 1⟩, ⟨c2, -1, 1⟩] n p (-1, 1) =
        ⟨c2 * cos (angleOf n p (-1, 1)), s2 * sin (angleOf n p (-1, 1))⟩ := by
      simp [part, coefAt]
    rw [p1, p2]
    have lt : (max |s2| |c2| : ℚ) < min |s1| |c1| := by
      rw [max_lt_iff, lt_min_iff, lt_min_iff]; exact ⟨⟨h2, h4⟩, ⟨h1, h3⟩⟩
    have lt' : ((max |s2| |c2| : ℚ) : ℝ) < ((min |s1| |c1| : ℚ) : ℝ) := by exact_mod_cast lt
    have := norm_sub_norm_le
      (⟨c1 * cos (angleOf n p (0, 1)), s1 * sin (angleOf n p (0, 1))⟩ : ℂ)
      (-⟨c2 * cos (angleOf n p (-1, 1)), s2 * sin (angleOf n p (-1, 1))⟩)
    rw [norm_neg, sub_neg_eq_add] at this
    linarith
  simp only [special, List.mem_cons, List.not_mem_nil, or_false] at h
  rcases h with rfl | rfl | rfl
  · simp only [Rule.eval, ← vec_norm]
    exact two _ _ _ _ (by decide +kernel) (by decide +kernel) (by decide +kernel) (by decide +kernel)
  · simp only [Rule.eval, ← vec_norm]
    exact two _ _ _ _ (by decide +kernel) (by decide +kernel) (by decide +kernel) (by decide +kernel)
  · simp only [Rule.eval, ← vec_norm]
    exact delta2_positive n p

theorem rule_positive (k : Cfg) (c : String) (n p : ℝ) : 0 < ((rule k c).eval n p).2 := by
  have pos : ∀ r : Rule, r.ok = true → 0 < r.range.1 → 0 < (r.eval n p).2 := fun r hr h =>
    lt_of_lt_of_le (by exact_mod_cast h) (r.range_eval hr n p).1
  rcases rule_cases k c with h | ⟨b, hb, _, h⟩
  · rw [h]; exact pos _ (by decide +kernel) (by decide +kernel)
  · rw [h]
    rcases chain_positive b hb with h' | h'
    · exact pos _ (chain_ok b hb) h'
    · exact special_positive _ h' n p

theorem compose_positive : ∀ (ps : List Parent) (r : List (ℝ × ℝ)), (∀ q ∈ r, 0 < q.2) →
    0 < (compose ps r).2
  | [], _, _ => by simp [compose]
  | _ :: _, [], _ => by simp [compose]
  | q :: ps, x :: r, h => by
    have ih := compose_positive ps r fun y hy => h y (by simp [hy])
    have := h x (by simp)
    simp only [compose, List.zip_cons_cons, List.map_cons, List.prod_cons] at ih ⊢
    positivity

theorem one_positive (k : Cfg) (n p : ℝ) (c : String) : 0 < (one k n p c).2 := by
  cases hr : rule k c with
  | compound ps =>
    unfold one
    rw [hr]
    refine compose_positive _ _ fun q hq => ?_
    obtain ⟨x, _, rfl⟩ := List.mem_map.1 hq
    exact rule_positive k _ n p
  | _ =>
    rw [one_plain k n p (by rw [hr]; rfl)]
    exact rule_positive k c n p

/-- C66: whatever the longitudes of the node and the perigee, the type of corrections and the
coefficients for M1, the nodal factor of every constituent is positive, so no constituent
vanishes or changes sign. -/
theorem C66_positive (k : Cfg) (n p : ℝ) (fuel : ℕ) (hf : 2 ≤ fuel) (cs : List String) :
    ∃ r, nodal fuel k n p cs = some r ∧ r.length = cs.length ∧ ∀ x ∈ r, 0 < x.2 := by
  obtain ⟨m, rfl⟩ : ∃ m, fuel = m + 2 := ⟨fuel - 2, by omega⟩
  refine ⟨_, nodal_eq k n p m cs, by simp, fun x hx => ?_⟩
  obtain ⟨c, _, rfl⟩ := List.mem_map.1 hx
  exact one_positive k n p c

/-! ## Ranges -/

/-- The bounds of the powers of the parents. -/
def composeRange (ps : List Parent) (r : List (ℚ × ℚ)) : ℚ × ℚ :=
  (((ps.zip r).map fun q => q.2.1 ^ q.1.pow).prod, ((ps.zip r).map fun q => q.2.2 ^ q.1.pow).prod)

/-- One range lies inside another. -/
def inside (a b : ℚ × ℚ) : Bool := decide (b.1 ≤ a.1) && decide (a.2 ≤ b.2)

/-- The widest range of the branches a name can take. -/
def hull : List (Cond × Rule) → ℚ × ℚ
  | [] => (1, 1)
  | b :: l => (min b.2.range.1 (hull l).1, max b.2.range.2 (hull l).2)

theorem hull_mem : ∀ (l : List (Cond × Rule)) (b : Cond × Rule), b ∈ l →
    (hull l).1 ≤ b.2.range.1 ∧ b.2.range.2 ≤ (hull l).2
  | [], _, h => by simp at h
  | a :: l, b, h => by
    rcases List.mem_cons.1 h with rfl | h
    · exact ⟨min_le_left _ _, le_max_left _ _⟩
    · have := hull_mem l b h
      exact ⟨le_trans (min_le_right _ _) this.1, le_trans this.2 (le_max_right _ _)⟩

theorem hull_one : ∀ l : List (Cond × Rule), (hull l).1 ≤ 1 ∧ 1 ≤ (hull l).2
  | [] => ⟨le_refl _, le_refl _⟩
  | _ :: l => ⟨le_trans (min_le_right _ _) (hull_one l).1, le_trans (hull_one l).2 (le_max_right _ _)⟩

theorem rule_hull (k : Cfg) (c : String) (n p : ℝ) :
    ((hull (cands false c chain)).1 : ℝ) ≤ ((rule k c).eval n p).2 ∧
      ((rule k c).eval n p).2 ≤ (hull (cands false c chain)).2 := by
  have hok := rule_ok k c
  have e := rule_eq_pick k c false (by simp)
  have he := (rule k c).range_eval hok n p
  have : (hull (cands false c chain)).1 ≤ (rule k c).range.1 ∧
      (rule k c).range.2 ≤ (hull (cands false c chain)).2 := by
    rw [e]
    unfold pick
    cases hfd : (cands false c chain).find? (fun b => b.1.holds k) with
    | none =>
      have h1 : defaultRule.range = (1, 1) := by decide +kernel
      simp only [h1]
      exact hull_one _
    | some b => exact hull_mem _ b (List.mem_of_find?_eq_some hfd)
  have a : ((hull (cands false c chain)).1 : ℝ) ≤ (rule k c).range.1 := by exact_mod_cast this.1
  have b : ((rule k c).range.2 : ℝ) ≤ (hull (cands false c chain)).2 := by exact_mod_cast this.2
  exact ⟨le_trans a he.1, le_trans he.2 b⟩

/-- The check on one constituent. -/
def rangeCheck (q : String × ℚ × ℚ) : Bool :=
  match cands false q.1 chain with
  | [(.always, .compound ps)] =>
    ps.all (fun x => decide (0 ≤ (hull (cands false x.name chain)).1)) &&
    inside (composeRange ps (ps.map fun x => hull (cands false x.name chain))) q.2
  | l => l.all (fun b => b.2.plain) && inside (hull l) q.2

theorem ranges_check : ∀ q ∈ Spec.nodalRanges, rangeCheck q = true := by decide +kernel

theorem compose_range (F : Parent → ℝ × ℝ) (B : Parent → ℚ × ℚ) : ∀ ps : List Parent,
    (∀ q ∈ ps, 0 ≤ (B q).1 ∧ ((B q).1 : ℝ) ≤ (F q).2 ∧ (F q).2 ≤ (B q).2) →
    0 ≤ (composeRange ps (ps.map B)).1 ∧
    ((composeRange ps (ps.map B)).1 : ℝ) ≤ (compose ps (ps.map F)).2 ∧
      (compose ps (ps.map F)).2 ≤ (composeRange ps (ps.map B)).2
  | [], _ => by simp [compose, composeRange]
  | q :: ps, h => by
    obtain ⟨a1, a2, a3⟩ := compose_range F B ps fun x hx => h x (by simp [hx])
    obtain ⟨b1, b2, b3⟩ := h q (by simp)
    simp only [compose, composeRange, List.map_cons, List.zip_cons_cons, List.prod_cons] at a1 a2 a3 ⊢
    have b1' : (0 : ℝ) ≤ (B q).1 := by exact_mod_cast b1
    have a1' : (0 : ℝ) ≤ (((ps.zip (ps.map B)).map fun q => q.2.1 ^ q.1.pow).prod : ℚ) := by
      exact_mod_cast a1
    rw [Rat.cast_mul, Rat.cast_mul, Rat.cast_pow, Rat.cast_pow]
    refine ⟨mul_nonneg (pow_nonneg b1 _) a1, ?_, ?_⟩
    · exact mul_le_mul (pow_le_pow_left₀ b1' b2 _) a2 a1' (pow_nonneg (le_trans b1' b2) _)
    · exact mul_le_mul (pow_le_pow_left₀ (le_trans b1' b2) b3 _) a3 (le_trans a1' a2)
        (pow_nonneg (le_trans b1' (le_trans b2 b3)) _)

/-- C66: the nodal factors of the main constituents stay within the ranges of
`Spec.nodalRanges` at all times, for every type of corrections. -/
theorem C66_range (k : Cfg) (n p : ℝ) (fuel : ℕ) (hf : 2 ≤ fuel) (c : String) (lo hi : ℚ)
    (h : (c, lo, hi) ∈ Spec.nodalRanges) :
    ∃ u f, nodal fuel k n p [c] = some [(u, f)] ∧ (lo : ℝ) ≤ f ∧ f ≤ hi := by
  obtain ⟨m, rfl⟩ : ∃ m, fuel = m + 2 := ⟨fuel - 2, by omega⟩
  refine ⟨(one k n p c).1, (one k n p c).2, nodal_eq k n p m [c], ?_⟩
  have hc := ranges_check _ h
  unfold rangeCheck at hc
  have finish : ∀ (x : ℝ) (b : ℚ × ℚ), inside b (lo, hi) = true → (b.1 : ℝ) ≤ x ∧ x ≤ b.2 →
      (lo : ℝ) ≤ x ∧ x ≤ hi := by
    intro x b hi' hx
    simp only [inside, Bool.and_eq_true, decide_eq_true_eq] at hi'
    have a1 : (lo : ℝ) ≤ b.1 := by exact_mod_cast hi'.1
    have a2 : (b.2 : ℝ) ≤ hi := by exact_mod_cast hi'.2
    exact ⟨le_trans a1 hx.1, le_trans hx.2 a2⟩
  split at hc
  · rename_i ps hcands
    simp only [Bool.and_eq_true, List.all_eq_true, decide_eq_true_eq] at hc
    have hr : rule k c = .compound ps := by
      rw [rule_eq_pick k c false (by simp), hcands]; rfl
    have hone : one k n p c = compose ps (ps.map fun q => (rule k q.name).eval n p) := by
      unfold one; rw [hr]
    rw [hone]
    refine finish _ _ hc.2 (compose_range (fun q : Parent => (rule k q.name).eval n p)
      (fun x : Parent => hull (cands false x.name chain)) ps fun q hq => ?_).2
    exact ⟨hc.1 q hq, rule_hull k q.name n p⟩
  · simp only [Bool.and_eq_true, List.all_eq_true] at hc
    have hp : (rule k c).plain = true := by
      rw [rule_eq_pick k c false (by simp)]
      unfold pick
      cases hfd : (cands false c chain).find? (fun b => b.1.holds k) with
      | none => rfl
      | some b => exact hc.1 b (List.mem_of_find?_eq_some hfd)
    rw [one_plain k n p hp]
    exact finish _ _ hc.2 (rule_hull k c n p)

example : ("mk3", (0.82 : ℚ), (1.21 : ℚ)) ∈ Spec.nodalRanges := by decide +kernel

end Verif.Nodal
