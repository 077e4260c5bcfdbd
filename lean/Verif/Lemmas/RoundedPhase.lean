import Verif.Lemmas.RoundedArgs
import Verif.Lemmas.Num
/-!
The errors of the rounded phases.
-/
namespace Verif.Rounded
open Verif Verif.Spec

theorem normalize_deg (x : ℝ) : Deg 0 (Math.normalizeAngle x 360) x := by
  refine ⟨-⌊x / 360⌋, ?_⟩
  rw [Math.normalizeAngle, Num.fmod]
  push_cast
  rw [show x - 360 * (⌊x / 360⌋ : ℝ) - (x + 360 * -(⌊x / 360⌋ : ℝ)) = 0 by ring, abs_zero]

theorem Deg.symm {e x' x : ℝ} (h : Deg e x' x) : Deg e x x' := by
  obtain ⟨k, hk⟩ := h
  refine ⟨-k, ?_⟩
  rw [abs_sub_comm]
  push_cast
  rwa [show x' + 360 * -(k : ℝ) - x = x' - (x + 360 * k) by ring]

theorem npmod_deg {A : Arith} {u e x' x : ℝ} (hA : Standard A u) (h : |x' - x| ≤ e) :
    Deg (360 * u + e) (npmod A x' 360) (Math.normalizeAngle x 360) ∧ |npmod A x' 360| ≤ 720 := by
  obtain ⟨k, h1, h2⟩ := npmod_near hA x' 360 (by norm_num)
  have d1 : Deg (u * 360) (npmod A x' 360) x' := ⟨k, h1⟩
  refine ⟨((d1.trans (Deg.of_abs h)).trans (normalize_deg x).symm).mono (by linarith), by linarith⟩

theorem rd_abs {A : Arith} {u : ℝ} (hA : Standard A u) (x : ℝ) : |A.rd x| ≤ 101 / 100 * |x| := by
  have h1 := hA.rd x
  have h2 := abs_add_le (A.rd x - x) x
  rw [sub_add_cancel] at h2
  have hs : u ≤ 1 / 1000000 := hA.small.trans (by norm_num)
  nlinarith [abs_nonneg x]

theorem epoch_near {A : Arith} {u : ℝ} (hA : Standard A u) {t : ℝ × ℝ} (ht : Near1992 t) :
    |A.rd (t.1 + 48622) - (t.1 + 48622)| ≤ 100000 * u ∧ |t.1 + 48622| ≤ 88622 ∧
    |A.rd (A.rd (A.rd (A.rd (t.1 + 48622) + t.2) - 51544.5) / 36525)
        - (t.1 + 48622 + t.2 - 51544.5) / 36525| ≤ 9 * u ∧
    |(t.1 + 48622 + t.2 - 51544.5) / 36525| ≤ 6 / 5 ∧
    |A.rd (A.rd (A.rd (A.rd (t.1 + 48622) + t.2) - 51544.5) / 36525)| ≤ 6 / 5 := by
  have hu := hA.nonneg
  have hs : u ≤ 1 / 1000000000 := hA.small.trans (by norm_num)
  obtain ⟨h1, h2⟩ := abs_le.mp ht.days
  obtain ⟨h3, h4⟩ := abs_le.mp ht.delta
  generalize t.1 = a at *
  generalize t.2 = d at *
  have b1 : |a + 48622| ≤ 88622 := abs_le.mpr ⟨by linarith, by linarith⟩
  have r1 := hA.rd (a + 48622)
  generalize A.rd (a + 48622) = m at *
  have c1 : |m - (a + 48622)| ≤ 100000 * u := by nlinarith
  obtain ⟨c1l, c1r⟩ := abs_le.mp c1
  have b2 : |m + d| ≤ 100000 := abs_le.mpr ⟨by linarith, by linarith⟩
  have r2 := hA.rd (m + d)
  generalize A.rd (m + d) = q at *
  have c2 : |q - (a + 48622 + d)| ≤ 200000 * u := by
    have : |q - (m + d)| ≤ 100000 * u := by nlinarith
    obtain ⟨x, y⟩ := abs_le.mp this
    exact abs_le.mpr ⟨by linarith, by linarith⟩
  obtain ⟨c2l, c2r⟩ := abs_le.mp c2
  have b3 : |q - 51544.5| ≤ 43000 := abs_le.mpr ⟨by norm_num at *; linarith, by norm_num at *; linarith⟩
  have r3 := hA.rd (q - 51544.5)
  generalize A.rd (q - 51544.5) = x at *
  have c3 : |x - (a + 48622 + d - 51544.5)| ≤ 243000 * u := by
    have : |x - (q - 51544.5)| ≤ 43000 * u := by nlinarith
    obtain ⟨y, z⟩ := abs_le.mp this
    exact abs_le.mpr ⟨by linarith, by linarith⟩
  obtain ⟨c3l, c3r⟩ := abs_le.mp c3
  have b4 : |x / 36525| ≤ 118 / 100 := abs_le.mpr
    ⟨by norm_num at *; linarith, by norm_num at *; linarith⟩
  have r4 := hA.rd (x / 36525)
  generalize A.rd (x / 36525) = y at *
  have c4 : |y - (a + 48622 + d - 51544.5) / 36525| ≤ 9 * u := by
    have : |y - x / 36525| ≤ 118 / 100 * u := by nlinarith
    obtain ⟨y1, y2⟩ := abs_le.mp this
    exact abs_le.mpr ⟨by linarith, by linarith⟩
  have b5 : |(a + 48622 + d - 51544.5) / 36525| ≤ 118 / 100 := abs_le.mpr
    ⟨by norm_num at *; linarith, by norm_num at *; linarith⟩
  refine ⟨c1, b1, c4, b5.trans (by norm_num), ?_⟩
  have := abs_add_le (y - (a + 48622 + d - 51544.5) / 36525) ((a + 48622 + d - 51544.5) / 36525)
  rw [sub_add_cancel] at this
  linarith

/-- A coefficient and its rounded value. -/
noncomputable def triple (A : Arith) (c : ℝ) : Triple := (A.rd c, c, |c|)

theorem triple_near {A : Arith} {u : ℝ} (hA : Standard A u) (l : List ℝ) :
    ∀ q ∈ l.map (triple A), |q.1 - q.2.1| ≤ 3 * u * q.2.2 ∧ |q.2.1| ≤ q.2.2 := by
  intro q hq
  obtain ⟨c, _, rfl⟩ := List.mem_map.mp hq
  have h := hA.rd c
  have := mul_nonneg hA.nonneg (abs_nonneg c)
  exact ⟨by show |A.rd c - c| ≤ 3 * u * |c|; linarith, le_refl _⟩

/-- The difference of two coefficients and its rounded value. -/
noncomputable def difference (A : Arith) (a b : ℝ) : Triple :=
  (A.rd (A.rd a - A.rd b), a - b, |a| + |b|)

theorem difference_near {A : Arith} {u : ℝ} (hA : Standard A u) (a b : ℝ) :
    |(difference A a b).1 - (difference A a b).2.1| ≤ 3 * u * (difference A a b).2.2 ∧
      |(difference A a b).2.1| ≤ (difference A a b).2.2 := by
  have hu := hA.nonneg
  have hs : u ≤ 1 / 1000000 := hA.small.trans (by norm_num)
  have h := (((Rel.self a).rd hA).sub ((Rel.self b).rd hA)).rd hA
  refine ⟨h.err.trans ?_, h.le⟩
  show _ ≤ 3 * u * (|a| + |b|)
  refine mul_le_mul_of_nonneg_right ?_ (by positivity)
  nlinarith

/-- The longitudes, each with its error. -/
theorem longitudes_near {A : Arith} {u : ℝ} (hA : Standard A u) {t : ℝ × ℝ} (ht : Near1992 t) :
    let l' := meanLongitudes A (A.rd (A.rd (t.1 + 48622) + t.2))
    let l := Astro.meanLongitudes .astro5 (t.1 + 48622 + t.2)
    (Deg (120000000 * u) l'.s l.s ∧ |l'.s| ≤ 720) ∧ (Deg (120000000 * u) l'.h l.h ∧ |l'.h| ≤ 720) ∧
    (Deg (120000000 * u) l'.p l.p ∧ |l'.p| ≤ 720) ∧ (Deg (120000000 * u) l'.n l.n ∧ |l'.n| ≤ 720) ∧
    (Deg (120000000 * u) l'.pp l.pp ∧ |l'.pp| ≤ 720) := by
  have hu := hA.nonneg
  have hs : u ≤ 1 / 1000000 := hA.small.trans (by norm_num)
  obtain ⟨-, -, e1, e2, e3⟩ := epoch_near hA ht
  intro l' l
  have poly : ∀ c : List ℝ, c.length ≤ 5 →
      |polynomialSum A (c.map A.rd) (A.rd (A.rd (A.rd (A.rd (t.1 + 48622) + t.2) - 51544.5) / 36525))
        - Math.polynomialSum c ((t.1 + 48622 + t.2 - 51544.5) / 36525)|
        ≤ 110 * u * (c.map abs).sum := by
    intro c hc
    have := polynomial_near hA e3 e2 e1 (c.map (triple A)) (by simpa using hc) (triple_near hA c)
    simp only [List.map_map] at this
    have k1 : ((fun q : Triple => q.1) ∘ triple A) = A.rd := rfl
    have k2 : ((fun q : Triple => q.2.1) ∘ triple A) = id := rfl
    have k3 : ((fun q : Triple => q.2.2) ∘ triple A) = abs := rfl
    rw [k1, k2, k3, List.map_id] at this
    exact this
  refine ⟨?_, ?_, ?_, ?_, ?_⟩
  · have h1 := npmod_deg hA (poly [218.3164477, 481267.88123421, -1.5786e-3, 1.855835e-6,
      -1.53388e-8] (by simp))
    refine ⟨h1.1.mono ?_, h1.2⟩
    simp only [List.map_cons, List.map_nil, List.sum_cons, List.sum_nil]
    norm_num [abs_of_pos, abs_of_neg]
    linarith
  · have h0 := polynomial_near hA e3 e2 e1 (List.zipWith (difference A)
      [218.3164477, 481267.88123421, -1.5786e-3, 1.855835e-6, -1.53388e-8]
      [297.8501921, 445267.1114034, -1.8819e-3, 1.83195e-6, -8.8445e-9]) (by simp) (by
        intro q hq
        simp only [List.zipWith_cons_cons, List.zipWith_nil_left, List.mem_cons, List.not_mem_nil,
          or_false] at hq
        rcases hq with rfl | rfl | rfl | rfl | rfl <;> exact difference_near hA _ _)
    have h1 := npmod_deg hA h0
    refine ⟨h1.1.mono ?_, h1.2⟩
    simp only [difference, List.zipWith_cons_cons, List.zipWith_nil_left, List.map_cons,
      List.map_nil, List.sum_cons, List.sum_nil]
    norm_num [abs_of_pos, abs_of_neg]
    linarith
  · have h1 := npmod_deg hA (poly [83.3532465, 4069.0137287, -1.032e-2, -1.249172e-5] (by simp))
    refine ⟨h1.1.mono ?_, h1.2⟩
    simp only [List.map_cons, List.map_nil, List.sum_cons, List.sum_nil]
    norm_num [abs_of_pos, abs_of_neg]
    linarith
  · have h1 := npmod_deg hA (poly [125.04452, -1934.136261, 2.0708e-3, 2.22222e-6] (by simp))
    refine ⟨h1.1.mono ?_, h1.2⟩
    simp only [List.map_cons, List.map_nil, List.sum_cons, List.sum_nil]
    norm_num [abs_of_pos, abs_of_neg]
    linarith
  · show Deg _ (A.rd (A.rd 282.94 + A.rd (A.rd 1.7192 * A.rd (A.rd (A.rd (A.rd (t.1 + 48622) + t.2)
      - 51544.5) / 36525)))) (282.94 + 1.7192 * ((t.1 + 48622 + t.2 - 51544.5) / 36525)) ∧ 
      |A.rd (A.rd 282.94 + A.rd (A.rd 1.7192 * A.rd (A.rd (A.rd (A.rd (t.1 + 48622) + t.2)
      - 51544.5) / 36525)))| ≤ 720
    generalize A.rd (A.rd (A.rd (A.rd (t.1 + 48622) + t.2) - 51544.5) / 36525) = y at *
    generalize (t.1 + 48622 + t.2 - 51544.5) / 36525 = x at *
    have r1 := hA.rd 282.94
    have r2 := hA.rd 1.7192
    rw [abs_of_pos (by norm_num : (0 : ℝ) < 282.94)] at r1
    rw [abs_of_pos (by norm_num : (0 : ℝ) < 1.7192)] at r2
    generalize A.rd 282.94 = a at *
    generalize A.rd 1.7192 = b at *
    have r3 := hA.rd (b * y)
    have b1 : |b| ≤ 2 := by
      obtain ⟨x1, x2⟩ := abs_le.mp r2
      exact abs_le.mpr ⟨by norm_num at *; linarith, by norm_num at *; linarith⟩
    have b2 : |b * y| ≤ 3 := by
      rw [abs_mul]
      nlinarith [abs_nonneg b, abs_nonneg y]
    generalize A.rd (b * y) = c at *
    have k1 : |b * y - 1.7192 * x| ≤ 30 * u := by
      have e : b * y - 1.7192 * x = b * (y - x) + (b - 1.7192) * x := by ring
      rw [e]
      refine (abs_add_le _ _).trans ?_
      rw [abs_mul, abs_mul]
      have m1 : |b| * |y - x| ≤ 2 * (9 * u) := mul_le_mul b1 e1 (abs_nonneg _) (by norm_num)
      have m2 : |b - 1.7192| * |x| ≤ u * 1.7192 * (6 / 5) :=
        mul_le_mul r2 e2 (abs_nonneg _) (by positivity)
      norm_num at m2
      linarith
    have k2 : |c - 1.7192 * x| ≤ 33 * u := by
      have := abs_sub_le c (b * y) (1.7192 * x)
      nlinarith
    have k3 : |a + c - (282.94 + 1.7192 * x)| ≤ 316 * u := by
      have e : a + c - (282.94 + 1.7192 * x) = (a - 282.94) + (c - 1.7192 * x) := by ring
      rw [e]
      refine (abs_add_le _ _).trans ?_
      norm_num at r1 k2 ⊢
      linarith
    have b3 : |a + c| ≤ 300 := by
      obtain ⟨x1, x2⟩ := abs_le.mp k3
      obtain ⟨x3, x4⟩ := abs_le.mp e2
      exact abs_le.mpr ⟨by norm_num at *; linarith, by norm_num at *; linarith⟩
    have r4 := hA.rd (a + c)
    refine ⟨Deg.of_abs ?_, (rd_abs hA _).trans (by linarith)⟩
    have := abs_sub_le (A.rd (a + c)) (a + c) (282.94 + 1.7192 * x)
    nlinarith

/-- The arguments, each with its error. -/
theorem fargs_near {A : Arith} {u : ℝ} (hA : Standard A u) {t : ℝ × ℝ} (ht : Near1992 t)
    (corr : String) (hcorr : Predict.usesParameters corr = false) :
    List.Forall₂ (Deg (300000000 * u)) (fargs A t.2 (A.rd (t.1 + 48622)))
      (Astro.fargs corr t.2 (t.1 + 48622)) ∧
    ∀ x ∈ fargs A t.2 (A.rd (t.1 + 48622)), |x| ≤ 2500 := by
  have hu := hA.nonneg
  have hs : u ≤ 1 / 1000000 := hA.small.trans (by norm_num)
  obtain ⟨⟨s1, s2⟩, ⟨h1, h2⟩, ⟨p1, p2⟩, ⟨n1, n2⟩, ⟨q1, q2⟩⟩ := longitudes_near hA ht
  obtain ⟨m1, m2, -⟩ := epoch_near hA ht
  have hmode : Astro.modeOf corr = .astro5 := by
    have : Astro.otisType corr = false := by
      simpa [Astro.otisType, Predict.usesParameters] using hcorr
    rw [Astro.modeOf, this]
    rfl
  simp only [fargs, Astro.fargs, hmode]
  generalize meanLongitudes A (A.rd (A.rd (t.1 + 48622) + t.2)) = l' at *
  generalize Astro.meanLongitudes .astro5 (t.1 + 48622 + t.2) = l at *
  generalize t.1 + 48622 = M at *
  generalize A.rd M = M' at *
  obtain ⟨k, k1, k2⟩ := npmod_near hA M' 1 one_pos
  generalize npmod A M' 1 = w at *
  have r1 := hA.rd (24 * w)
  have a1 : |24 * w| ≤ 48 := by rw [abs_mul]; norm_num; linarith
  generalize A.rd (24 * w) = v at *
  have c1 : |v - 24 * w| ≤ 48 * u := by nlinarith
  have a2 : |15 * v| ≤ 735 := by
    obtain ⟨x1, x2⟩ := abs_le.mp c1
    obtain ⟨x3, x4⟩ := abs_le.mp a1
    exact abs_le.mpr ⟨by linarith, by linarith⟩
  have r2 := hA.rd (15 * v)
  have a3 := rd_abs hA (15 * v)
  generalize A.rd (15 * v) = y at *
  have c2 : |y - 15 * v| ≤ 735 * u := by nlinarith
  have d1 : Deg (40000000 * u) y (15 * (24 * Num.fmod M 1)) := by
    refine ⟨k + ⌊M / 1⌋, ?_⟩
    rw [Num.fmod]
    obtain ⟨x1, x2⟩ := abs_le.mp c1
    obtain ⟨x3, x4⟩ := abs_le.mp c2
    obtain ⟨x5, x6⟩ := abs_le.mp k1
    obtain ⟨x7, x8⟩ := abs_le.mp m1
    push_cast
    exact abs_le.mpr ⟨by linarith, by linarith⟩
  have b1 : |y - l'.s| ≤ 1500 := by
    have := abs_sub y l'.s
    linarith
  have r3 := hA.rd (y - l'.s)
  have a4 := rd_abs hA (y - l'.s)
  generalize A.rd (y - l'.s) = z at *
  have b2 : |z + l'.h| ≤ 2300 := by
    have := abs_add_le z l'.h
    linarith
  have r4 := hA.rd (z + l'.h)
  have a5 := rd_abs hA (z + l'.h)
  generalize A.rd (z + l'.h) = τ at *
  have d2 : Deg (300000000 * u) τ (15 * (24 * Num.fmod M 1) - l.s + l.h) := by
    have f1 : Deg (2300 * u) τ (z + l'.h) := Deg.of_abs (by nlinarith)
    have f2 : Deg (1500 * u) z (y - l'.s) := Deg.of_abs (by nlinarith)
    have := f1.trans ((f2.trans (d1.sub s1)).add h1)
    exact this.mono (by linarith)
  have big : (120000000 : ℝ) * u ≤ 300000000 * u := by linarith
  refine ⟨.cons d2 (.cons (s1.mono big) (.cons (h1.mono big) (.cons (p1.mono big)
    (.cons (n1.mono big) (.cons (q1.mono big) (.cons (Deg.of_abs (by simp; positivity)) .nil)))))),
    ?_⟩
  intro x hx
  simp only [List.mem_cons, List.not_mem_nil, or_false] at hx
  rcases hx with rfl | rfl | rfl | rfl | rfl | rfl | rfl
  · linarith
  · linarith
  · linarith
  · linarith
  · linarith
  · linarith
  · norm_num

end Verif.Rounded
