import Verif.Model.MinorArguments
import Verif.Spec.Minor
import Verif.Props.Minor
import Verif.Props.NodalRange
import Verif.Props.Arguments
import Verif.Props.Infer

/-!
# C98: minor constituents, inferred and predicted
-/

namespace Verif.Nodal

open Real Spec.Minor

/-! ## Modulations -/

theorem phasor_polar {uf : ℝ × ℝ} {z : ℂ} (h : IsPolar uf z) : phasor uf = z := by
  unfold phasor
  rw [h.1, h.2]
  exact Complex.norm_mul_exp_arg_mul_I z

theorem polar_ext {a b : ℝ × ℝ} {z : ℂ} (ha : IsPolar a z) (hb : IsPolar b z) : a = b :=
  Prod.ext (ha.2.trans hb.2.symm) (ha.1.trans hb.1.symm)

theorem terms_polar (s : List Term) (c0 : ℚ) (c : List Term) (n p : ℝ) :
    IsPolar ((Rule.terms s c0 c).eval n p) (vec s c0 c n p) :=
  ⟨(vec_norm s c0 c n p).symm, rfl⟩

/-- The side lines of the columns from the fourth on, as series. -/
def minorTerms (got : Bool) : ℕ → List Term × List Term
  | 3 => ([⟨0.185, 1, 0⟩], [⟨0.185, 1, 0⟩])
  | 4 => ([⟨-0.201, 1, 0⟩], [⟨0.201, 1, 0⟩])
  | 5 => ([⟨-0.221, 1, 0⟩], [⟨0.221, 1, 0⟩])
  | 9 => ([⟨-0.198, 1, 0⟩], [⟨0.198, 1, 0⟩])
  | 10 => ([⟨-0.640, 1, 0⟩, ⟨-0.134, 2, 0⟩], [⟨0.640, 1, 0⟩, ⟨0.134, 2, 0⟩])
  | 11 | 12 | 13 | 15 => ([⟨-0.0373, 1, 0⟩], [⟨-0.0373, 1, 0⟩])
  | 16 => ([⟨-0.441, 1, 0⟩], [⟨0.441, 1, 0⟩])
  | 18 => if got then ([⟨-0.0373, 1, 0⟩], [⟨-0.0373, 1, 0⟩]) else ([], [])
  | 19 => if got then ([⟨-0.436, 1, 0⟩], [⟨0.436, 1, 0⟩]) else ([], [])
  | _ => ([], [])

theorem vec_one (a b : ℚ) (n p : ℝ) : vec [⟨a, 1, 0⟩] 1 [⟨b, 1, 0⟩] n p =
    ⟨1 + b * cos (n * dtr), a * sin (n * dtr)⟩ := by
  unfold vec sinSum cosSum
  simp

theorem vec_two (a b a' b' : ℚ) (n p : ℝ) :
    vec [⟨a, 1, 0⟩, ⟨a', 2, 0⟩] 1 [⟨b, 1, 0⟩, ⟨b', 2, 0⟩] n p =
    ⟨1 + (b * cos (n * dtr) + b' * cos (2 * n * dtr)), a * sin (n * dtr) + a' * sin (2 * n * dtr)⟩ := by
  unfold vec sinSum cosSum
  simp

theorem vec_nil (n p : ℝ) : vec [] 1 [] n p = 1 := by
  unfold vec sinSum cosSum
  simp; rfl

theorem base_polar (n p : ℝ) (k : ℕ) (hk : 3 ≤ k) :
    IsPolar (minorBase n k) (vec (minorTerms false k).1 1 (minorTerms false k).2 n p) := by
  have one : IsPolar (0, 1) (1 : ℂ) := ⟨by simp, by simp⟩
  by_cases h20 : k < 20
  · interval_cases k <;> simp only [minorBase, minorTerms, Bool.false_eq_true, if_false, vec_nil, one]
    all_goals first
      | rw [vec_one]
      | rw [vec_two]
    all_goals refine isPolar_mk rfl ?_ ?_
    all_goals simp only [Rat.cast_neg, Rat.cast_ofScientific]
    all_goals first
      | rfl
      | (refine congrArg Real.sqrt ?_; ring)
      | (refine congrArg₂ arctan2 ?_ ?_ <;> ring)
  · obtain ⟨m, rfl⟩ : ∃ m, k = m + 20 := ⟨k - 20, by omega⟩
    simp only [minorBase, minorTerms, vec_nil, one]

theorem minor_polar (corrections : String) (hc : corrections ≠ "FES") (n p : ℝ) (k : ℕ)
    (hk : 3 ≤ k) : IsPolar (minor corrections n p k)
      (vec (minorTerms (corrections == "GOT") k).1 1 (minorTerms (corrections == "GOT") k).2 n p) := by
  unfold minor
  rw [if_neg hc]
  by_cases hg : corrections = "GOT"
  · rw [if_pos hg, hg]
    by_cases h18 : k = 18
    · subst h18; exact base_polar n p 11 (by omega)
    by_cases h19 : k = 19
    · subst h19
      have h := polar_eta2 n
      have e : Spec.modulation [(0.436, -1)] n =
          vec [⟨-0.436, 1, 0⟩] 1 [⟨0.436, 1, 0⟩] n p := by
        rw [modulation_eq, vec_one]
        apply Complex.ext <;> simp <;> norm_num
      rw [e] at h
      exact h
    · have e1 : minorGot n k = none := by
        unfold minorGot
        split <;> first | omega | rfl
      have e2 : minorTerms ("GOT" == "GOT") k = minorTerms false k := by
        unfold minorTerms
        split <;> first | omega | rfl
      rw [e1, e2]
      exact base_polar n p k hk
  · rw [if_neg hg, (by simpa using hg : (corrections == "GOT") = false)]
    exact base_polar n p k hk

/-! ## Differences of series -/

/-- The series with the opposite sign. -/
def negated (l : List Term) : List Term := l.map fun t => ⟨-t.a, t.i, t.j⟩

theorem sinSum_append (a b : List Term) (n p : ℝ) : sinSum (a ++ b) n p = sinSum a n p + sinSum b n p := by
  simp [sinSum]

theorem cosSum_append (a b : List Term) (n p : ℝ) : cosSum (a ++ b) n p = cosSum a n p + cosSum b n p := by
  simp [cosSum]

theorem sinSum_neg (n p : ℝ) : ∀ a : List Term, sinSum (negated a) n p = -sinSum a n p
  | [] => by simp [sinSum, negated]
  | t :: a => by
    have h := sinSum_neg n p a
    simp only [sinSum, negated, List.map_cons, List.sum_cons] at h ⊢
    rw [h]; push_cast; ring

theorem cosSum_neg (n p : ℝ) : ∀ a : List Term, cosSum (negated a) n p = -cosSum a n p
  | [] => by simp [cosSum, negated]
  | t :: a => by
    have h := cosSum_neg n p a
    simp only [cosSum, negated, List.map_cons, List.sum_cons] at h ⊢
    rw [h]; push_cast; ring

theorem vec_sub (s s' c c' : List Term) (c0 c0' : ℚ) (n p : ℝ) :
    vec s c0 c n p - vec s' c0' c' n p = vec (s ++ negated s') (c0 - c0') (c ++ negated c') n p := by
  unfold vec
  apply Complex.ext
  · simp only [Complex.sub_re, cosSum_append, cosSum_neg]; push_cast; ring
  · simp only [Complex.sub_im, sinSum_append, sinSum_neg]; ring

/-- The distance of the modulations of two series is at most `e`. -/
def nearBy (e : ℚ) (a b : List Term × List Term) (c0 : ℚ) : Bool :=
  let s := a.1 ++ negated b.1
  let c := a.2 ++ negated b.2
  let K := keys s c
  keysOk s c K && decide (|1 - c0| + spread s c K ≤ e)

theorem nearBy_vec {e : ℚ} {a b : List Term × List Term} {c0 : ℚ} (h : nearBy e a b c0 = true)
    (n p : ℝ) : ‖vec a.1 1 a.2 n p - vec b.1 c0 b.2 n p‖ ≤ (e : ℝ) := by
  simp only [nearBy, Bool.and_eq_true, decide_eq_true_eq] at h
  rw [vec_sub]
  refine le_trans (vec_le _ _ _ n p _ h.1) ?_
  exact_mod_cast h.2

/-! ## The rules of the constituents -/

/-- The settings of a convention. -/
def kindCfg (m : M1) : Kind → Cfg
  | .otis => ⟨true, false, false, m⟩
  | .got => ⟨false, false, false, m⟩
  | .fes => ⟨false, true, false, m⟩

theorem cfg_kind (kind : Kind) (corrections m1 : String) (h : corrections ∈ kind.keywords) :
    Cfg.ofKwargs corrections m1 = kindCfg (Cfg.ofKwargs corrections m1).m1 kind := by
  cases kind <;> simp only [Kind.keywords, List.mem_cons, List.not_mem_nil, or_false] at h
  · rcases h with rfl | rfl | rfl | rfl <;> rfl
  · subst h; rfl
  · subst h; rfl

/-- The modulation of a series rule is near that of the column. -/
def ruleNear (kind : Kind) (m : M1) (k : ℕ) (c : String) (e : ℚ) : Bool :=
  match rule (kindCfg m kind) c with
  | .terms s c0 t => nearBy e (minorTerms (kind == .got) k) (s, t) c0
  | _ => false

/-- The rows of a table of bounds with their columns, from the fourth on. -/
def numbered (l : List (String × ℚ)) : List (ℕ × String × ℚ) :=
  l.map fun q => (inferred.idxOf q.1, q)

theorem rules_near (m : M1) : ∀ kind, kind ≠ .fes → ∀ q ∈ numbered (bounds kind), 3 ≤ q.1 →
    ruleNear kind m q.1 q.2.1 q.2.2 = true := by
  intro kind hk
  cases kind
  · cases m <;> decide +kernel
  · cases m <;> decide +kernel
  · exact absurd rfl hk

/-! ## The constituents near q1 -/

/-- A modulation with the modulus of one number and the argument of another. -/
theorem phasor_mixed (v w : ℂ) : ‖phasor (Complex.arg v, ‖w‖) - v‖ ≤ ‖v - w‖ := by
  have h1 : phasor (Complex.arg v, ‖w‖) - v =
      ((‖w‖ - ‖v‖ : ℝ) : ℂ) * Complex.exp (Complex.arg v * Complex.I) := by
    have e := Complex.norm_mul_exp_arg_mul_I v
    unfold phasor
    push_cast
    linear_combination e
  rw [h1, norm_mul, Complex.norm_exp_ofReal_mul_I, mul_one, Complex.norm_real, Real.norm_eq_abs,
    norm_sub_rev v w]
  exact abs_norm_sub_norm_le w v

theorem phasor_mixed_le (v w : ℂ) : ‖phasor (Complex.arg v, ‖w‖) - w‖ ≤ 2 * ‖v - w‖ := by
  have h2 := phasor_mixed v w
  rw [← sub_add_sub_cancel _ v w]
  refine le_trans (norm_add_le _ _) ?_
  linarith

/-- The modulation of 2q1 written out. -/
noncomputable def q1Vec (n : ℝ) : ℂ :=
  vec [⟨0.189, 1, 0⟩, ⟨-0.0058, 2, 0⟩] 1 [⟨0.189, 1, 0⟩, ⟨-0.0058, 2, 0⟩] n 0

theorem minor_q1 (corrections : String) (hc : corrections ≠ "FES") (n p : ℝ) (k : ℕ) (hk : k < 3) :
    ‖phasor (minor corrections n p k) - q1Vec n‖ ≤ 0.0165 := by
  have e : minor corrections n p k = minorBase n 0 := by
    unfold minor
    rw [if_neg hc]
    interval_cases k <;> simp only [minorGot, Option.getD_none, ite_self, minorBase]
  obtain ⟨v, hv⟩ : ∃ v : ℂ, v = ⟨1 + 0.189 * cos (n * dtr) - 0.0058 * sin (2 * n * dtr),
    0.189 * sin (n * dtr) - 0.0058 * sin (2 * n * dtr)⟩ := ⟨_, rfl⟩
  have hw : q1Vec n = ⟨1 + 0.189 * cos (n * dtr) - 0.0058 * cos (2 * n * dtr),
      0.189 * sin (n * dtr) - 0.0058 * sin (2 * n * dtr)⟩ := by
    rw [q1Vec, vec_two]
    simp only [Rat.cast_neg, Rat.cast_ofScientific]
    apply Complex.ext
    · simp only; ring
    · simp only; ring
  have e2 : minorBase n 0 = (Complex.arg v, ‖q1Vec n‖) := by
    rw [hv, hw, Complex.norm_def, Complex.normSq_mk]
    unfold minorBase arctan2
    refine Prod.ext rfl ?_
    simp only
    refine congrArg Real.sqrt ?_
    ring
  rw [e, e2]
  refine le_trans (phasor_mixed_le v (q1Vec n)) ?_
  have d : v - q1Vec n = ((0.0058 * (cos (2 * n * dtr) - sin (2 * n * dtr)) : ℝ) : ℂ) := by
    rw [hv, hw]
    apply Complex.ext
    · simp only [Complex.sub_re, Complex.ofReal_re]; ring
    · simp only [Complex.sub_im, Complex.ofReal_im]; ring
  rw [d, Complex.norm_real, Real.norm_eq_abs, abs_mul]
  have hs : |cos (2 * n * dtr) - sin (2 * n * dtr)| ≤ 1.4143 := by
    refine abs_le_of_sq_le_sq ?_ (by norm_num)
    nlinarith [sin_sq_add_cos_sq (2 * n * dtr), sq_nonneg (cos (2 * n * dtr) + sin (2 * n * dtr))]
  rw [abs_of_pos (by norm_num : (0 : ℝ) < 0.0058)]
  linarith

/-- The tangent form of an argument. -/
theorem arctan_arg {x y : ℝ} (hx : 0 < x) : arctan (y / x) = Complex.arg ⟨x, y⟩ := by
  rw [Complex.arg_of_re_nonneg hx.le, arctan_eq_arcsin]
  congr 1
  show _ = y / ‖(⟨x, y⟩ : ℂ)‖
  rw [Complex.norm_def, Complex.normSq_mk, show x * x + y * y = x ^ 2 * (1 + (y / x) ^ 2) by
    field_simp, sqrt_mul (sq_nonneg _), sqrt_sq hx.le, div_div]

theorem qOtis_near (n p : ℝ) :
    ‖phasor ((Rule.qOtis 0.188 0.189).eval n p) - q1Vec n‖ ≤ 0.0075 := by
  have e : (Rule.qOtis 0.188 0.189).eval n p =
      (Complex.arg (vec [⟨0.189, 1, 0⟩] 1 [⟨0.189, 1, 0⟩] n 0),
        ‖vec [⟨0.188, 1, 0⟩] 1 [⟨0.188, 1, 0⟩] n 0‖) := by
    rw [vec_one, vec_one, Complex.norm_def, Complex.normSq_mk]
    unfold Rule.eval
    refine Prod.ext ?_ ?_
    · simp only
      refine arctan_arg ?_
      have := neg_one_le_cos (n * dtr)
      norm_num
      linarith
    · simp only
      refine congrArg Real.sqrt ?_
      ring
  rw [e]
  have h1 := phasor_mixed (vec [⟨0.189, 1, 0⟩] 1 [⟨0.189, 1, 0⟩] n 0)
    (vec [⟨0.188, 1, 0⟩] 1 [⟨0.188, 1, 0⟩] n 0)
  have h2 := nearBy_vec (e := 0.001) (a := ([⟨0.189, 1, 0⟩], [⟨0.189, 1, 0⟩]))
    (b := ([⟨0.188, 1, 0⟩], [⟨0.188, 1, 0⟩])) (c0 := 1) (by decide +kernel) n 0
  have h3 := nearBy_vec (e := 0.0058) (a := ([⟨0.189, 1, 0⟩], [⟨0.189, 1, 0⟩]))
    (b := ([⟨0.189, 1, 0⟩, ⟨-0.0058, 2, 0⟩], [⟨0.189, 1, 0⟩, ⟨-0.0058, 2, 0⟩])) (c0 := 1)
    (by decide +kernel) n 0
  simp only [Rat.cast_ofScientific] at h2 h3
  rw [← sub_add_sub_cancel _ (vec [⟨0.189, 1, 0⟩] 1 [⟨0.189, 1, 0⟩] n 0) (q1Vec n)]
  refine le_trans (norm_add_le _ _) ?_
  unfold q1Vec
  linarith

theorem q1_near (m : M1) (kind : Kind) (hk : kind ≠ .fes) (c : String)
    (hc : c ∈ ["2q1", "sigma1", "rho1"]) (n p : ℝ) :
    ‖phasor ((rule (kindCfg m kind) c).eval n p) - q1Vec n‖ ≤ 0.0075 := by
  cases kind
  · have hr : ∀ c ∈ ["2q1", "sigma1", "rho1"], rule (kindCfg m .otis) c = .qOtis 0.188 0.189 := by
      cases m <;> decide +kernel
    rw [hr c hc]
    exact qOtis_near n p
  · have hr : ∀ c ∈ ["2q1", "sigma1", "rho1"], rule (kindCfg m .got) c =
        .terms [⟨0.1886, 1, 0⟩] 1 [⟨0.1886, 1, 0⟩] := by
      cases m <;> decide +kernel
    rw [hr c hc, phasor_polar (terms_polar _ _ _ n p)]
    have h := nearBy_vec (e := 0.0062) (a := ([⟨0.1886, 1, 0⟩], [⟨0.1886, 1, 0⟩]))
      (b := ([⟨0.189, 1, 0⟩, ⟨-0.0058, 2, 0⟩], [⟨0.189, 1, 0⟩, ⟨-0.0058, 2, 0⟩])) (c0 := 1)
      (by decide +kernel) n 0
    have e : vec [⟨0.1886, 1, 0⟩] 1 [⟨0.1886, 1, 0⟩] n p = vec [⟨0.1886, 1, 0⟩] 1 [⟨0.1886, 1, 0⟩] n 0 := by
      rw [vec_one, vec_one]
    simp only [Rat.cast_ofScientific] at h
    rw [e]
    unfold q1Vec
    linarith
  · exact absurd rfl hk

/-! ## FES -/

theorem fes_same (m : M1) (n p : ℝ) : ∀ q ∈ numbered (bounds .fes), q.2.2 = 0 →
    minor "FES" n p q.1 = (rule (kindCfg m .fes) q.2.1).eval n p := by
  have hr : ∀ q ∈ numbered (bounds .fes), q.2.2 = 0 → (q.1, rule (kindCfg m .fes) q.2.1) ∈
      [(0, .fes .o1), (1, .fes .o1), (2, .fes .o1), (5, .fes .j1), (6, .terms [] 1 []),
        (7, .terms [] 1 []), (9, .fes .j1), (10, .fes .oo1), (11, .fes .m2), (12, .fes .m2),
        (13, .fes .m2), (14, .fes .m2), (15, .fes .l2), (17, .terms [] 1 []), (18, .fes .m2),
        (19, .fes .eta2)] := by
    cases m <;> decide +kernel
  intro q hq h0
  have h := hr q hq h0
  obtain ⟨k, c, e⟩ := q
  dsimp only at h ⊢
  generalize rule (kindCfg m .fes) c = r at h
  have one : (0, (1 : ℝ)) = (Rule.terms [] 1 []).eval n p := by
    refine polar_ext (z := vec [] 1 [] n p) ?_ (terms_polar _ _ _ n p)
    rw [vec_nil]; exact ⟨by simp, by simp⟩
  simp only [List.mem_cons, Prod.mk.injEq, List.not_mem_nil, or_false] at h
  unfold minor
  rw [if_pos rfl]
  rcases h with ⟨rfl, rfl⟩ | ⟨rfl, rfl⟩ | ⟨rfl, rfl⟩ | ⟨rfl, rfl⟩ | ⟨rfl, rfl⟩ | ⟨rfl, rfl⟩ |
    ⟨rfl, rfl⟩ | ⟨rfl, rfl⟩ | ⟨rfl, rfl⟩ | ⟨rfl, rfl⟩ | ⟨rfl, rfl⟩ | ⟨rfl, rfl⟩ | ⟨rfl, rfl⟩ |
    ⟨rfl, rfl⟩ | ⟨rfl, rfl⟩ | ⟨rfl, rfl⟩ <;>
    first
      | rfl
      | exact one
      | skip
  show (_, _) = (_, _)
  refine Prod.ext rfl ?_
  simp only
  ring

end Verif.Nodal

namespace Verif.Astro

open Real Spec.Minor Nodal

/-! ## Columns -/

theorem inferred_nodup : inferred.Nodup := by decide +kernel

theorem bounds_mem : ∀ kind, ∀ q ∈ bounds kind, q.1 ∈ inferred ∧ q.1 ≠ "m1" := by
  intro kind; cases kind <;> decide +kernel

theorem minorTable_eq : ∃ rows, minorTable = .ok rows ∧ rows.length = 20 ∧
    ∀ k < 20, k ≠ 4 → ∀ c, inferred[k]? = some c → Coef.table.lookup c = rows[k]? := by
  refine ⟨minorNames.map fun c => (Coef.table.lookup c).getD [], ?_, rfl, ?_⟩
  · unfold minorTable coefficients
    refine pyMap_ok_of_forall ?_
    have h : ∀ c ∈ minorNames, (Coef.lookup true c) = some ((Coef.table.lookup c).getD []) := by
      decide +kernel
    intro c hc
    unfold row
    rw [show otisType "OTIS" = true from rfl, h c hc]
  · have h : ∀ k < 20, k ≠ 4 → Coef.table.lookup (inferred.getD k "") =
        (minorNames.map fun c => (Coef.table.lookup c).getD [])[k]? := by decide +kernel
    intro k hk h4 c hc
    rw [← h k hk h4, List.getD_eq_getElem?_getD, hc]
    rfl

theorem row_eq (corrections c : String) (hc : c ≠ "s1") {r : List ℤ}
    (h : Coef.table.lookup c = some r) : row corrections c = .ok r := by
  unfold row Coef.lookup
  rw [if_neg (by simp [hc]), h]

theorem minorArguments_eq (corrections : String) (deltat MJD : ℝ) {rows : List (List ℤ)}
    (h : minorTable = .ok rows) : minorArguments corrections deltat MJD =
      .ok ((List.range 20).map (minor corrections
          (meanLongitudes (modeOf corrections) (MJD + deltat)).n
          (meanLongitudes (modeOf corrections) (MJD + deltat)).p),
        rows.map (dot (fargs corrections deltat MJD))) := by
  unfold minorArguments
  rw [h]
  rfl

theorem arguments_one (corrections m1 : String) (deltat MJD : ℝ) (c : String) {r : List ℤ}
    (h : row corrections c = .ok r) : arguments corrections m1 deltat MJD [c] =
      .ok ([one (Cfg.ofKwargs corrections m1)
          (meanLongitudes (modeOf corrections) (MJD + deltat)).n
          (meanLongitudes (modeOf corrections) (MJD + deltat)).p c],
        [dot (fargs corrections deltat MJD) r]) := by
  have hc : coefficients corrections [c] = .ok [r] := by
    unfold coefficients
    simp only [pyMap, h]
  unfold arguments
  rw [hc, ok_bind]
  dsimp only
  rw [nodal_eq _ _ _ 0]
  rfl

/-! ## The property -/

theorem plain_rules (m : M1) : ∀ kind, ∀ q ∈ bounds kind, (rule (kindCfg m kind) q.1).plain = true := by
  intro kind
  cases kind <;> cases m <;> decide +kernel

theorem modulations_near (kind : Kind) (corrections m1 : String) (h : corrections ∈ kind.keywords)
    (n p : ℝ) (k : ℕ) (c : String) (hk : inferred[k]? = some c) (e : ℚ) (he : (c, e) ∈ bounds kind) :
    ‖phasor (minor corrections n p k) - phasor (one (Cfg.ofKwargs corrections m1) n p c)‖ ≤ (e : ℝ) ∧
      (e = 0 → minor corrections n p k = one (Cfg.ofKwargs corrections m1) n p c) := by
  have hcfg := cfg_kind kind corrections m1 h
  generalize (Cfg.ofKwargs corrections m1).m1 = m at hcfg
  rw [hcfg, one_plain _ _ _ (plain_rules m kind _ he)]
  have hidx : inferred.idxOf c = k := by
    have hall : ∀ k < 20, inferred.idxOf (inferred.getD k "") = k := by decide +kernel
    have hlt : k < 20 := (List.getElem?_eq_some_iff.mp hk).1
    have := hall k hlt
    rwa [List.getD_eq_getElem?_getD, hk] at this
  have hnum : (k, c, e) ∈ numbered (bounds kind) := by
    unfold numbered
    rw [List.mem_map]
    exact ⟨(c, e), he, by rw [hidx]⟩
  by_cases hf : kind = .fes ∧ e = 0
  · obtain ⟨rfl, rfl⟩ := hf
    have hcorr : corrections = "FES" := by simpa [Kind.keywords] using h
    subst hcorr
    have := fes_same m n p _ hnum rfl
    dsimp only at this
    rw [this]
    simp
  by_cases hfes : kind = .fes
  · subst hfes
    have hcorr : corrections = "FES" := by simpa [Kind.keywords] using h
    subst hcorr
    have hone : ∀ q ∈ numbered (bounds .fes), q.2.2 ≠ 0 → q = (16, "l2b", 0.882) := by decide +kernel
    have e0 : e ≠ 0 := fun h0 => hf ⟨rfl, h0⟩
    have := hone _ hnum e0
    simp only [Prod.mk.injEq] at this
    obtain ⟨rfl, rfl, rfl⟩ := this
    refine ⟨?_, fun h0 => absurd h0 e0⟩
    have hr : rule (kindCfg m .fes) "l2b" = .terms [⟨0.441, 1, 0⟩] 1 [⟨0.441, 1, 0⟩] := by
      cases m <;> decide +kernel
    have hb : minor "FES" n p 16 = minorBase n 16 := rfl
    rw [hr, phasor_polar (terms_polar _ _ _ n p), hb, phasor_polar (base_polar n p 16 (by omega))]
    exact nearBy_vec (e := 0.882) (a := minorTerms false 16)
      (b := ([⟨0.441, 1, 0⟩], [⟨0.441, 1, 0⟩])) (c0 := 1) (by decide +kernel) n p
  have hcorr : corrections ≠ "FES" := by
    rintro rfl
    cases kind <;> simp [Kind.keywords] at h hfes
  have hgot : (corrections == "GOT") = (kind == .got) := by
    cases kind <;> simp only [Kind.keywords, List.mem_cons, List.not_mem_nil, or_false] at h
    · rcases h with rfl | rfl | rfl | rfl <;> rfl
    · subst h; rfl
    · exact absurd rfl hfes
  by_cases hk3 : k < 3
  · have hq : ∀ kind ≠ Kind.fes, ∀ q ∈ numbered (bounds kind), q.1 < 3 →
        q.2.1 ∈ ["2q1", "sigma1", "rho1"] ∧ q.2.2 = 0.024 := by
      intro kind; cases kind <;> decide +kernel
    obtain ⟨hc, h2⟩ := hq kind hfes _ hnum hk3
    dsimp only at hc h2
    subst h2
    refine ⟨?_, fun h0 => absurd h0 (by norm_num)⟩
    have h3 := minor_q1 corrections hcorr n p k hk3
    have h4 := q1_near m kind hfes c hc n p
    rw [norm_sub_rev] at h4
    rw [← sub_add_sub_cancel _ (q1Vec n) _]
    refine le_trans (norm_add_le _ _) ?_
    simp only [Rat.cast_ofScientific]
    linarith
  · have hn := rules_near m kind hfes _ hnum (by omega)
    dsimp only at hn
    unfold ruleNear at hn
    split at hn
    case h_2 => exact absurd hn (by simp)
    case h_1 s c0 t hr =>
      have hb := minor_polar corrections hcorr n p k (by omega)
      rw [hgot] at hb
      have ht := terms_polar s c0 t n p
      have hd := nearBy_vec hn n p
      rw [hr, phasor_polar hb, phasor_polar ht]
      refine ⟨hd, fun h0 => ?_⟩
      rw [h0, Rat.cast_zero] at hd
      have := sub_eq_zero.1 (norm_le_zero_iff.1 hd)
      rw [this] at hb
      exact polar_ext hb ht

/-- C98: the minor arguments have a column for each constituent that may be inferred.  In each column
the phase is that which the arguments of the constituent give (m1 excepted, `C98_m1_false`), the
modulation is as far from theirs as the table of bounds says, and where that is zero, angle and factor
are the same. -/
theorem C98_arguments_partial (kind : Kind) (corrections m1 : String)
    (h : corrections ∈ kind.keywords) (deltat MJD : ℝ) (k : ℕ) (c : String)
    (hk : inferred[k]? = some c) (e : ℚ) (he : (c, e) ∈ bounds kind) :
    ∃ uf G x g, minorArguments corrections deltat MJD = .ok (uf, G) ∧
      uf.length = inferred.length ∧ G.length = inferred.length ∧
      arguments corrections m1 deltat MJD [c] = .ok ([x], [g]) ∧
      G[k]? = some g ∧ ∃ y, uf[k]? = some y ∧
        ‖phasor y - phasor x‖ ≤ (e : ℝ) ∧ (e = 0 → y = x) := by
  obtain ⟨rows, hrows, hlen, hsame⟩ := minorTable_eq
  have hlt : k < 20 := (List.getElem?_eq_some_iff.mp hk).1
  have hm1 := (bounds_mem kind _ he).2
  have h4 : k ≠ 4 := by
    rintro rfl
    exact hm1 (Option.some.inj hk).symm
  have hl := hsame k hlt h4 c hk
  obtain ⟨r, hr⟩ : ∃ r, rows[k]? = some r := ⟨_, List.getElem?_eq_getElem (by omega)⟩
  rw [hr] at hl
  have hs1 : c ≠ "s1" := by
    have : ∀ c ∈ inferred, c ≠ "s1" := by decide +kernel
    exact this c (List.mem_of_getElem? hk)
  refine ⟨_, _, _, _, minorArguments_eq corrections deltat MJD hrows, by simp [inferred],
    by simp [inferred, hlen], arguments_one corrections m1 deltat MJD c (row_eq corrections c hs1 hl),
    by rw [List.getElem?_map, hr]; rfl, _, ?_, modulations_near kind corrections m1 h _ _ k c hk e he⟩
  rw [List.getElem?_map, List.getElem?_range hlt]
  rfl

example : "ATLAS" ∈ Kind.keywords .otis ∧ inferred[13]? = some "nu2" ∧
    ("nu2", (0.0006 : ℚ)) ∈ bounds .otis := by decide +kernel

/-! ## Inferred and predicted tides -/

theorem height_near (y x : ℝ × ℝ) (G : ℝ) (z : ℂ) {e : ℝ} (h : ‖phasor y - phasor x‖ ≤ e) :
    |Spec.tide [⟨y.2, G * π / 180 + y.1, z⟩] - Spec.tide [⟨x.2, G * π / 180 + x.1, z⟩]| ≤ e * ‖z‖ := by
  have one : ∀ q : ℝ × ℝ, Spec.tide [⟨q.2, G * π / 180 + q.1, z⟩] =
      (z * Complex.exp ((G * π / 180 : ℝ) * Complex.I) * phasor q).re := by
    intro q
    unfold Spec.tide Spec.Wave.height phasor
    simp only [List.map_cons, List.map_nil, List.sum_cons, List.sum_nil, add_zero]
    congr 1
    rw [Complex.ofReal_add, add_mul, Complex.exp_add]
    ring
  rw [one, one, ← Complex.sub_re, ← mul_sub]
  refine le_trans (Complex.abs_re_le_norm _) ?_
  rw [norm_mul, norm_mul, Complex.norm_exp_ofReal_mul_I, mul_one, mul_comm]
  exact mul_le_mul_of_nonneg_right h (norm_nonneg _)

theorem missing_one (env : Infer.Env) (corrections : String) (cons : List String) (k : ℕ) (c : String)
    (hk : inferred[k]? = some c) (hc : c ∉ cons) :
    Infer.missing (Infer.shortPeriod env corrections) cons (some [c]) = [(c, k)] := by
  have hall : ∀ k < 20, inferred.zipIdx.filter (fun p => p.1 == inferred.getD k "") =
      [(inferred.getD k "", k)] := by decide +kernel
  have hlt : k < 20 := (List.getElem?_eq_some_iff.mp hk).1
  have h := hall k hlt
  rw [List.getD_eq_getElem?_getD, hk, Option.getD_some] at h
  rw [← h]
  unfold Infer.missing
  refine List.filter_congr fun p _ => ?_
  by_cases hp : p.1 = c
  · rw [hp]
    simp [hc, Infer.Wanted]
  · have : (p.1 == c) = false := by simpa using hp
    rw [this, decide_eq_false_iff_not]
    rintro ⟨-, hw⟩
    exact hp (by simpa using hw [c] rfl (by simp))

/-- C98: a minor constituent alone is inferred at a time, with the constant `z` that the inference
finds for it.  The inferred tide is that which the arguments of the constituent give with this constant,
to within the bound on the modulation times the size of the constant.  Missing: m1, for which it is
false, 2q1, which is not inferred alone (`C25_first_false`), and constituents of FES models without a
bound (`C98_theta1_false`). -/
theorem C98_tide_partial (kind : Kind) (corrections m1 : String) (h : corrections ∈ kind.keywords)
    (freq : String → ℝ) (tilt : ℝ → ℝ) (t : ℝ × ℝ) (row : List Predict.MC) (cons : List String)
    (hcons : (cons.map String.toLower).Nodup) (hrow : row.length = cons.length) (raising : Bool)
    (hneed : 6 ≤ (["q1", "o1", "p1", "k1", "n2", "m2", "s2", "k2", "2n2"].filter
      fun c => decide (c ∈ cons.map String.toLower)).length)
    (k : ℕ) (hk0 : k ≠ 0) (c : String) (hk : inferred[k]? = some c) (hc : c ∉ cons) (e : ℚ)
    (he : (c, e) ∈ bounds kind) :
    ∃ v mask x g, Infer.infer (Infer.shortPeriod (inferEnv corrections freq tilt) corrections) [t] [row]
        cons (some [c]) raising = .ok (.array [(v, mask)]) ∧
      arguments corrections m1 t.2 (t.1 + 48622) [c] = .ok ([x], [g]) ∧
      ∀ z, z = (Predict.MC.val ((Infer.shortPeriod (inferEnv corrections freq tilt) corrections).constant k
        (Infer.majors (Infer.shortPeriod (inferEnv corrections freq tilt) corrections) cons row))) →
      |v - Spec.tide [⟨x.2, g * π / 180 + x.1, z⟩]| ≤ e * ‖z‖ := by
  obtain ⟨l, hl, hv⟩ := Infer.C25_value_partial
    (Infer.shortPeriod (inferEnv corrections freq tilt) corrections) [t] [row] cons (some [c]) raising
    hcons (by simpa using hrow) [(t, row)] rfl hneed
    ⟨k, c, Nat.pos_of_ne_zero hk0, hk, hc, by intro l hl _; cases hl; simp⟩
  obtain ⟨uf, G, x, g, hm, -, -, ha, hG, y, hy, hd, -⟩ :=
    C98_arguments_partial kind corrections m1 h t.2 (t.1 + 48622) k c hk e he
  obtain ⟨⟨v, mask⟩, rfl⟩ : ∃ q, l = [q] := by
    have := congrArg List.length hv
    simp only [List.length_map, List.length_singleton] at this
    exact List.length_eq_one_iff.1 this
  simp only [List.map_cons, List.map_nil, List.cons.injEq, and_true] at hv
  refine ⟨v, mask, x, g, hl, ha, ?_⟩
  rintro z hz
  have hcol : columnOf (minorArguments corrections t.2 (t.1 + 48622)) k = ⟨y.1, y.2, g⟩ := by
    rw [hm]
    unfold columnOf
    simp only [List.getD_eq_getElem?_getD, hy, hG, Option.getD_some]
  have hv' : v = Spec.tide [⟨y.2, g * π / 180 + y.1, z⟩] := by
    rw [hv, Infer.inferred, missing_one _ _ _ k c hk hc, List.map_cons, List.map_nil, Infer.wave, hz]
    have harg : (Infer.shortPeriod (inferEnv corrections freq tilt) corrections).arg t k =
      ⟨y.1, y.2, g⟩ := hcol
    simp only [harg]
  rw [hv']
  exact height_near y x g z hd

/-- Six of the nine majors suffice, and nu2 of a FES model may be inferred. -/
example : (["q1", "o1", "k1", "n2", "m2", "s2"].map String.toLower).Nodup ∧
    6 ≤ (["q1", "o1", "p1", "k1", "n2", "m2", "s2", "k2", "2n2"].filter
      fun c => decide (c ∈ ["q1", "o1", "k1", "n2", "m2", "s2"].map String.toLower)).length ∧
    inferred[13]? = some "nu2" ∧ "nu2" ∉ ["q1", "o1", "k1", "n2", "m2", "s2"] ∧
    ("nu2", (0 : ℚ)) ∈ bounds .fes := by decide +kernel

theorem known_inferred : ∀ c ∈ inferred, (Coef.table.lookup c).isSome = true := by decide +kernel

/-- C98: for FES models and the constituents with bound zero, the inferred tide is exactly the tide
predicted along a track when the model provides the constituent with the constant that the inference
finds. -/
theorem C98_provided (freq : String → ℝ) (tilt : ℝ → ℝ) (t : ℝ × ℝ) (row : List Predict.MC)
    (cons : List String) (hcons : (cons.map String.toLower).Nodup) (hrow : row.length = cons.length)
    (raising : Bool)
    (hneed : 6 ≤ (["q1", "o1", "p1", "k1", "n2", "m2", "s2", "k2", "2n2"].filter
      fun c => decide (c ∈ cons.map String.toLower)).length)
    (k : ℕ) (hk0 : k ≠ 0) (c : String) (hk : inferred[k]? = some c) (hc : c ∉ cons)
    (he : (c, 0) ∈ bounds .fes) (z : Predict.MC)
    (hz : z = (Infer.shortPeriod (inferEnv "FES" freq tilt) "FES").constant k
      (Infer.majors (Infer.shortPeriod (inferEnv "FES" freq tilt) "FES") cons row)) :
    ∃ v mask mask', Infer.infer (Infer.shortPeriod (inferEnv "FES" freq tilt) "FES") [t] [row]
        cons (some [c]) raising = .ok (.array [(v, mask)]) ∧
      Predict.drift (predictEnv "FES") [t] [[z]] [c] "FES" = .ok [(v, mask')] := by
  obtain ⟨v, mask, x, g, hi, ha, hv⟩ := C98_tide_partial .fes "FES" "perth5" (by decide) freq tilt t row
    cons hcons hrow raising hneed k hk0 c hk hc 0 he
  have hv := hv z.val (by rw [hz])
  rw [Rat.cast_zero, zero_mul] at hv
  have hv := sub_eq_zero.1 (abs_nonpos_iff.1 hv)
  refine ⟨v, mask, z.mask, hi, ?_⟩
  have hkn := known_inferred c (List.mem_of_getElem? hk)
  rw [Predict.C21_drift_value (predictEnv "FES") "FES" [t] [[z]] [c]
    (by intro d hd; rw [List.mem_singleton.1 hd]; exact hkn) rfl (by simp)]
  have hargs : (predictEnv "FES").args t.1 t.2 c = ⟨x.1, x.2, g⟩ := by
    show columnOf (arguments "FES" "perth5" t.2 (t.1 + 48622) [c]) 0 = _
    rw [ha]
    rfl
  rw [List.zip_cons_cons, List.zip_nil_left, List.map_cons, List.map_nil]
  refine congrArg Except.ok (congrArg (fun q => [q]) (Prod.ext ?_ (by simp [Predict.prediction])))
  rw [hv]
  simp only [Predict.prediction, Predict.waves, List.zipWith_cons_cons, List.zipWith_nil_left, hargs]
  rw [show Predict.phase (predictEnv "FES") "FES" c t.1 ⟨x.1, x.2, g⟩ = g * π / 180 + x.1 by
    unfold Predict.phase
    rw [if_neg (by decide)]]

/-- What the predictions take from the arguments is what they give for all constituents at once. -/
theorem predictEnv_args (corrections : String) (t deltat : ℝ) (cs : List String) (uf : List (ℝ × ℝ))
    (G : List ℝ) (h : arguments corrections "perth5" deltat (t + 48622) cs = .ok (uf, G)) :
    cs.map ((predictEnv corrections).args t deltat) =
      List.zipWith (fun (x : ℝ × ℝ) g => ⟨x.1, x.2, g⟩) uf G := by
  obtain ⟨rows, hr, hG⟩ := arguments_ok h
  have huf : uf = cs.map (one (Cfg.ofKwargs corrections "perth5")
      (meanLongitudes (modeOf corrections) (t + 48622 + deltat)).n
      (meanLongitudes (modeOf corrections) (t + 48622 + deltat)).p) := by
    unfold arguments at h
    rw [hr, ok_bind] at h
    dsimp only at h
    rw [nodal_eq _ _ _ 0] at h
    exact (congrArg Prod.fst (Except.ok.inj h)).symm
  have hlen := pyMap_length hr
  refine List.ext_getElem ?_ ?_
  · rw [huf]; dsimp only at hG; rw [hG]; simp [hlen]
  · intro i h1 h2
    dsimp only at hG
    subst hG huf
    simp only [List.length_map] at h1
    have hri : row corrections cs[i] = .ok (rows[i]'(by omega)) := by
      obtain ⟨a, ha, hb⟩ := pyMap_getElem hr i _ (List.getElem?_eq_getElem (by omega : i < rows.length))
      rw [List.getElem?_eq_getElem h1] at ha
      rw [Option.some.inj ha]
      exact hb
    rw [List.getElem_map, List.getElem_zipWith, List.getElem_map, List.getElem_map]
    show columnOf (arguments corrections "perth5" deltat (t + 48622) [cs[i]]) 0 = _
    rw [arguments_one _ _ _ _ _ hri]
    rfl

/-! ## Constituents that differ -/

/-- C98 fails for l2b: inference turns the phase with the node one way, prediction the other way.  When
the node is at 90 degrees the modulations are 0.882 apart. -/
theorem C98_l2b_false : ∃ MJD uf G x g y, minorArguments "OTIS" 0 MJD = .ok (uf, G) ∧
    arguments "OTIS" "perth5" 0 MJD ["l2b"] = .ok ([x], [g]) ∧ inferred[16]? = some "l2b" ∧
    uf[16]? = some y ∧ ‖phasor y - phasor x‖ = 0.882 := by
  obtain ⟨rows, hrows, -, -⟩ := minorTable_eq
  obtain ⟨r, hr⟩ : ∃ r, row "OTIS" "l2b" = .ok r := ⟨[2, 1, 0, 1, 0, 0, 0], by decide +kernel⟩
  refine ⟨51544.4993 + 35.0445 / 0.05295377, _, _, _, _, _,
    minorArguments_eq "OTIS" 0 _ hrows, arguments_one "OTIS" "perth5" 0 _ "l2b" hr, rfl, rfl, ?_⟩
  have hn : (meanLongitudes (modeOf "OTIS") (51544.4993 + 35.0445 / 0.05295377 + 0)).n = 90 := by
    show Math.normalizeAngle (125.0445 - 0.05295377 *
      (51544.4993 + 35.0445 / 0.05295377 + 0 - 51544.4993)) 360 = 90
    rw [show (125.0445 - 0.05295377 * (51544.4993 + 35.0445 / 0.05295377 + 0 - 51544.4993) : ℝ) = 90 by
      norm_num]
    exact normalize_id (by norm_num) (by norm_num)
  rw [hn]
  generalize (meanLongitudes (modeOf "OTIS") (51544.4993 + 35.0445 / 0.05295377 + 0)).p = p
  have hr : rule (Cfg.ofKwargs "OTIS" "perth5") "l2b" = .terms [⟨0.441, 1, 0⟩] 1 [⟨0.441, 1, 0⟩] := by
    decide +kernel
  rw [one_plain _ _ _ (by rw [hr]; rfl), hr, phasor_polar (terms_polar _ _ _ 90 p),
    phasor_polar (minor_polar "OTIS" (by decide) 90 p 16 (by omega))]
  show ‖vec [⟨-0.441, 1, 0⟩] 1 [⟨0.441, 1, 0⟩] 90 p - vec [⟨0.441, 1, 0⟩] 1 [⟨0.441, 1, 0⟩] 90 p‖ = _
  rw [vec_one, vec_one, show (90 * dtr : ℝ) = π / 2 by unfold dtr; ring, cos_pi_div_two, sin_pi_div_two]
  have e : ((⟨1 + ((0.441 : ℚ) : ℝ) * 0, ((-0.441 : ℚ) : ℝ) * 1⟩ : ℂ) -
      ⟨1 + ((0.441 : ℚ) : ℝ) * 0, ((0.441 : ℚ) : ℝ) * 1⟩) = ((-0.882 : ℝ) : ℂ) * Complex.I := by
    apply Complex.ext <;> simp <;> norm_num
  rw [e, norm_mul, Complex.norm_I, mul_one, Complex.norm_real, Real.norm_eq_abs, abs_neg,
    abs_of_pos (by norm_num)]

/-- C98 fails for m1: the column for it has the phase of another line, which differs by the longitude
of the perigee, for instance by 90 degrees. -/
theorem C98_m1_false : ∃ MJD uf G x g g', minorArguments "OTIS" 0 MJD = .ok (uf, G) ∧
    arguments "OTIS" "perth5" 0 MJD ["m1"] = .ok ([x], [g]) ∧ inferred[4]? = some "m1" ∧
    G[4]? = some g' ∧ g' = g + 90 := by
  have hrows : ∃ rows, minorTable = .ok rows ∧ rows[4]? = some [1, 0, 0, 1, 0, 0, 1] := by
    obtain ⟨rows, h, hl, -⟩ := minorTable_eq
    refine ⟨rows, h, ?_⟩
    have h4 := List.getElem?_eq_getElem (by omega : 4 < rows.length)
    obtain ⟨a, ha, hb⟩ := pyMap_getElem h 4 _ h4
    have ha : a = "m1a" := (Option.some.inj ha).symm
    subst ha
    have : row "OTIS" "m1a" = .ok [1, 0, 0, 1, 0, 0, 1] := by decide +kernel
    rw [this] at hb
    rw [h4, Except.ok.inj hb]
  obtain ⟨rows, hrows, h4⟩ := hrows
  have hr : row "OTIS" "m1" = .ok [1, 0, 0, 0, 0, 0, 1] := by decide +kernel
  refine ⟨51544.4993 + 6.6465 / 0.11140353, _, _, _, _, _,
    minorArguments_eq "OTIS" 0 _ hrows, arguments_one "OTIS" "perth5" 0 _ "m1" hr, rfl,
    by rw [List.getElem?_map, h4]; rfl, ?_⟩
  have hp : (meanLongitudes (modeOf "OTIS") (51544.4993 + 6.6465 / 0.11140353 + 0)).p = 90 := by
    show Math.normalizeAngle (83.3535 + 0.11140353 *
      (51544.4993 + 6.6465 / 0.11140353 + 0 - 51544.4993)) 360 = 90
    rw [show (83.3535 + 0.11140353 * (51544.4993 + 6.6465 / 0.11140353 + 0 - 51544.4993) : ℝ) = 90 by
      norm_num]
    exact normalize_id (by norm_num) (by norm_num)
  unfold dot fargs
  simp only [List.zipWith_cons_cons, List.zipWith_nil_left, List.sum_cons, List.sum_nil, hp]
  push_cast
  ring

/-- C98 fails for theta1 with FES: inference leaves it without a nodal correction, while it is predicted
with that of j1. -/
theorem C98_theta1_false : ∃ MJD uf G x g, minorArguments "FES" 0 MJD = .ok (uf, G) ∧
    arguments "FES" "perth5" 0 MJD ["theta1"] = .ok ([x], [g]) ∧ inferred[8]? = some "theta1" ∧
    uf[8]? = some (0, 1) ∧ x.2 < 0.96 := by
  obtain ⟨rows, hrows, -, -⟩ := minorTable_eq
  obtain ⟨r, hr⟩ : ∃ r, row "FES" "theta1" = .ok r := ⟨[1, 2, -2, 1, 0, 0, 1], by decide +kernel⟩
  refine ⟨51544.5, _, _, _, _, minorArguments_eq "FES" 0 _ hrows,
    arguments_one "FES" "perth5" 0 _ "theta1" hr, rfl, rfl, ?_⟩
  have hn : (meanLongitudes (modeOf "FES") (51544.5 + 0)).n = 125.04452 := by
    show Math.normalizeAngle (Math.polynomialSum [125.04452, -1934.136261, 2.0708e-3, 2.22222e-6]
      ((51544.5 + 0 - 51544.5) / 36525)) 360 = _
    rw [show (Math.polynomialSum [125.04452, -1934.136261, 2.0708e-3, 2.22222e-6]
      ((51544.5 + 0 - 51544.5) / 36525) : ℝ) = 125.04452 by norm_num [Math.polynomialSum]]
    exact normalize_id (by norm_num) (by norm_num)
  rw [hn]
  generalize (meanLongitudes (modeOf "FES") (51544.5 + 0)).p = p
  have hr : rule (Cfg.ofKwargs "FES" "perth5") "theta1" = .fes .j1 := by decide +kernel
  rw [one_plain _ _ _ (by rw [hr]; rfl), hr]
  show sin (2 * II 125.04452) / 0.7214 < 0.96
  have hcos : cos (125.04452 * dtr) ≤ -(1 / 2) := by
    have h120 : cos (π - π / 3) = -(1 / 2) := by rw [cos_pi_sub, cos_pi_div_three]
    rw [← h120]
    refine cos_le_cos_of_nonneg_of_le_pi ?_ ?_ ?_
    · linarith [pi_pos]
    · unfold dtr; linarith [pi_pos]
    · unfold dtr; linarith [pi_pos]
  have hc := cos_II 125.04452
  have hc1 : 0.9315 ≤ cos (II 125.04452) := by rw [hc]; linarith
  have hc2 := (cos_II_bounds 125.04452).2
  have hs := sin_II_sq 125.04452
  have hs0 := sin_II_nonneg 125.04452
  have hs1 : sin (II 125.04452) ≤ 0.3638 := by
    refine abs_le_of_sq_le_sq' ?_ (by norm_num) |>.2
    rw [hs]; nlinarith
  rw [div_lt_iff₀ (by norm_num), sin_two_mul]
  nlinarith

end Verif.Astro
