import Verif.Lemmas.Nodal
import Verif.Model.Coef
import Mathlib.Analysis.Real.Pi.Irrational

/-!
# C28, C30: nodal corrections
-/

namespace Verif.Nodal

open Real

/-! ## C28 -/

/-- C28: the recursion always ends (two levels suffice) and each constituent is treated alone:
there is one function of the name, and the result for any list of constituents is that function
applied to each. -/
theorem C28_independent (k : Cfg) (n p : ℝ) :
    ∃ g : String → ℝ × ℝ, ∀ fuel ≥ 2, ∀ cs, nodal fuel k n p cs = some (cs.map g) := by
  refine ⟨one k n p, fun fuel hf cs => ?_⟩
  obtain ⟨m, rfl⟩ : ∃ m, fuel = m + 2 := ⟨fuel - 2, by omega⟩
  exact nodal_eq k n p m cs

/-- C28: the corrections of a constituent in a list are those it gets when requested alone. -/
theorem C28_alone (k : Cfg) (n p : ℝ) (fuel : ℕ) (hf : 2 ≤ fuel) (cs : List String) (i : ℕ)
    (c : String) (hc : cs[i]? = some c) :
    ∃ r x, nodal fuel k n p cs = some r ∧ r.length = cs.length ∧
      nodal fuel k n p [c] = some [x] ∧ r[i]? = some x := by
  obtain ⟨g, hg⟩ := C28_independent k n p
  exact ⟨cs.map g, g c, hg fuel hf cs, by simp, by rw [hg fuel hf]; rfl, by simp [hc]⟩

example : (["m2", "msn2"] : List String)[1]? = some "msn2" := rfl

/-- The compound tides which the program treats in the branches of their only lunar parent. -/
def linear : List String := ["so3", "op2", "sk3", "2sk5", "ms4", "2sm6", "2sn6", "mp1", "mp3",
  "sn4", "sl4", "sk4", "2sk6", "kp1"]

/-- The only lunar parent of a compound tide with one. -/
def onlyParent (dec : List (ℤ × String)) : Option String :=
  match specMuls dec with
  | [(b, 1)] => some b
  | _ => none

/-- The check on one compound tide. -/
def check (q : String × List (ℤ × String)) : Bool :=
  if linear.contains q.1 then
    match onlyParent q.2 with
    | some b => cands true q.1 chain == cands true b chain && bases.contains b &&
        agrees [⟨b, 1, 1⟩] q.2
    | none => false
  else match cands false q.1 chain with
    | [(.always, .compound ps)] => agrees ps q.2
    | _ => false

theorem compounds_check : ∀ q ∈ Spec.compounds, q.1 ∉ ["msk6", "snk6"] → check q = true := by
  decide +kernel

/-- C28 (partial): the factor of a compound tide is the product of those of its parents and its
angle the signed sum, as `Spec.compounds` lists them.  Exceptions: msk6 and snk6
(`C28_msk6_false`), and with the corrections of perth3 the tides with one lunar parent
(`C28_perth3_false`); compound tides of the coefficient table without a branch of their own get
no correction (`C28_missing_false`, `C28_o2_false`). -/
theorem C28_compound_partial (k : Cfg) (n p : ℝ) (fuel : ℕ) (hf : 2 ≤ fuel) (c : String)
    (dec : List (ℤ × String)) (h : (c, dec) ∈ Spec.compounds) (he : c ≠ "msk6" ∧ c ≠ "snk6")
    (hl : k.perth3 = false ∨ c ∉ linear) :
    ∃ U F : String → ℝ, (∀ b, nodal fuel k n p [b] = some [(U b, F b)]) ∧
      nodal fuel k n p [c] = some [(Spec.angle U dec, Spec.factor F dec)] := by
  obtain ⟨m, rfl⟩ : ∃ m, fuel = m + 2 := ⟨fuel - 2, by omega⟩
  refine ⟨fun b => (one k n p b).1, fun b => (one k n p b).2, fun b => by rw [nodal_eq]; rfl, ?_⟩
  have hc := compounds_check (c, dec) h (by simp [he.1, he.2])
  rw [nodal_eq]
  refine congrArg some ?_
  rw [List.map_singleton]
  refine congrArg (fun x => [x]) ?_
  unfold check at hc
  by_cases hli : c ∈ linear
  · have hk : k.perth3 = false := hl.resolve_right (fun h => h hli)
    rw [if_pos (by simpa using hli)] at hc
    cases ho : onlyParent dec with
    | none => simp [ho] at hc
    | some b =>
      simp only [ho, Bool.and_eq_true, beq_iff_eq, List.contains_iff_mem] at hc
      obtain ⟨⟨h1, h2⟩, h3⟩ := hc
      have hr : rule k c = rule k b := by
        rw [rule_eq_pick k c true fun _ => hk, rule_eq_pick k b true fun _ => hk, h1]
      have hp := rule_base_plain k h2
      have := compose_of_agrees (one k n p) h3
      rw [← this, one_plain k n p (by rw [hr]; exact hp), hr, ← one_plain k n p hp]
      simp [compose]
  · rw [if_neg (by simpa using hli)] at hc
    split at hc
    · rename_i ps hcands
      have hr : rule k c = .compound ps := by
        rw [rule_eq_pick k c false (by simp), hcands]; rfl
      rw [← compose_of_agrees (one k n p) hc]
      have hb : ∀ q ∈ ps, q.name ∈ bases := by
        have := rule_parents k c
        rw [hr] at this
        exact this
      have hone : one k n p c = compose ps (ps.map fun q => (rule k q.name).eval n p) := by
        unfold one; rw [hr]
      rw [hone]
      congr 1
      refine List.map_congr_left fun q hq => ?_
      exact (one_plain k n p (rule_base_plain k (hb q hq))).symm
    · exact absurd hc (by simp)

example : ("2mk3", [(2, "m2"), (-1, "k1")]) ∈ Spec.compounds ∧ "2mk3" ∉ linear := by
  decide +kernel

/-- C28: a name that no branch tests for gets factor one and angle zero. -/
theorem C28_unknown (k : Cfg) (n p : ℝ) (fuel : ℕ) (hf : 2 ≤ fuel) (c : String)
    (h : ∀ b ∈ chain, b.names.mem c = false) : nodal fuel k n p [c] = some [(0, 1)] := by
  obtain ⟨m, rfl⟩ : ∃ m, fuel = m + 2 := ⟨fuel - 2, by omega⟩
  have hr : rule k c = defaultRule := by
    rcases rule_cases k c with h' | ⟨b, hb, hm, _⟩
    · exact h'
    · rw [h b hb] at hm; simp at hm
  have : one k n p c = (0, 1) := by
    unfold one
    rw [hr]
    refine Prod.ext ?_ ?_
    · simp only [defaultRule, Rule.eval, sinSum, cosSum, arctan2, List.map_nil, List.sum_nil]
      have : (⟨(1 : ℚ) + 0, 0⟩ : ℂ) = 1 := by apply Complex.ext <;> simp
      rw [this]; exact Complex.arg_one
    · simp [defaultRule, Rule.eval, sinSum, cosSum]
  rw [nodal_eq]; simp [this]

example : ∀ b ∈ chain, b.names.mem "xyz9" = false := by decide +kernel

/-! ### Counterexamples -/

/-- OTIS corrections. -/
def otisCfg : Cfg := Cfg.ofKwargs "OTIS" "perth5"

/-- perth3 corrections. -/
def perth3Cfg : Cfg := Cfg.ofKwargs "perth3" "perth5"

/-- FES corrections. -/
def fesCfg : Cfg := Cfg.ofKwargs "FES" "perth5"

theorem sinSum_zero (l : List Term) : sinSum l 0 0 = 0 := by
  induction l with
  | nil => rfl
  | cons a l ih =>
    unfold sinSum at ih ⊢
    rw [List.map_cons, List.sum_cons, ih]; simp

theorem cosSum_zero (l : List Term) : cosSum l 0 0 = ((l.map Term.a).sum : ℚ) := by
  induction l with
  | nil => simp [cosSum]
  | cons a l ih =>
    unfold cosSum at ih ⊢
    rw [List.map_cons, List.sum_cons, ih]; simp

theorem eval_terms_zero (s c : List Term) (c0 : ℚ) (h : 0 ≤ c0 + (c.map Term.a).sum) :
    ((Rule.terms s c0 c).eval 0 0).2 = ((c0 + (c.map Term.a).sum : ℚ) : ℝ) := by
  simp only [Rule.eval, sinSum_zero, cosSum_zero]
  have : (0 : ℝ) ≤ ((c0 + (c.map Term.a).sum : ℚ) : ℝ) := by exact_mod_cast h
  rw [← Rat.cast_add, zero_pow two_ne_zero, zero_add, Real.sqrt_sq this]

theorem eval_mixed_zero (s c us : List Term) (c0 : ℚ) (h : 0 ≤ c0 + (c.map Term.a).sum) :
    ((Rule.mixed s c0 c us).eval 0 0).2 = ((c0 + (c.map Term.a).sum : ℚ) : ℝ) :=
  eval_terms_zero s c c0 h

theorem eval_direct_zero (s c : List Term) (c0 : ℚ) :
    ((Rule.direct c0 c s).eval 0 0).2 = ((c0 + (c.map Term.a).sum : ℚ) : ℝ) := by
  simp [Rule.eval, cosSum_zero]

theorem cast_ne_one {q : ℚ} (h : q ≠ 1) : (q : ℝ) ≠ 1 := by exact_mod_cast h

theorem one_of_rule (k : Cfg) (n p : ℝ) (c : String) {r : Rule} (h : rule k c = r)
    (hp : r.plain = true) : one k n p c = r.eval n p := by
  rw [← h]; exact one_plain k n p (by rw [h]; exact hp)

/-- C28 fails for msk6 (M2 + S2 + K2): the angle of K2 is subtracted. -/
theorem C28_msk6_false : ∃ (n p u f uM fM uK fK : ℝ),
    nodal 2 otisCfg n p ["msk6", "m2", "k2"] = some [(u, f), (uM, fM), (uK, fK)] ∧
    u = uM - uK ∧ u ≠ uM + uK := by
  refine ⟨90, 0, (one otisCfg 90 0 "msk6").1, (one otisCfg 90 0 "msk6").2, (one otisCfg 90 0 "m2").1, (one otisCfg 90 0 "m2").2,
    (one otisCfg 90 0 "k2").1, (one otisCfg 90 0 "k2").2, nodal_eq otisCfg 90 0 0 _, ?_⟩
  have h1 : rule otisCfg "msk6" = .compound [⟨"m2", 1, 1⟩, ⟨"k2", 1, -1⟩] := by decide +kernel
  have h2 : rule otisCfg "k2" = .terms [⟨-0.3108, 1, 0⟩, ⟨-0.0324, 2, 0⟩] 1
      [⟨0.2852, 1, 0⟩, ⟨0.0324, 2, 0⟩] := by decide +kernel
  have hm := one_plain otisCfg 90 0 (c := "m2") (rule_base_plain _ (by decide +kernel))
  have hk := one_plain otisCfg 90 0 (c := "k2") (rule_base_plain _ (by decide +kernel))
  have hs : (one otisCfg 90 0 "msk6").1 = (one otisCfg 90 0 "m2").1 - (one otisCfg 90 0 "k2").1 := by
    rw [hm, hk]
    unfold one
    rw [h1]
    simp [compose]
    ring
  have hneg : (one otisCfg 90 0 "k2").1 < 0 := by
    rw [hk, h2]
    simp only [Rule.eval, arctan2]
    rw [Complex.arg_neg_iff]
    have e1 : sin (90 * dtr) = 1 := by
      rw [dtr, show (90 : ℝ) * (π / 180) = π / 2 by ring, sin_pi_div_two]
    have e2 : sin (2 * 90 * dtr) = 0 := by
      rw [dtr, show (2 : ℝ) * 90 * (π / 180) = π by ring, sin_pi]
    simp [sinSum, e1, e2]
    norm_num
  refine ⟨hs, ?_⟩
  intro h
  rw [hs] at h
  linarith

/-- C28 fails for the tides with one lunar parent with the corrections of perth3: so3 (S2 + O1)
does not get the factor of o1. -/
theorem C28_perth3_false : ∃ (n p u f uO fO : ℝ),
    nodal 2 perth3Cfg n p ["so3", "o1"] = some [(u, f), (uO, fO)] ∧ f ≠ fO := by
  refine ⟨0, 0, (one perth3Cfg 0 0 "so3").1, (one perth3Cfg 0 0 "so3").2, (one perth3Cfg 0 0 "o1").1, (one perth3Cfg 0 0 "o1").2,
    nodal_eq perth3Cfg 0 0 0 _, ?_⟩
  rw [one_of_rule perth3Cfg 0 0 "so3" (r := .terms [⟨0.1886, 1, 0⟩, ⟨-0.0058, 2, 0⟩,
      ⟨-0.0065, 0, 2⟩] 1 [⟨0.1886, 1, 0⟩, ⟨-0.0058, 2, 0⟩, ⟨-0.0065, 0, 2⟩])
      (by decide +kernel) rfl, one_of_rule perth3Cfg 0 0 "o1" (r := .direct 1.009
      [⟨0.187, 1, 0⟩, ⟨-0.015, 2, 0⟩] [⟨10.8, 1, 0⟩, ⟨-1.3, 2, 0⟩]) (by decide +kernel) rfl,
    eval_terms_zero _ _ _ (by decide +kernel), eval_direct_zero]
  simp only [ne_eq, Rat.cast_inj]
  decide +kernel

/-- C28 fails for o2 (twice O1 in the coefficient table): it is taken for part of `'ko2'` and gets
the factors of O1 and K1. -/
theorem C28_o2_false : ∃ (n p u f uO fO : ℝ),
    nodal 2 otisCfg n p ["o2", "o1"] = some [(u, f), (uO, fO)] ∧ f ≠ fO ^ 2 ∧
    ∃ a b, Coef.lookup true "o2" = some a ∧ Coef.lookup true "o1" = some b ∧
      a.take 6 = (b.map (2 * ·)).take 6 := by
  refine ⟨0, 0, (one otisCfg 0 0 "o2").1, (one otisCfg 0 0 "o2").2, (one otisCfg 0 0 "o1").1, (one otisCfg 0 0 "o1").2,
    nodal_eq otisCfg 0 0 0 _, ?_,
    [2, -2, 0, 0, 0, 0, 2], [1, -1, 0, 0, 0, 0, -1], by decide +kernel, by decide +kernel, by decide⟩
  have ho := one_of_rule otisCfg 0 0 "o1" (r := .mixed [⟨0.189, 1, 0⟩, ⟨-0.0058, 2, 0⟩] 1
      [⟨0.189, 1, 0⟩, ⟨-0.0058, 2, 0⟩] [⟨10.8, 1, 0⟩, ⟨-1.3, 2, 0⟩, ⟨0.2, 3, 0⟩])
      (by decide +kernel) rfl
  have hk := one_of_rule otisCfg 0 0 "k1" (r := .terms [⟨-0.1554, 1, 0⟩, ⟨0.0029, 2, 0⟩] 1
      [⟨0.1158, 1, 0⟩, ⟨-0.0029, 2, 0⟩]) (by decide +kernel) rfl
  have h1 : rule otisCfg "o2" = .compound [⟨"o1", 1, 1⟩, ⟨"k1", 1, 1⟩] := by decide +kernel
  have hm := one_plain otisCfg 0 0 (c := "o1") (rule_base_plain _ (by decide +kernel))
  have hk' := one_plain otisCfg 0 0 (c := "k1") (rule_base_plain _ (by decide +kernel))
  have h2 : (one otisCfg 0 0 "o2").2 = (one otisCfg 0 0 "o1").2 * (one otisCfg 0 0 "k1").2 := by
    rw [hm, hk']
    unfold one
    rw [h1]
    simp [compose]
  rw [h2, ho, hk, eval_mixed_zero _ _ _ _ (by decide +kernel),
    eval_terms_zero _ _ _ (by decide +kernel), ← Rat.cast_mul, ← Rat.cast_pow]
  simp only [ne_eq, Rat.cast_inj]
  decide +kernel

/-- C28 fails for compound tides of the coefficient table whose name the program spells otherwise:
`2(mn)8` and `2mn8` are the same tide, only the second has a nodal correction. -/
theorem C28_missing_false : ∃ (n p u f : ℝ),
    nodal 2 otisCfg n p ["2(mn)8", "2mn8"] = some [(0, 1), (u, f)] ∧ f ≠ 1 ∧
    ∃ a, Coef.lookup true "2(mn)8" = some a ∧ Coef.lookup true "2mn8" = some a := by
  have h0 : one otisCfg 0 0 "2(mn)8" = (0, 1) := by
    have := C28_unknown otisCfg 0 0 2 le_rfl "2(mn)8" (by decide +kernel)
    rw [nodal_eq] at this
    simpa using this
  refine ⟨0, 0, (one otisCfg 0 0 "2mn8").1, (one otisCfg 0 0 "2mn8").2,
    (nodal_eq otisCfg 0 0 0 _).trans ?_, ?_, [8, -2, 0, 2, 0, 0, 0],
    by decide +kernel, by decide +kernel⟩
  · simp [h0]
  have hm := one_plain otisCfg 0 0 (c := "m2") (rule_base_plain _ (by decide +kernel))
  have hr := one_of_rule otisCfg 0 0 "m2" (r := .terms [⟨-0.03731, 1, 0⟩, ⟨0.00052, 2, 0⟩] 1
      [⟨-0.03731, 1, 0⟩, ⟨0.00052, 2, 0⟩]) (by decide +kernel) rfl
  have h1 : rule otisCfg "2mn8" = .compound [⟨"m2", 4, 4⟩] := by decide +kernel
  have h2 : (one otisCfg 0 0 "2mn8").2 = (one otisCfg 0 0 "m2").2 ^ 4 := by
    rw [hm]
    unfold one
    rw [h1]
    simp [compose]
  rw [h2, hr, eval_terms_zero _ _ _ (by decide +kernel), ← Rat.cast_pow]
  exact cast_ne_one (by decide +kernel)

/-- Not every unknown name gets factor one: the tests without a comma accept any part of the name,
here the empty one. -/
theorem C28_unknown_false : ∃ (n p u f : ℝ), nodal 2 otisCfg n p [""] = some [(u, f)] ∧ f ≠ 1 ∧
    Coef.lookup true "" = none := by
  refine ⟨0, 0, (one otisCfg 0 0 "").1, (one otisCfg 0 0 "").2, nodal_eq otisCfg 0 0 0 _, ?_, by decide +kernel⟩
  rw [one_of_rule otisCfg 0 0 "" (r := .terms [⟨-0.2495, 1, 0⟩] 1 [⟨0.1315, 1, 0⟩])
    (by decide +kernel) rfl, eval_terms_zero _ _ _ (by decide +kernel)]
  exact cast_ne_one (by decide +kernel)

/-! ## C30 -/

theorem turn (n : ℝ) (m : ℤ) : m * 360 * dtr = m * (2 * π) := by unfold dtr; ring

theorem sinSum_node (l : List Term) (n p : ℝ) : sinSum l (n + 360) p = sinSum l n p := by
  unfold sinSum
  congr 1
  refine List.map_congr_left fun t _ => ?_
  rw [show ((t.i : ℝ) * (n + 360) + t.j * p) * dtr = (t.i * n + t.j * p) * dtr + t.i * (2 * π) by
    rw [← turn n]; ring, sin_add_int_mul_two_pi]

theorem cosSum_node (l : List Term) (n p : ℝ) : cosSum l (n + 360) p = cosSum l n p := by
  unfold cosSum
  congr 1
  refine List.map_congr_left fun t _ => ?_
  rw [show ((t.i : ℝ) * (n + 360) + t.j * p) * dtr = (t.i * n + t.j * p) * dtr + t.i * (2 * π) by
    rw [← turn n]; ring, cos_add_int_mul_two_pi]

theorem sinSum_perigee (l : List Term) (n p : ℝ) : sinSum l n (p + 360) = sinSum l n p := by
  unfold sinSum
  congr 1
  refine List.map_congr_left fun t _ => ?_
  rw [show ((t.i : ℝ) * n + t.j * (p + 360)) * dtr = (t.i * n + t.j * p) * dtr + t.j * (2 * π) by
    rw [← turn n]; ring, sin_add_int_mul_two_pi]

theorem cosSum_perigee (l : List Term) (n p : ℝ) : cosSum l n (p + 360) = cosSum l n p := by
  unfold cosSum
  congr 1
  refine List.map_congr_left fun t _ => ?_
  rw [show ((t.i : ℝ) * n + t.j * (p + 360)) * dtr = (t.i * n + t.j * p) * dtr + t.j * (2 * π) by
    rw [← turn n]; ring, cos_add_int_mul_two_pi]

theorem node_dtr (n : ℝ) : (n + 360) * dtr = n * dtr + 2 * π := by unfold dtr; ring

theorem tan_node (n : ℝ) : tan ((n + 360) * dtr / 2) = tan (n * dtr / 2) := by
  rw [node_dtr, show (n * dtr + 2 * π) / 2 = n * dtr / 2 + π by ring, tan_periodic]

theorem II_node (n : ℝ) : II (n + 360) = II n := by
  unfold II; rw [node_dtr, cos_add_two_pi]

theorem at1_node (n : ℝ) : at1 (n + 360) = at1 n := by unfold at1; rw [tan_node]

theorem at2_node (n : ℝ) : at2 (n + 360) = at2 n := by unfold at2; rw [tan_node]

theorem nu_node (n : ℝ) : nu (n + 360) = nu n := by unfold nu; rw [at1_node, at2_node]

theorem xi_node (n : ℝ) : xi (n + 360) = xi n := by
  unfold xi
  rw [at1_node, at2_node, node_dtr,
    show -at1 n - at2 n + (n * dtr + 2 * π) = -at1 n - at2 n + n * dtr + 2 * π by ring,
    sin_add_two_pi, cos_add_two_pi]

theorem fes_node (k : FesKind) (n p : ℝ) : k.eval (n + 360) p = k.eval n p := by
  cases k <;> simp only [FesKind.eval, II_node, xi_node, nu_node, nuPrime, nuSec, R, Ra1, P2, Q2, I2]

theorem eval_node (r : Rule) (n p : ℝ) : r.eval (n + 360) p = r.eval n p := by
  cases r <;> simp only [Rule.eval, sinSum_node, cosSum_node, fes_node, node_dtr, sin_add_two_pi,
    cos_add_two_pi]

/-- C30: the nodal corrections do not change when the longitude of the node grows by a turn, for
every list of constituents and every type of corrections. -/
theorem C30_node (k : Cfg) (n p : ℝ) (fuel : ℕ) (cs : List String) :
    nodal fuel k (n + 360) p cs = nodal fuel k n p cs := by
  induction fuel generalizing cs with
  | zero => rfl
  | succ m ih =>
    unfold nodal
    congr 1
    funext c
    cases rule k c <;> simp only [ih, eval_node]

/-- The constituents whose corrections involve L2. -/
def usesL2 : List String := ["l2", "sl4", "ml4", "msl6", "2ml2", "2ml6", "2ml2s2", "2mls4",
  "2msl8", "2nmls6", "3mls6", "2mnls6", "3ml8", "2mnl8", "3msl10", "4msl12"]

/-- The branch does not use the FES terms with the perigee. -/
def Rule.noL2 : Rule → Bool
  | .fes .l2 => false
  | _ => true

theorem eval_perigee (r : Rule) (h : r.noL2 = true) (n p : ℝ) :
    r.eval n (p + 360) = r.eval n p := by
  cases r with
  | fes k => cases k <;> first | rfl | (simp [Rule.noL2] at h)
  | _ => simp only [Rule.eval, sinSum_perigee, cosSum_perigee]

theorem chain_L2 : ∀ b ∈ chain,
    (b.rule.noL2 && b.rule.parents.all fun q => q.name != "l2") = true ∨
      ∃ l, b.names = .tuple l ∧ ∀ c ∈ l, c ∈ usesL2 := by
  have : ∀ b ∈ chain, (b.rule.noL2 && b.rule.parents.all fun q => q.name != "l2") = true ∨
      (match b.names with | .tuple l => l.all fun c => usesL2.contains c | .sub _ => false) = true := by
    decide +kernel
  intro b hb
  refine (this b hb).imp id fun h => ?_
  cases hn : b.names with
  | tuple l =>
    rw [hn] at h
    refine ⟨l, rfl, fun c hc => ?_⟩
    simpa using (List.all_eq_true.mp h) c hc
  | sub s => rw [hn] at h; simp at h

theorem rule_noL2 (k : Cfg) (c : String) (h : c ∉ usesL2) :
    (rule k c).noL2 = true ∧ ∀ q ∈ (rule k c).parents, q.name ≠ "l2" := by
  rcases rule_cases k c with h' | ⟨b, hb, hm, h'⟩
  · rw [h']; exact ⟨rfl, fun q hq => by simp [defaultRule, Rule.parents] at hq⟩
  · rw [h']
    rcases chain_L2 b hb with h2 | ⟨l, hl, h2⟩
    · simpa using h2
    · rw [hl] at hm
      exact absurd (h2 c (by simpa [Names.mem] using hm)) h

theorem rule_notFes (k : Cfg) (hk : k.fes = false) (c : String) : (rule k c).noL2 = true := by
  have hc : ∀ b ∈ chain, b.rule.noL2 = true ∨ b.cond = .fes := by decide +kernel
  unfold rule
  cases h : chain.find? (fun b => b.names.mem c && b.cond.holds k) with
  | none => rfl
  | some b =>
    rcases hc b (List.mem_of_find?_eq_some h) with h' | h'
    · exact h'
    · have := List.find?_some h
      simp [h', Cond.holds, hk] at this

theorem mapM_congr {α β : Type} (f g : α → Option β) :
    ∀ l : List α, (∀ a ∈ l, f a = g a) → l.mapM f = l.mapM g
  | [], _ => rfl
  | a :: l, h => by
    rw [List.mapM_cons, List.mapM_cons, h a (by simp),
      mapM_congr f g l fun b hb => h b (by simp [hb])]

theorem nodal_perigee (k : Cfg) (n p : ℝ) : ∀ (fuel : ℕ) (cs : List String),
    (∀ c ∈ cs, (rule k c).noL2 = true ∧
      ∀ q ∈ (rule k c).parents, (rule k q.name).noL2 = true) →
    nodal fuel k n (p + 360) cs = nodal fuel k n p cs
  | 0, _, _ => rfl
  | 1, cs, h => by
    unfold nodal
    refine mapM_congr _ _ cs fun c hc => ?_
    cases hr : rule k c with
    | compound ps => rfl
    | _ => simp only [← hr, eval_perigee _ (h c hc).1]
  | m + 2, cs, h => by
    rw [nodal_eq, nodal_eq]
    refine congrArg some (List.map_congr_left fun c hc => ?_)
    unfold one
    have hp := (h c hc).2
    cases hr : rule k c with
    | compound ps =>
      rw [hr] at hp
      simp only
      congr 1
      exact List.map_congr_left fun q hq => eval_perigee _ (hp q hq) n p
    | _ => simp only [← hr, eval_perigee _ (h c hc).1]

/-- C30 (partial): the nodal corrections do not change when the longitude of the perigee grows by
a turn, for every list of constituents, except those involving L2 with the corrections of FES. -/
theorem C30_perigee_partial (k : Cfg) (n p : ℝ) (fuel : ℕ) (cs : List String)
    (h : k.fes = false ∨ ∀ c ∈ cs, c ∉ usesL2) :
    nodal fuel k n (p + 360) cs = nodal fuel k n p cs := by
  refine nodal_perigee k n p fuel cs fun c hc => ?_
  rcases h with h | h
  · exact ⟨rule_notFes k h c, fun q _ => rule_notFes k h q.name⟩
  · obtain ⟨h1, h2⟩ := rule_noL2 k c (h c hc)
    refine ⟨h1, fun q hq => (rule_noL2 k q.name ?_).1⟩
    have hb := rule_parents k c q hq
    have hu : ∀ x ∈ bases, x ≠ "l2" → x ∉ usesL2 := by decide +kernel
    exact hu q.name hb (h2 q hq)

example : ∀ c ∈ ["m2", "mst", "2ook1"], c ∉ usesL2 := by decide +kernel

theorem cos_II_pos : 0 < cos (II 0 / 2) ∧ 0 < I2 0 := by
  have hc : II 0 = arccos (0.878002436) := by unfold II; norm_num
  have hpos : 0 < II 0 := by
    rw [hc]; exact arccos_pos.mpr (by norm_num)
  have hlt : II 0 < π / 2 := by
    rw [hc]; exact arccos_lt_pi_div_two.mpr (by norm_num)
  exact ⟨cos_pos_of_mem_Ioo ⟨by linarith, by linarith⟩,
    tan_pos_of_pos_of_lt_pi_div_two (by linarith) (by linarith)⟩

theorem Ra1_perigee : Ra1 0 (0 + 360) ≠ Ra1 0 0 := by
  intro hra
  have htan := cos_II_pos.2
  have hxi : xi 0 = 0 := by
    have : (⟨1, 0⟩ : ℂ) = 1 := rfl
    simp [xi, at1, at2, arctan2, this]
  unfold Ra1 at hra
  rw [hxi] at hra
  have hnn : ∀ x : ℝ, 0 ≤ 1 - 12 * I2 0 ^ 2 * cos x + 36 * I2 0 ^ 4 := by
    intro x
    nlinarith [sq_nonneg (1 - 6 * I2 0 ^ 2), mul_nonneg (sq_nonneg (I2 0)) (sub_nonneg.mpr (cos_le_one x))]
  rw [sqrt_inj (hnn _) (hnn _)] at hra
  have hcos1 : cos (2 * (0 + 360 - 0)) = cos (2 * (0 - 0)) := by
    have h2 : 12 * I2 0 ^ 2 ≠ 0 := by positivity
    have : 12 * I2 0 ^ 2 * cos (2 * (0 + 360 - 0)) = 12 * I2 0 ^ 2 * cos (2 * (0 - 0)) := by linarith
    exact mul_left_cancel₀ h2 this
  rw [show (2 : ℝ) * (0 - 0) = 0 by ring, cos_zero, cos_eq_one_iff] at hcos1
  obtain ⟨m, hm⟩ := hcos1
  have hm0 : m ≠ 0 := by
    rintro rfl
    norm_num at hm
  apply irrational_pi
  refine ⟨360 / m, ?_⟩
  push_cast
  have : (m : ℝ) ≠ 0 := by exact_mod_cast hm0
  field_simp
  linarith

/-- C30 fails for L2 with the corrections of FES: the perigee is used in degrees where the
formula wants radians. -/
theorem C30_perigee_false : ∃ n p : ℝ, nodal 2 fesCfg n (p + 360) ["l2"] ≠ nodal 2 fesCfg n p ["l2"] := by
  refine ⟨0, 0, fun h => ?_⟩
  rw [nodal_eq, nodal_eq] at h
  have hr : rule fesCfg "l2" = .fes .l2 := by decide +kernel
  have h' : (one fesCfg 0 (0 + 360) "l2").2 = (one fesCfg 0 0 "l2").2 := by
    simpa using congrArg (fun o : Option (List (ℝ × ℝ)) => o.map fun l => l.map Prod.snd) h
  rw [one_of_rule fesCfg 0 _ "l2" hr rfl, one_of_rule fesCfg 0 _ "l2" hr rfl] at h'
  simp only [Rule.eval, FesKind.eval] at h'
  have hne : cos (II 0 / 2) ^ 4 ≠ 0 := (pow_pos cos_II_pos.1 4).ne'
  rw [div_left_inj' (by norm_num)] at h'
  exact Ra1_perigee (mul_right_cancel₀ hne h')

end Verif.Nodal
