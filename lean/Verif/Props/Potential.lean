import Verif.Lemmas.FesTrig
import Verif.Model.Potential
import Verif.Spec.Potential
/-!
# C103: nodal corrections and the tide-generating potential
-/
namespace Verif.Nodal
open Real Spec.Minor Spec.Potential

/-! ### Rules as sums of unit numbers -/

/-- A sum near the modulation of a rule, and how near it is. -/
def Rule.approx : Rule → Option (Poly × ℚ)
  | .terms s c0 c => some (Poly.terms s c0 c, 0)
  | .direct c0 c us =>
    if ((Poly.sines us).scale degree).size ≤ 1 then
      some ((Poly.terms [] c0 c).mul (Poly.turn us), (Poly.terms [] c0 c).size * turnError us)
    else none
  | .mixed s c0 c us =>
    let z := Poly.terms s c0 c
    let w := z.mul (Poly.turn us).conj
    let d := z.size * turnError us
    if ((Poly.sines us).scale degree).size ≤ 1 ∧ (Poly.collect ((0, 0, -1) :: w)).size + d ≤ 1 then
      some (z, 3 / 2 * ((Poly.collect (w ++ w.conj.scale (-1))).size / 2 + d))
    else none
  | .qOtis a b => if |b| < 1 then some (Poly.terms [⟨b, 1, 0⟩] 1 [⟨b, 1, 0⟩], |b - a|) else none
  | .fes k => k.approx
  | .compound _ => none

theorem vec_single (b : ℚ) (n p : ℝ) : vec [⟨b, 1, 0⟩] 1 [⟨b, 1, 0⟩] n p =
    ⟨1 + b * cos (n * dtr), b * sin (n * dtr)⟩ := by
  rw [vec]
  apply Complex.ext <;> simp [cosSum, sinSum]

theorem approx_near (r : Rule) {P : Poly} {e : ℚ} (h : r.approx = some (P, e)) (n p : ℝ)
    (hn : (∃ k, r = .fes k) → cos (n * dtr / 2) ≠ 0) :
    ‖phasor (r.eval n p) - P.val n p‖ ≤ (e : ℝ) := by
  cases r with
  | terms s c0 c =>
    simp only [Rule.approx, Option.some.injEq, Prod.mk.injEq] at h
    obtain ⟨rfl, rfl⟩ := h
    rw [phasor_polar (terms_polar s c0 c n p), val_terms, sub_self]
    simp
  | direct c0 c us =>
    rw [Rule.approx] at h
    split at h
    · next hs =>
      simp only [Option.some.injEq, Prod.mk.injEq] at h
      obtain ⟨rfl, rfl⟩ := h
      have h1 := turn_near us n p hs
      have e1 : phasor ((Rule.direct c0 c us).eval n p) = (Poly.terms [] c0 c).val n p *
          Complex.exp (((dtr * sinSum us n p : ℝ) : ℂ) * Complex.I) := by
        rw [val_terms]
        unfold phasor Rule.eval
        congr 1
      rw [e1, val_mul, ← mul_sub, norm_mul, Rat.cast_mul]
      exact mul_le_mul (norm_le_size _ n p) h1 (norm_nonneg _)
        (le_trans (norm_nonneg _) (norm_le_size (Poly.terms [] c0 c) n p))
    · exact absurd h (by simp)
  | mixed s c0 c us =>
    rw [Rule.approx] at h
    split at h
    · next hs =>
      obtain ⟨hs, hre⟩ := hs
      simp only [Option.some.injEq, Prod.mk.injEq] at h
      obtain ⟨rfl, rfl⟩ := h
      obtain ⟨z, hz⟩ : ∃ z, z = Poly.terms s c0 c := ⟨_, rfl⟩
      obtain ⟨E, hE⟩ : ∃ E, E = Complex.exp (((dtr * sinSum us n p : ℝ) : ℂ) * Complex.I) := ⟨_, rfl⟩
      obtain ⟨w, hw⟩ : ∃ w, w = z.mul (Poly.turn us).conj := ⟨_, rfl⟩
      rw [← hz] at hre ⊢
      rw [← hw] at hre ⊢
      have h1 := turn_near us n p hs
      rw [← hE] at h1
      have hE1 : ‖E‖ = 1 := by rw [hE]; exact Complex.norm_exp_ofReal_mul_I _
      have e1 : phasor ((Rule.mixed s c0 c us).eval n p) = (‖z.val n p‖ : ℂ) * E := by
        rw [hz, val_terms, hE]
        unfold phasor Rule.eval vec
        rw [Complex.norm_def, Complex.normSq_mk]
        congr 2
        dsimp only
        congr 1
        ring_nf
      have hd : ‖z.val n p * (starRingEnd ℂ) E - w.val n p‖ ≤ ((z.size * turnError us : ℚ) : ℝ) := by
        rw [hw, val_mul, val_conj, ← mul_sub, ← map_sub, norm_mul, Complex.norm_conj]
        push_cast
        exact mul_le_mul (norm_le_size _ n p) h1 (norm_nonneg _)
          (le_trans (norm_nonneg _) (norm_le_size z n p))
      obtain ⟨v, hv⟩ : ∃ v, v = z.val n p * (starRingEnd ℂ) E := ⟨_, rfl⟩
      rw [← hv] at hd
      have hEE : E * (starRingEnd ℂ) E = 1 := by
        rw [Complex.mul_conj, Complex.normSq_eq_norm_sq, hE1]
        simp
      have hvz : z.val n p = v * E := by
        rw [hv, mul_assoc, mul_comm _ E, hEE, mul_one]
      have hn : ‖z.val n p‖ = ‖v‖ := by rw [hvz, norm_mul, hE1, mul_one]
      have e2 : ‖phasor ((Rule.mixed s c0 c us).eval n p) - z.val n p‖ = ‖(‖v‖ : ℂ) - v‖ := by
        rw [e1, hn, hvz, ← sub_mul, norm_mul, hE1, mul_one]
      have h0 : 0 ≤ v.re := by
        have h2 := norm_le_size (Poly.collect ((0, 0, -1) :: w)) n p
        rw [val_collect, val_cons, unit_zero] at h2
        have h3 : ‖v - 1‖ ≤ 1 := by
          have e3 : v - 1 = (v - w.val n p) + (((-1 : ℚ) : ℂ) * 1 + w.val n p) := by
            push_cast
            ring
          rw [e3]
          refine (norm_add_le _ _).trans ?_
          have hre' : ((Poly.collect ((0, 0, -1) :: w)).size : ℝ) + ((z.size * turnError us : ℚ) : ℝ) ≤ 1 := by
            exact_mod_cast hre
          linarith
        have h4 := (Complex.abs_re_le_norm (v - 1)).trans h3
        rw [Complex.sub_re, Complex.one_re, abs_le] at h4
        linarith [h4.1]
      rw [e2]
      refine (near_axis v h0).trans ?_
      have h5 := im_le w n p
      have h6 : |v.im| ≤ |(w.val n p).im| + ‖v - w.val n p‖ := by
        have := Complex.abs_im_le_norm (v - w.val n p)
        rw [Complex.sub_im] at this
        have h7 := abs_add_le (w.val n p).im (v.im - (w.val n p).im)
        rw [add_sub_cancel] at h7
        linarith
      push_cast at h5 hd ⊢
      linarith
    · exact absurd h (by simp)
  | qOtis a b =>
    rw [Rule.approx] at h
    split at h
    · next hb =>
      simp only [Option.some.injEq, Prod.mk.injEq] at h
      obtain ⟨rfl, rfl⟩ := h
      rw [val_terms]
      have e : (Rule.qOtis a b).eval n p =
          (Complex.arg (vec [⟨b, 1, 0⟩] 1 [⟨b, 1, 0⟩] n p), ‖vec [⟨a, 1, 0⟩] 1 [⟨a, 1, 0⟩] n p‖) := by
        rw [vec_single, vec_single, Complex.norm_def, Complex.normSq_mk]
        unfold Rule.eval
        refine Prod.ext ?_ ?_
        · simp only
          refine arctan_arg ?_
          have hb' : |(b : ℝ)| < 1 := by exact_mod_cast hb
          have h1 : |(b : ℝ) * cos (n * dtr)| < 1 := by
            rw [abs_mul]
            nlinarith [abs_cos_le_one (n * dtr), abs_nonneg (b : ℝ), abs_nonneg (cos (n * dtr))]
          rw [abs_lt] at h1
          linarith [h1.1]
        · simp only
          refine congrArg Real.sqrt ?_
          ring
      rw [e]
      refine (phasor_mixed _ _).trans ?_
      have e3 : vec [⟨b, 1, 0⟩] 1 [⟨b, 1, 0⟩] n p - vec [⟨a, 1, 0⟩] 1 [⟨a, 1, 0⟩] n p =
          ((b - a : ℚ) : ℂ) * unit 1 0 n p := by
        rw [vec_single, vec_single, unit_eq, show (((1 : ℤ) : ℝ) * n + ((0 : ℤ) : ℝ) * p) * dtr = n * dtr by
          push_cast; ring]
        generalize cos (n * dtr) = x
        generalize sin (n * dtr) = y
        apply Complex.ext
        · simp
          ring
        · simp
          ring
      rw [e3, norm_mul, unit_norm, mul_one]
      rw [Complex.norm_ratCast]
      push_cast
      exact le_refl _
    · exact absurd h (by simp)
  | fes k => exact fes_near k h n p (hn ⟨k, rfl⟩)
  | compound ps => simp [Rule.approx] at h

/-! ### Lines as sums of unit numbers -/

/-- The lines near `m` as a sum. -/
def ofLines (lines : List Line) (m : Line) : Poly :=
  (lines.filter (near m)).map fun l => (-(l.n - m.n), l.p - m.p, l.amplitude / m.amplitude)

theorem val_ofLines (lines : List Line) (m : Line) (n p : ℝ) :
    (ofLines lines m).val n p = modulation lines m n p := by
  unfold ofLines Poly.val modulation
  rw [List.map_map]
  congr 1
  refine List.map_congr_left fun l _ => ?_
  simp only [Function.comp, unit, angle, dtr]
  congr 3
  push_cast
  ring

/-- The difference of a rule and the lines is small. -/
def follows (r : Rule) (lines : List Line) (m : Line) (e : ℚ) : Bool :=
  match r.approx with
  | some (P, d) => decide ((Poly.collect (P ++ (ofLines lines m).scale (-1))).size + d ≤ e)
  | none => false

theorem follows_near {r : Rule} {lines : List Line} {m : Line} {e : ℚ} (h : follows r lines m e = true)
    (n p : ℝ) (hn : (∃ k, r = .fes k) → cos (n * dtr / 2) ≠ 0) :
    ‖phasor (r.eval n p) - modulation lines m n p‖ ≤ (e : ℝ) := by
  unfold follows at h
  split at h
  · next P d hP =>
    have h1 := approx_near r hP n p hn
    have h2 := norm_le_size (Poly.collect (P ++ (ofLines lines m).scale (-1))) n p
    rw [val_collect, val_append, val_scale, val_ofLines] at h2
    have h3 : ((Poly.collect (P ++ (ofLines lines m).scale (-1))).size : ℝ) + (d : ℝ) ≤ (e : ℝ) := by
      exact_mod_cast of_decide_eq_true h
    rw [← sub_add_sub_cancel _ (P.val n p)]
    refine (norm_add_le _ _).trans ?_
    have e2 : P.val n p + ((-1 : ℚ) : ℂ) * modulation lines m n p = P.val n p - modulation lines m n p := by
      push_cast
      ring
    rw [e2] at h2
    linarith
  · exact absurd h (by simp)

/-! ### The tables -/

/-- A row of a table as a line, with the amplitude of the latest epoch. -/
def line (r : Potential.Row) : Line := ⟨r.tau, r.s, r.h, r.p, r.n, r.pp, r.hs3⟩

/-- The lines of a degree. -/
def lines (degree : ℕ) : List Line :=
  if degree = 2 then (Potential.ce1973 ++ Potential.d1921.filter fun r => r.tau ≤ 2).map line
  else (Potential.ct1971 ++ Potential.d1921.filter fun r => r.tau = 3).map line

/-- The numbers of a line. -/
def numbers (l : Line) : List ℤ := [l.tau, l.s, l.h, l.p, l.n, l.pp]

/-- The settings of a convention. -/
def conventionCfg (m : M1) : Spec.Potential.Kind → Cfg
  | .otis => ⟨true, false, false, m⟩
  | .got => ⟨false, false, false, m⟩
  | .perth3 => ⟨false, false, true, m⟩
  | .fes => ⟨false, true, false, m⟩

theorem cfg_convention (kind : Spec.Potential.Kind) (corrections m1 : String) (h : corrections ∈ kind.keywords) :
    Cfg.ofKwargs corrections m1 = conventionCfg (Cfg.ofKwargs corrections m1).m1 kind := by
  cases kind <;> simp only [Spec.Potential.Kind.keywords, List.mem_cons, List.not_mem_nil, or_false] at h
  · rcases h with rfl | rfl | rfl | rfl <;> rfl
  · subst h; rfl
  · subst h; rfl
  · subst h; rfl

/-- The phase column of a constituent belongs to the sign of its line. -/
def phased (degree : ℕ) (m : Line) (k : ℤ) : Bool :=
  let g : ℚ := sign degree m.tau * |m.amplitude|
  if (degree + m.tau) % 2 = 0 then (k % 4 == 0 && m.amplitude == g) || (k % 4 == 2 && m.amplitude == -g)
  else (k % 4 == 3 && m.amplitude == g) || (k % 4 == 1 && m.amplitude == -g)

/-- Constituents whose phase column does not belong to their line: compounds of the same frequency, and two
that are counted with the sign of the second degree or of the main line of their group. -/
def otherPhase : List String := ["m3", "m2a", "s1-1", "rp1"]

/-- A branch of the FES corrections. -/
def Rule.ofFes : Rule → Bool
  | .fes _ => true
  | _ => false

/-- The check of one constituent. -/
def verified (q : Entry) : Bool :=
  match Coef.table.lookup q.name with
  | some [a, b, c, d, e, f, g] =>
    match (lines q.degree).find? fun l => numbers l == [a, b, c, d, e, f] with
    | some m =>
      let cs := cands false q.name chain
      m.amplitude != 0 && e == 0 && (phased q.degree m g || otherPhase.contains q.name) &&
      cs.all (fun b => match b.1 with | .m1 _ => false | _ => true) &&
      [Spec.Potential.Kind.otis, .got, .perth3, .fes].all fun kind => match q.bound kind with
        | some x =>
          let r := pick (conventionCfg .other kind) cs
          r.plain && (kind == .fes || !r.ofFes) && follows r (lines q.degree) m x
        | none => true
    | none => false
  | _ => false

theorem entries_verified : ∀ q ∈ entries, verified q = true := by decide +kernel

/-! ### Sums of lines -/

theorem together_eq (ls : List Line) (m : Line) (hm : m.amplitude ≠ 0) (x : Sky) :
    together ls m x = (m.amplitude : ℂ) * Complex.exp (phase m x * Complex.I) * modulation ls m x.N x.p := by
  unfold together modulation
  rw [← List.sum_map_mul_left]
  congr 1
  refine List.map_congr_left fun l hl => ?_
  have hn := (List.mem_filter.1 hl).2
  simp only [near, Bool.and_eq_true, beq_iff_eq] at hn
  obtain ⟨⟨⟨h1, h2⟩, h3⟩, h4⟩ := hn
  have e : phase l x = phase m x + angle m l x.N x.p * (Real.pi / 180) := by
    unfold phase angle
    rw [h1, h2, h3, h4]
    ring
  have hm' : (m.amplitude : ℂ) ≠ 0 := by exact_mod_cast hm
  rw [e]
  push_cast
  rw [add_mul, Complex.exp_add]
  field_simp

theorem together_near {ls : List Line} {m : Line} (hm : m.amplitude ≠ 0) (x : Sky) {uf : ℝ × ℝ} {e : ℝ}
    (h : ‖phasor uf - modulation ls m x.N x.p‖ ≤ e) :
    ‖together ls m x - (m.amplitude : ℂ) * uf.2 * Complex.exp ((phase m x + uf.1 : ℝ) * Complex.I)‖ ≤
      e * |(m.amplitude : ℝ)| := by
  have e1 : together ls m x - (m.amplitude : ℂ) * uf.2 * Complex.exp ((phase m x + uf.1 : ℝ) * Complex.I) =
      (m.amplitude : ℂ) * Complex.exp (phase m x * Complex.I) * -(phasor uf - modulation ls m x.N x.p) := by
    rw [together_eq ls m hm, phasor]
    push_cast
    rw [add_mul, Complex.exp_add]
    ring
  rw [e1, norm_mul, norm_mul, Complex.norm_exp_ofReal_mul_I, mul_one, norm_neg, Complex.norm_ratCast, mul_comm]
  exact mul_le_mul_of_nonneg_right h (abs_nonneg _)

theorem map_re (l : List Line) (f : Line → ℂ) : ((l.map f).sum).re = (l.map fun a => (f a).re).sum := by
  induction l with
  | nil => rfl
  | cons a l ih => simp [ih]

theorem map_im (l : List Line) (f : Line → ℂ) : ((l.map f).sum).im = (l.map fun a => (f a).im).sum := by
  induction l with
  | nil => rfl
  | cons a l ih => simp [ih]

theorem potential_eq (d : ℕ) (ls : List Line) (m : Line) (x : Sky) : potential d ls m x =
    if (d + m.tau) % 2 = 0 then (together ls m x).re else (together ls m x).im := by
  unfold potential together
  rw [map_re, map_im]
  split
  · next h =>
    congr 1
    refine List.map_congr_left fun l hl => ?_
    have hn := (List.mem_filter.1 hl).2
    simp only [near, Bool.and_eq_true, beq_iff_eq] at hn
    rw [wave, ← hn.1.1.1, if_pos h, ← Complex.ofReal_ratCast, Complex.re_ofReal_mul, Complex.exp_ofReal_mul_I_re]
  · next h =>
    congr 1
    refine List.map_congr_left fun l hl => ?_
    have hn := (List.mem_filter.1 hl).2
    simp only [near, Bool.and_eq_true, beq_iff_eq] at hn
    rw [wave, ← hn.1.1.1, if_neg h, ← Complex.ofReal_ratCast, Complex.im_ofReal_mul, Complex.exp_ofReal_mul_I_im]

/-- The wave of a line with the phase column. -/
theorem phased_wave {d : ℕ} {m : Line} {k : ℤ} (h : phased d m k = true) (y : ℝ) :
    (m.amplitude : ℝ) * wave d m.tau y = sign d m.tau * |(m.amplitude : ℝ)| * cos (y + k * (π / 2)) := by
  have hk : (k : ℝ) * (π / 2) = (k % 4 : ℤ) * (π / 2) + (k / 4 : ℤ) * (2 * π) := by
    have := Int.emod_add_mul_ediv k 4
    have h2 : (k : ℝ) = ((k % 4 : ℤ) : ℝ) + 4 * ((k / 4 : ℤ) : ℝ) := by exact_mod_cast this.symm
    linear_combination (π / 2) * h2
  rw [hk, ← add_assoc, cos_add_int_mul_two_pi]
  have cast : ∀ {q : ℚ}, m.amplitude = q → (m.amplitude : ℝ) = (q : ℝ) := fun h => by exact_mod_cast h
  unfold phased at h
  dsimp only at h
  unfold wave
  split at h
  · next hw =>
    rw [if_pos hw]
    simp only [Bool.or_eq_true, Bool.and_eq_true, beq_iff_eq] at h
    rcases h with ⟨h1, h2⟩ | ⟨h1, h2⟩
    · have := cast h2
      push_cast at this
      rw [h1, ← this]
      simp
    · have := cast h2
      push_cast at this
      rw [h1, show y + ((2 : ℤ) : ℝ) * (π / 2) = y + π by push_cast; ring, cos_add_pi]
      linear_combination cos y * this
  · next hw =>
    rw [if_neg hw]
    simp only [Bool.or_eq_true, Bool.and_eq_true, beq_iff_eq] at h
    rcases h with ⟨h1, h2⟩ | ⟨h1, h2⟩
    · have := cast h2
      push_cast at this
      rw [h1, show y + ((3 : ℤ) : ℝ) * (π / 2) = y + π + π / 2 by push_cast; ring, cos_add_pi_div_two, sin_add_pi]
      linear_combination sin y * this
    · have := cast h2
      push_cast at this
      rw [h1, show y + ((1 : ℤ) : ℝ) * (π / 2) = y + π / 2 by push_cast; ring, cos_add_pi_div_two]
      linear_combination sin y * this

/-! ### The properties -/

theorem pick_m1 (kind : Spec.Potential.Kind) (m : M1) (cs : List (Cond × Rule))
    (h : cs.all (fun b => match b.1 with | .m1 _ => false | _ => true) = true) :
    pick (conventionCfg m kind) cs = pick (conventionCfg .other kind) cs := by
  have e : cs.find? (fun b => b.1.holds (conventionCfg m kind)) =
      cs.find? (fun b => b.1.holds (conventionCfg .other kind)) := by
    refine List.find?_congr fun b hb => ?_
    have := List.all_eq_true.1 h b hb
    cases hb : b.1 <;> simp [hb] at this <;> cases kind <;> rfl
  unfold pick
  rw [e]

/-- What the check says. -/
theorem entry_facts (kind : Spec.Potential.Kind) (q : Entry) (hq : q ∈ entries) {e : ℚ}
    (he : q.bound kind = some e) : ∃ m ∈ lines q.degree, ∃ k : ℤ,
    Coef.table.lookup q.name = some (numbers m ++ [k]) ∧ m.amplitude ≠ 0 ∧ m.n = 0 ∧
    (q.name ∉ otherPhase → phased q.degree m k = true) ∧
    ∀ mm, ((rule (conventionCfg mm kind) q.name).plain = true ∧
      (kind = .fes ∨ (rule (conventionCfg mm kind) q.name).ofFes = false)) ∧
      follows (rule (conventionCfg mm kind) q.name) (lines q.degree) m e = true := by
  have h := entries_verified q hq
  unfold verified at h
  split at h
  · next a b c d en f g hl =>
    split at h
    · next m hm =>
      simp only [Bool.and_eq_true, bne_iff_ne, ne_eq, beq_iff_eq, Bool.or_eq_true, List.contains_iff_mem] at h
      obtain ⟨⟨⟨⟨h1, h2⟩, h3⟩, h4⟩, h5⟩ := h
      have hnum : numbers m = [a, b, c, d, en, f] := by
        have := List.find?_some hm
        simpa using this
      have h6 := List.all_eq_true.1 h5 kind (by cases kind <;> simp)
      rw [he] at h6
      simp only [Bool.and_eq_true, Bool.or_eq_true, beq_iff_eq, Bool.not_eq_true'] at h6
      refine ⟨m, List.mem_of_find?_eq_some hm, g, ?_, h1, ?_, ?_, ?_⟩
      · rw [hl, hnum]; rfl
      · simp only [numbers, List.cons.injEq] at hnum
        rw [hnum.2.2.2.2.1, h2]
      · intro hn
        exact h3.resolve_right hn
      · intro mm
        rw [rule_eq_pick _ _ false (by simp), pick_m1 kind mm _ h4]
        exact h6
    · exact absurd h (by simp)
  · exact absurd h (by simp)

theorem names_s1 : ∀ q ∈ entries, q.name ≠ "s1" := by decide +kernel

/-- The angles of a sky that `arguments` uses. -/
noncomputable def skyAt (corrections : String) (deltat MJD : ℝ) : Sky :=
  let l := Astro.meanLongitudes (Astro.modeOf corrections) (MJD + deltat)
  ⟨15 * (24 * Num.fmod MJD 1) - l.s + l.h, l.s, l.h, l.p, l.n, l.pp⟩

/-- The longitudes of the node for which the tangents of the FES corrections exist. -/
theorem node_half {N : ℝ} (h : ∀ j : ℤ, N ≠ 180 + 360 * j) : cos (N * (π / 180) / 2) ≠ 0 := by
  rw [Ne, cos_eq_zero_iff]
  rintro ⟨j, hj⟩
  refine h j ?_
  have hpi := pi_ne_zero
  field_simp at hj
  linarith

/-- **C103.** -/
theorem C103_modulation_partial (kind : Spec.Potential.Kind) (corrections m1 : String)
    (h : corrections ∈ kind.keywords) (q : Entry) (hq : q ∈ entries) (e : ℚ) (he : q.bound kind = some e)
    (x : Sky) (hx : kind = .fes → ∀ j : ℤ, x.N ≠ 180 + 360 * j) :
    ∃ m ∈ lines q.degree, ∃ k u f,
      Astro.row corrections q.name = .ok [m.tau, m.s, m.h, m.p, m.n, m.pp, k] ∧
      nodal 2 (Cfg.ofKwargs corrections m1) x.N x.p [q.name] = some [(u, f)] ∧
      ‖together (lines q.degree) m x -
        (m.amplitude : ℂ) * f * Complex.exp ((phase m x + u : ℝ) * Complex.I)‖ ≤ e * |(m.amplitude : ℝ)| := by
  obtain ⟨m, hm, k, hl, h0, -, -, hf⟩ := entry_facts kind q hq he
  have hcfg := cfg_convention kind corrections m1 h
  generalize (Cfg.ofKwargs corrections m1).m1 = mm at hcfg
  obtain ⟨⟨hp, hfes⟩, hfo⟩ := hf mm
  refine ⟨m, hm, k, _, _, ?_, ?_, together_near (uf := one (conventionCfg mm kind) x.N x.p q.name) h0 x ?_⟩
  · exact Astro.row_eq corrections q.name (names_s1 q hq) hl
  · rw [hcfg, nodal_eq _ _ _ 0]
    rfl
  · rw [one_plain _ _ _ hp]
    refine follows_near hfo _ _ ?_
    rintro ⟨k', hk'⟩
    rw [hk'] at hfes
    exact node_half (hx (hfes.resolve_right (by simp [Rule.ofFes])))

/-- **C104.** -/
theorem C104_potential_partial (kind : Spec.Potential.Kind) (corrections m1 : String)
    (h : corrections ∈ kind.keywords) (q : Entry) (hq : q ∈ entries) (e : ℚ) (he : q.bound kind = some e)
    (hp : q.name ∉ ["m3", "m2a", "s1-1", "rp1"]) (deltat MJD : ℝ)
    (hx : kind = .fes → ∀ j : ℤ, (skyAt corrections deltat MJD).N ≠ 180 + 360 * j) :
    ∃ m ∈ lines q.degree, ∃ k u f G,
      Astro.row corrections q.name = .ok [m.tau, m.s, m.h, m.p, m.n, m.pp, k] ∧
      Astro.arguments corrections m1 deltat MJD [q.name] = .ok ([(u, f)], [G]) ∧
      |potential q.degree (lines q.degree) m (skyAt corrections deltat MJD) -
        sign q.degree m.tau * |(m.amplitude : ℝ)| * f * cos (G * (π / 180) + u)| ≤
          e * |(m.amplitude : ℝ)| := by
  obtain ⟨m, hm, k, hl, h0, hn, hph, hf⟩ := entry_facts kind q hq he
  have hcfg := cfg_convention kind corrections m1 h
  generalize hm1 : (Cfg.ofKwargs corrections m1).m1 = mm at hcfg
  obtain ⟨⟨hpl, hfes⟩, hfo⟩ := hf mm
  have hrow := Astro.row_eq corrections q.name (names_s1 q hq) hl
  obtain ⟨x, hsky⟩ : ∃ x, x = skyAt corrections deltat MJD := ⟨_, rfl⟩
  have ha := Astro.arguments_one corrections m1 deltat MJD q.name hrow
  have hmod : ‖phasor (one (conventionCfg mm kind) x.N x.p q.name) - modulation (lines q.degree) m x.N x.p‖ ≤
      (e : ℝ) := by
    rw [one_plain _ _ _ hpl]
    refine follows_near hfo _ _ ?_
    rintro ⟨k', hk'⟩
    rw [hk'] at hfes
    rw [hsky]
    exact node_half (hx (hfes.resolve_right (by simp [Rule.ofFes])))
  have ht := together_near h0 x hmod
  obtain ⟨⟨u, f⟩, huf⟩ : ∃ uf, uf = one (conventionCfg mm kind) x.N x.p q.name := ⟨_, rfl⟩
  rw [← huf] at ht
  have hG : Astro.dot (Astro.fargs corrections deltat MJD) (numbers m ++ [k]) * (π / 180) =
      phase m x + k * (π / 2) := by
    rw [hsky]
    simp only [Astro.dot, Astro.fargs, numbers, skyAt, phase, List.cons_append, List.nil_append, List.zipWith,
      List.sum_cons, List.sum_nil, hn]
    push_cast
    ring
  refine ⟨m, hm, k, u, f, Astro.dot (Astro.fargs corrections deltat MJD) (numbers m ++ [k]), hrow, ?_, ?_⟩
  · rw [ha, hcfg]
    rw [hsky] at huf
    simp only [skyAt] at huf
    rw [← huf]
  · rw [hG, ← hsky]
    have hw := phased_wave (hph hp) (phase m x + u)
    rw [show phase m x + ↑k * (π / 2) + u = phase m x + u + ↑k * (π / 2) by ring]
    have e2 : (sign q.degree m.tau : ℝ) * |(m.amplitude : ℝ)| * f * cos (phase m x + u + ↑k * (π / 2)) =
        (m.amplitude : ℝ) * f * wave q.degree m.tau (phase m x + u) := by
      linear_combination -f * hw
    rw [e2, potential_eq, wave]
    have er : ((m.amplitude : ℂ) * f * Complex.exp ((phase m x + u : ℝ) * Complex.I)) =
        ((m.amplitude * f : ℝ) : ℂ) * Complex.exp ((phase m x + u : ℝ) * Complex.I) := by push_cast; ring
    dsimp only at ht
    rw [er] at ht
    split
    · have h3 := (Complex.abs_re_le_norm _).trans ht
      rwa [Complex.sub_re, Complex.re_ofReal_mul, Complex.exp_ofReal_mul_I_re] at h3
    · have h3 := (Complex.abs_im_le_norm _).trans ht
      rwa [Complex.sub_im, Complex.im_ofReal_mul, Complex.exp_ofReal_mul_I_im] at h3

/-! ### Where the claims fail -/

/-- The value of a sum when node and perigee are at multiples of 180 degrees. -/
def Poly.signs (l : Poly) (a b : ℤ) : ℚ :=
  (l.map fun t => t.2.2 * (if (t.1 * a + t.2.1 * b) % 2 = 0 then 1 else -1)).sum

theorem unit_sign (j k a b : ℤ) : unit j k (180 * a) (180 * b) =
    (((if (j * a + k * b) % 2 = 0 then 1 else -1) : ℚ) : ℂ) := by
  rw [unit_eq, show ((j : ℝ) * (180 * a) + k * (180 * b)) * dtr = ((j * a + k * b : ℤ) : ℝ) * π by
    unfold dtr; push_cast; ring, sin_int_mul_pi, cos_int_mul_pi]
  split
  · next h =>
    rw [Even.neg_one_zpow (Int.even_iff.2 h)]
    simp
  · next h =>
    rw [Odd.neg_one_zpow (Int.not_even_iff_odd.1 fun he => h (Int.even_iff.1 he))]
    simp

theorem val_signs (l : Poly) (a b : ℤ) : l.val (180 * a) (180 * b) = ((l.signs a b : ℚ) : ℂ) := by
  induction l with
  | nil => simp [Poly.val, Poly.signs]
  | cons t l ih =>
    have e : Poly.signs (t :: l) a b =
      t.2.2 * (if (t.1 * a + t.2.1 * b) % 2 = 0 then 1 else -1) + Poly.signs l a b := rfl
    rw [val_cons, ih, e, unit_sign]
    push_cast
    ring

/-- A series rule that is far from its lines. -/
def distant (r : Rule) (ls : List Line) (m : Line) (a b : ℤ) (e : ℚ) : Bool :=
  match r with
  | .terms s c0 c => decide (e ≤ |(Poly.terms s c0 c).signs a b - (ofLines ls m).signs a b|)
  | _ => false

theorem distant_far {r : Rule} {ls : List Line} {m : Line} {a b : ℤ} {e : ℚ}
    (h : distant r ls m a b e = true) :
    (e : ℝ) ≤ ‖phasor (r.eval (180 * a) (180 * b)) - modulation ls m (180 * a) (180 * b)‖ := by
  unfold distant at h
  split at h
  · next s c0 c =>
    rw [phasor_polar (terms_polar s c0 c _ _), ← val_terms, ← val_ofLines, val_signs, val_signs, ← Rat.cast_sub,
      Complex.norm_ratCast]
    exact_mod_cast of_decide_eq_true h
  · exact absurd h (by simp)

theorem together_far {ls : List Line} {m : Line} (hm : m.amplitude ≠ 0) (x : Sky) {uf : ℝ × ℝ} {e : ℝ}
    (h : e ≤ ‖phasor uf - modulation ls m x.N x.p‖) : e * |(m.amplitude : ℝ)| ≤
    ‖together ls m x - (m.amplitude : ℂ) * uf.2 * Complex.exp ((phase m x + uf.1 : ℝ) * Complex.I)‖ := by
  have e1 : together ls m x - (m.amplitude : ℂ) * uf.2 * Complex.exp ((phase m x + uf.1 : ℝ) * Complex.I) =
      (m.amplitude : ℂ) * Complex.exp (phase m x * Complex.I) * -(phasor uf - modulation ls m x.N x.p) := by
    rw [together_eq ls m hm, phasor]
    push_cast
    rw [add_mul, Complex.exp_add]
    ring
  rw [e1, norm_mul, norm_mul, Complex.norm_exp_ofReal_mul_I, mul_one, norm_neg, Complex.norm_ratCast, mul_comm e]
  exact mul_le_mul_of_nonneg_left h (abs_nonneg _)

/-- Constituents with the degree of their line, multiples of 180 degrees of node and perigee, and the distance of
their corrections from the sum of the lines there. -/
def failures : List (String × ℕ × ℤ × ℤ × ℚ) := [("mt", 2, 0, 0, 0.22), ("mp", 2, 0, 0, 0.42),
  ("alpha1", 2, 0, 0, 0.19), ("tau1", 2, 1, 0, 0.27), ("the1", 2, 0, 0, 0.19), ("theta1", 2, 0, 0, 0.19),
  ("oo1", 2, 0, 0, 0.18), ("zeta2", 2, 0, 0, 0.15), ("l2b", 2, 0, 0, 3.8), ("m1", 3, 0, 0, 0.87)]

def refuted (q : String × ℕ × ℤ × ℤ × ℚ) : Bool :=
  match Coef.table.lookup q.1 with
  | some [a, b, c, d, e, f, _] =>
    match (lines q.2.1).find? fun l => numbers l == [a, b, c, d, e, f] with
    | some m => m.amplitude != 0 && (rule (conventionCfg .perth5 .otis) q.1).plain &&
        distant (rule (conventionCfg .perth5 .otis) q.1) (lines q.2.1) m q.2.2.1 q.2.2.2.1 q.2.2.2.2
    | none => false
  | _ => false

theorem failures_refuted : ∀ q ∈ failures, refuted q = true := by decide +kernel

theorem failures_s1 : ∀ q ∈ failures, q.1 ≠ "s1" := by decide +kernel

/-- **C103 refuted** for the corrections of OTIS with the default rule of m1: there are longitudes of node and
perigee for which these corrections are far from the sum of the lines. -/
theorem C103_otis_false (q : String × ℕ × ℤ × ℤ × ℚ) (hq : q ∈ failures) :
    ∃ x : Sky, ∃ m ∈ lines q.2.1, ∃ k u f, m.amplitude ≠ 0 ∧
      Astro.row "OTIS" q.1 = .ok [m.tau, m.s, m.h, m.p, m.n, m.pp, k] ∧
      nodal 2 (Cfg.ofKwargs "OTIS" "perth5") x.N x.p [q.1] = some [(u, f)] ∧
      q.2.2.2.2 * |(m.amplitude : ℝ)| ≤ ‖together (lines q.2.1) m x -
        (m.amplitude : ℂ) * f * Complex.exp ((phase m x + u : ℝ) * Complex.I)‖ := by
  have h := failures_refuted q hq
  unfold refuted at h
  split at h
  · next a b c d en f g hl =>
    split at h
    · next m hm =>
      simp only [Bool.and_eq_true, bne_iff_ne, ne_eq] at h
      obtain ⟨⟨h1, h2⟩, h3⟩ := h
      have hnum : numbers m = [a, b, c, d, en, f] := by
        have := List.find?_some hm
        simpa using this
      have hl' : Coef.table.lookup q.1 = some (numbers m ++ [g]) := by rw [hl, hnum]; rfl
      refine ⟨⟨0, 0, 0, 180 * q.2.2.2.1, 180 * q.2.2.1, 0⟩, m, List.mem_of_find?_eq_some hm, g, _, _, h1,
        Astro.row_eq "OTIS" q.1 (failures_s1 q hq) hl', ?_,
        together_far (uf := one (conventionCfg .perth5 .otis) (180 * q.2.2.1) (180 * q.2.2.2.1) q.1) h1 _ ?_⟩
      · rw [show Cfg.ofKwargs "OTIS" "perth5" = conventionCfg .perth5 .otis from rfl, nodal_eq _ _ _ 0]
        rfl
      · rw [one_plain _ _ _ h2]
        exact distant_far h3
    · exact absurd h (by simp)
  · exact absurd h (by simp)

/-- **C104 refuted** for constituents with a multiple of the node: `arguments` takes the longitude of the ascending
node for its opposite, so the phase is that of a line with the opposite number, whatever the time. -/
theorem C104_node_false (corrections m1 c : String) (hc : c ≠ "s1") (deltat MJD : ℝ) (m : Line) (k : ℤ)
    (h : Coef.table.lookup c = some [m.tau, m.s, m.h, m.p, m.n, m.pp, k]) :
    ∃ uf G, Astro.arguments corrections m1 deltat MJD [c] = .ok ([uf], [G]) ∧
      G * (π / 180) = phase { m with n := -m.n } (skyAt corrections deltat MJD) + k * (π / 2) ∧
      G * (π / 180) = phase m (skyAt corrections deltat MJD) + k * (π / 2) +
        2 * m.n * (skyAt corrections deltat MJD).N * (π / 180) := by
  refine ⟨_, _, Astro.arguments_one corrections m1 deltat MJD c (Astro.row_eq corrections c hc h), ?_, ?_⟩
  · simp only [Astro.dot, Astro.fargs, skyAt, phase, List.zipWith, List.sum_cons, List.sum_nil]
    push_cast
    ring
  · simp only [Astro.dot, Astro.fargs, skyAt, phase, List.zipWith, List.sum_cons, List.sum_nil]
    push_cast
    ring

/-- Constituents with a multiple of the node, and their lines. -/
def sides : List (String × Line × ℤ) := [("mfn", ⟨0, 2, 0, 0, 1, 0, -0.02762⟩, 0),
  ("o1n", ⟨1, -1, 0, 0, -1, 0, -0.04945⟩, -1), ("k1n", ⟨1, 1, 0, 0, 1, 0, 0.05001⟩, 1),
  ("m2-", ⟨2, 0, 0, 0, -1, 0, -0.02358⟩, 2)]

/-- They are lines of the potential, with the phase column of their sign, and the lines with the opposite number
are missing or much smaller: the phases of `C104_node_false` belong to no line that could be meant. -/
theorem C104_sides : ∀ q ∈ sides, q.2.1 ∈ lines 2 ∧ Coef.table.lookup q.1 = some (numbers q.2.1 ++ [q.2.2]) ∧
    phased 2 q.2.1 q.2.2 = true ∧ ∀ l ∈ lines 2, numbers l = numbers { q.2.1 with n := -q.2.1.n } →
      |l.amplitude| < |q.2.1.amplitude| / 6 := by
  decide +kernel

/-! ### Examples -/

/-- The tables are not empty, and the largest line of each species is a constituent with a small bound. -/
example : ∃ q ∈ entries, q.name = "m2" ∧ q.bound .otis = some 0.0008 ∧ q.bound .fes = some 0.0011 ∧
    (⟨2, 0, 0, 0, 0, 0, 0.63192⟩ : Line) ∈ lines q.degree := by
  refine ⟨⟨"m2", 2, some 0.0008, some 0.0008, some 0.0020, some 0.0011⟩, ?_, rfl, rfl, rfl, ?_⟩
  · simp [entries]
  · decide +kernel

/-- A sky for which the corrections of FES exist. -/
example : ∀ j : ℤ, (0 : ℝ) ≠ 180 + 360 * j := by
  intro j h
  have : (0 : ℤ) = 180 + 360 * j := by exact_mod_cast h
  omega

end Verif.Nodal
