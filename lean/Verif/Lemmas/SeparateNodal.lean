import Verif.Lemmas.Separate
import Verif.Lemmas.NodalRate
import Verif.Model.Parameters
import Verif.Model.Coef
/-!
Bounds of the nodal corrections of OTIS, and certificates that constituents are separated over a number of days.
-/
namespace Verif.Separate

open Verif Nodal

/-! ## Bounds of the nodal corrections -/

/-- The type of corrections of OTIS. -/
def cfg : Cfg := Cfg.ofKwargs "OTIS" "perth5"

/-- Least and greatest factor, and change in a day (degrees). -/
structure Bounds where
  low : ℚ
  high : ℚ
  rate : ℚ
  deriving DecidableEq

def Bounds.mul (a b : Bounds) : Bounds := ⟨a.low * b.low, a.high * b.high, a.high * b.rate + b.high * a.rate⟩

def Bounds.pow (a : Bounds) : ℕ → Bounds
  | 0 => ⟨1, 1, 0⟩
  | k + 1 => a.mul (a.pow k)

/-- The bounds of a branch that does not recurse. -/
def plainBounds (c : String) : Option Bounds :=
  let r := rule cfg c
  if r.slow && decide (0 ≤ r.range.1) then some ⟨r.range.1, r.range.2, r.rate⟩ else none

/-- The bounds of a product of parents. -/
def parentBounds : List Parent → Option Bounds
  | [] => some ⟨1, 1, 0⟩
  | q :: ps =>
    if q.mul.natAbs = q.pow then
      match plainBounds q.name, parentBounds ps with
      | some a, some b => some ((a.pow q.pow).mul b)
      | _, _ => none
    else none

/-- The bounds of the corrections of a constituent. -/
def bounds (c : String) : Option Bounds :=
  match rule cfg c with
  | .compound ps => parentBounds ps
  | _ => plainBounds c

/-! The bounds hold. -/

/-- What the bounds say of a correction that depends on the node and the perigee. -/
structure Holds (b : Bounds) (F : ℝ → ℝ → ℂ) : Prop where
  low : 0 ≤ b.low
  rate : 0 ≤ b.rate
  ge : ∀ n p, (b.low : ℝ) ≤ ‖F n p‖
  le : ∀ n p, ‖F n p‖ ≤ b.high
  near : ∀ {n p n' p' τ}, Near n p n' p' τ → ‖F n' p' - F n p‖ ≤ b.rate * (dtr * τ)

theorem Holds.high {b : Bounds} {F : ℝ → ℝ → ℂ} (h : Holds b F) : 0 ≤ b.high := by
  have := (norm_nonneg _).trans (h.le 0 0)
  exact_mod_cast this

theorem Holds.mul {a b : Bounds} {F G : ℝ → ℝ → ℂ} (ha : Holds a F) (hb : Holds b G) :
    Holds (a.mul b) fun n p => F n p * G n p where
  low := mul_nonneg ha.low hb.low
  rate := add_nonneg (mul_nonneg ha.high hb.rate) (mul_nonneg hb.high ha.rate)
  ge n p := by
    rw [norm_mul]
    simp only [Bounds.mul, Rat.cast_mul]
    exact mul_le_mul (ha.ge n p) (hb.ge n p) (by exact_mod_cast hb.low) (norm_nonneg _)
  le n p := by
    rw [norm_mul]
    simp only [Bounds.mul, Rat.cast_mul]
    exact mul_le_mul (ha.le n p) (hb.le n p) (norm_nonneg _) (by exact_mod_cast ha.high)
  near h := by
    refine (mul_step (ha.le _ _) (hb.le _ _) (ha.near h) (hb.near h)).trans (le_of_eq ?_)
    simp only [Bounds.mul]
    push_cast
    ring

theorem Holds.one : Holds ⟨1, 1, 0⟩ fun _ _ => 1 where
  low := by norm_num
  rate := le_refl _
  ge := by simp
  le := by simp
  near h := by simp

theorem Holds.conj {a : Bounds} {F : ℝ → ℝ → ℂ} (ha : Holds a F) :
    Holds a fun n p => (starRingEnd ℂ) (F n p) where
  low := ha.low
  rate := ha.rate
  ge n p := by rw [Complex.norm_conj]; exact ha.ge n p
  le n p := by rw [Complex.norm_conj]; exact ha.le n p
  near h := by rw [← map_sub, Complex.norm_conj]; exact ha.near h

theorem Holds.pow {a : Bounds} {F : ℝ → ℝ → ℂ} (ha : Holds a F) : ∀ k : ℕ,
    Holds (a.pow k) fun n p => F n p ^ k
  | 0 => by simp only [pow_zero]; exact Holds.one
  | k + 1 => by
    have := ha.mul (ha.pow k)
    simpa only [pow_succ', Bounds.pow] using this

theorem factorOf_norm {x : ℝ × ℝ} (h : 0 < x.2) : ‖factorOf x‖ = x.2 := by
  rw [factorOf, norm_mul, Complex.norm_exp_ofReal_mul_I, mul_one, Complex.norm_real, Real.norm_eq_abs, abs_of_pos h]

theorem Rule.rate_nonneg (r : Rule) (hs : r.slow = true) (hok : r.ok = true) : 0 ≤ r.rate := by
  have h := r.eval_near hs hok (n := 0) (p := 0) (n' := 0) (p' := 0) (τ := 1) ⟨by norm_num, by norm_num⟩
  have h1 := (norm_nonneg _).trans h
  rw [mul_one] at h1
  have := nonneg_of_mul_nonneg_left h1 dtr_pos
  exact_mod_cast this

theorem plainBounds_holds {c : String} {b : Bounds} (h : plainBounds c = some b) :
    Holds b fun n p => factorOf ((rule cfg c).eval n p) := by
  unfold plainBounds at h
  simp only at h
  split at h
  · next hc =>
    simp only [Bool.and_eq_true, decide_eq_true_eq] at hc
    cases h
    have hok := rule_ok cfg c
    exact
      { low := hc.2
        rate := Rule.rate_nonneg _ hc.1 hok
        ge := fun n p => by
          rw [factorOf_norm (rule_positive cfg c n p)]
          exact ((rule cfg c).range_eval hok n p).1
        le := fun n p => by
          rw [factorOf_norm (rule_positive cfg c n p)]
          exact ((rule cfg c).range_eval hok n p).2
        near := fun h => Rule.eval_near _ hc.1 hok h }
  · cases h

theorem factorOf_pow (x : ℝ × ℝ) (k : ℕ) : factorOf ((k : ℝ) * x.1, x.2 ^ k) = factorOf x ^ k := by
  unfold factorOf
  rw [mul_pow, ← Complex.exp_nat_mul]
  push_cast
  ring_nf

theorem factorOf_conj (x : ℝ × ℝ) : factorOf (-x.1, x.2) = (starRingEnd ℂ) (factorOf x) := by
  unfold factorOf
  rw [map_mul, Complex.conj_ofReal, ← Complex.exp_conj, map_mul, Complex.conj_ofReal, Complex.conj_I]
  push_cast
  ring_nf

theorem factorOf_mul (x y : ℝ × ℝ) : factorOf (x.1 + y.1, x.2 * y.2) = factorOf x * factorOf y := by
  unfold factorOf
  push_cast
  rw [add_mul, Complex.exp_add]
  ring

theorem parentBounds_holds : ∀ (ps : List Parent) {b : Bounds}, parentBounds ps = some b →
    Holds b fun n p => factorOf (compose ps (ps.map fun q => (rule cfg q.name).eval n p))
  | [], b, h => by
    cases h
    have : (fun n p : ℝ => factorOf (compose [] (([] : List Parent).map fun q => (rule cfg q.name).eval n p)))
        = fun _ _ => 1 := by
      funext n p
      simp [compose, factorOf]
    rw [this]
    exact Holds.one
  | q :: ps, b, h => by
    unfold parentBounds at h
    split at h
    · next hq =>
      split at h
      · next a c ha hc =>
        cases h
        have h1 := plainBounds_holds ha
        have h2 := parentBounds_holds ps hc
        have e : ∀ n p, factorOf (compose (q :: ps) ((q :: ps).map fun q => (rule cfg q.name).eval n p)) =
            factorOf ((q.mul : ℝ) * ((rule cfg q.name).eval n p).1, ((rule cfg q.name).eval n p).2 ^ q.pow) *
            factorOf (compose ps (ps.map fun q => (rule cfg q.name).eval n p)) := by
          intro n p
          rw [← factorOf_mul]
          simp [compose]
        simp only [e]
        refine Holds.mul ?_ h2
        rcases Int.natAbs_eq q.mul with hm | hm
        · have e2 : ∀ x : ℝ × ℝ, factorOf ((q.mul : ℝ) * x.1, x.2 ^ q.pow) = factorOf x ^ q.pow := by
            intro x
            rw [← factorOf_pow, hm, hq]; rfl
          simp only [e2]
          exact h1.pow _
        · have e2 : ∀ x : ℝ × ℝ, factorOf ((q.mul : ℝ) * x.1, x.2 ^ q.pow) =
              (starRingEnd ℂ) (factorOf x ^ q.pow) := by
            intro x
            rw [← factorOf_pow, ← factorOf_conj, hm, hq]
            simp
          simp only [e2]
          exact (h1.pow _).conj
      · cases h
    · cases h

theorem bounds_holds {c : String} {b : Bounds} (h : bounds c = some b) :
    Holds b fun n p => factorOf (one cfg n p c) := by
  unfold bounds at h
  unfold one
  split at h
  · next ps hr =>
    rw [hr]
    exact parentBounds_holds ps h
  · next hr =>
    have h1 := plainBounds_holds h
    revert hr h1
    cases rule cfg c with
    | compound ps => exact fun hr _ => absurd rfl (hr ps)
    | _ => exact fun _ h1 => h1

/-! ## Certificates -/

/-- A constituent with bounds of its correction, its frequency (rad/s) and a weight. -/
structure Entry where
  name : String
  low : ℚ
  high : ℚ
  rate : ℚ
  omega : ℚ
  weight : ℚ
  deriving DecidableEq

/-- Constituents, bounds of their corrections, frequencies and weights. -/
def half : List Entry := [
  ⟨"m2", 0.9621, 1.0379, 0.00407, 0.0001405189, 12.378⟩,
  ⟨"s2", 1, 1, 0, 0.0001454441, 86.753⟩,
  ⟨"n2", 0.9621, 1.0379, 0.00407, 0.0001378797, 9.245⟩,
  ⟨"k2", 0.6824, 1.3432, 0.03843, 0.0001458423, 127.975⟩,
  ⟨"k1", 0.8813, 1.1583, 0.01498, 0.00007292117, 5.213⟩,
  ⟨"o1", 0.8052, 1.1948, 0.03671, 0.00006759774, 3.43⟩,
  ⟨"p1", 1, 1, 0, 0.00007252295, 4.31⟩,
  ⟨"q1", 0.812, 1.188, 0.03928, 0.00006495854, 3.138⟩,
  ⟨"2n2", 0.9621, 1.0379, 0.00407, 0.0001352405, 7.081⟩,
  ⟨"mm", 0.87, 1.13, 0.00689, 0.0000026392, 2.997⟩,
  ⟨"mf", 0.629, 1.457, 0.06273, 0.0000053234, 5.702⟩,
  ⟨"m4", 0.9257, 1.0771, 0.00844, 0.0002810377, 0.874⟩,
  ⟨"ms4", 0.9621, 1.0379, 0.00407, 0.000285963, 0.714⟩,
  ⟨"mn4", 0.9257, 1.0771, 0.00844, 0.0002783984, 0.873⟩]

/-- Constituents, bounds of their corrections, frequencies and weights. -/
def year : List Entry := [
  ⟨"m2", 0.9621, 1.0379, 0.00407, 0.0001405189, 0.118⟩,
  ⟨"s2", 1, 1, 0, 0.0001454441, 0.254⟩,
  ⟨"k1", 0.8813, 1.1583, 0.01498, 0.00007292117, 0.533⟩,
  ⟨"o1", 0.8052, 1.1948, 0.03671, 0.00006759774, 0.849⟩,
  ⟨"n2", 0.9621, 1.0379, 0.00407, 0.0001378797, 0.172⟩,
  ⟨"p1", 1, 1, 0, 0.00007252295, 0.412⟩,
  ⟨"k2", 0.6824, 1.3432, 0.03843, 0.0001458423, 0.447⟩,
  ⟨"q1", 0.812, 1.188, 0.03928, 0.00006495854, 2.318⟩,
  ⟨"2n2", 0.9621, 1.0379, 0.00407, 0.0001352405, 0.163⟩,
  ⟨"mu2", 0.9621, 1.0379, 0.00407, 0.0001355937, 0.165⟩,
  ⟨"nu2", 0.9621, 1.0379, 0.00407, 0.0001382329, 0.172⟩,
  ⟨"j1", 0.831, 1.227, 0.02097, 0.00007556036, 0.402⟩,
  ⟨"rho1", 0.812, 1.188, 0.03928, 0.00006531174, 2.321⟩,
  ⟨"mf", 0.629, 1.457, 0.06273, 0.0000053234, 7.214⟩,
  ⟨"mm", 0.87, 1.13, 0.00689, 0.0000026392, 2.032⟩,
  ⟨"ssa", 1, 1, 0, 0.0000003982, 1.811⟩,
  ⟨"m4", 0.9257, 1.0771, 0.00844, 0.0002810377, 0.042⟩,
  ⟨"ms4", 0.9621, 1.0379, 0.00407, 0.000285963, 0.035⟩,
  ⟨"mn4", 0.9257, 1.0771, 0.00844, 0.0002783984, 0.042⟩,
  ⟨"m6", 0.8907, 1.1179, 0.01313, 0.0004215566, 0.029⟩,
  ⟨"mk3", 0.8479, 1.2022, 0.02025, 0.0002134402, 0.075⟩,
  ⟨"s6", 1, 1, 0, 0.0004363323, 0.019⟩,
  ⟨"2sm2", 0.9621, 1.0379, 0.00407, 0.0001503693, 0.095⟩,
  ⟨"2mk3", 0.8158, 1.2476, 0.0259, 0.0002081166, 0.087⟩,
  ⟨"msf", 1, 1, 0, 0.0000049252, 3.974⟩,
  ⟨"mt", 0.757, 1.243, 0.02998, 0.000007962619, 2.32⟩,
  ⟨"2q1", 0.812, 1.188, 0.03928, 0.00006231934, 0.756⟩]

/-- Constituents, bounds of their corrections, frequencies and weights. -/
def hourly : List Entry := [
  ⟨"m2", 0.9621, 1.0379, 0.00407, 0.0001405189, 0.611⟩,
  ⟨"s2", 1, 1, 0, 0.0001454441, 1.192⟩,
  ⟨"k1", 0.8813, 1.1583, 0.01498, 0.00007292117, 6.599⟩,
  ⟨"o1", 0.8052, 1.1948, 0.03671, 0.00006759774, 6.733⟩,
  ⟨"n2", 0.9621, 1.0379, 0.00407, 0.0001378797, 0.623⟩,
  ⟨"p1", 1, 1, 0, 0.00007252295, 4.826⟩,
  ⟨"k2", 0.6824, 1.3432, 0.03843, 0.0001458423, 2.267⟩,
  ⟨"q1", 0.812, 1.188, 0.03928, 0.00006495854, 7.298⟩,
  ⟨"2n2", 0.9621, 1.0379, 0.00407, 0.0001352405, 0.581⟩,
  ⟨"mu2", 0.9621, 1.0379, 0.00407, 0.0001355937, 0.586⟩,
  ⟨"nu2", 0.9621, 1.0379, 0.00407, 0.0001382329, 0.628⟩,
  ⟨"l2", 0.6, 1.4, 0.17631, 0.0001431581, 2.885⟩,
  ⟨"t2", 1, 1, 0, 0.000145245, 1.084⟩,
  ⟨"j1", 0.831, 1.227, 0.02097, 0.00007556036, 7.318⟩,
  ⟨"m1", 0.402, 1.6552, 0.21805, 0.00007025945, 30.335⟩,
  ⟨"oo1", 0.226, 1.774, 0.09617, 0.00007824458, 51.755⟩,
  ⟨"rho1", 0.812, 1.188, 0.03928, 0.00006531174, 7.441⟩,
  ⟨"mf", 0.629, 1.457, 0.06273, 0.0000053234, 3.682⟩,
  ⟨"mm", 0.87, 1.13, 0.00689, 0.0000026392, 1.284⟩,
  ⟨"ssa", 1, 1, 0, 0.0000003982, 1.63⟩,
  ⟨"m4", 0.9257, 1.0771, 0.00844, 0.0002810377, 0.167⟩,
  ⟨"ms4", 0.9621, 1.0379, 0.00407, 0.000285963, 0.141⟩,
  ⟨"mn4", 0.9257, 1.0771, 0.00844, 0.0002783984, 0.168⟩,
  ⟨"m6", 0.8907, 1.1179, 0.01313, 0.0004215566, 0.116⟩,
  ⟨"mk3", 0.8479, 1.2022, 0.02025, 0.0002134402, 0.322⟩,
  ⟨"s6", 1, 1, 0, 0.0004363323, 0.076⟩,
  ⟨"2sm2", 0.9621, 1.0379, 0.00407, 0.0001503693, 0.445⟩,
  ⟨"2mk3", 0.8158, 1.2476, 0.0259, 0.0002081166, 0.378⟩,
  ⟨"msf", 1, 1, 0, 0.0000049252, 1.492⟩,
  ⟨"sa", 1, 1, 0, 0.000000199097, 1.918⟩,
  ⟨"mt", 0.757, 1.243, 0.02998, 0.000007962619, 1.65⟩,
  ⟨"2q1", 0.812, 1.188, 0.03928, 0.00006231934, 3.595⟩]

/-- Constituents, bounds of their corrections, frequencies and weights. -/
def full : List Entry := [
  ⟨"m2", 0.9621, 1.0379, 0.00407, 0.0001405189, 0.611⟩,
  ⟨"s2", 1, 1, 0, 0.0001454441, 1.192⟩,
  ⟨"k1", 0.8813, 1.1583, 0.01498, 0.00007292117, 6.599⟩,
  ⟨"o1", 0.8052, 1.1948, 0.03671, 0.00006759774, 6.732⟩,
  ⟨"n2", 0.9621, 1.0379, 0.00407, 0.0001378797, 0.623⟩,
  ⟨"p1", 1, 1, 0, 0.00007252295, 4.826⟩,
  ⟨"k2", 0.6824, 1.3432, 0.03843, 0.0001458423, 2.268⟩,
  ⟨"q1", 0.812, 1.188, 0.03928, 0.00006495854, 7.298⟩,
  ⟨"2n2", 0.9621, 1.0379, 0.00407, 0.0001352405, 0.581⟩,
  ⟨"mu2", 0.9621, 1.0379, 0.00407, 0.0001355937, 0.586⟩,
  ⟨"nu2", 0.9621, 1.0379, 0.00407, 0.0001382329, 0.628⟩,
  ⟨"l2", 0.6, 1.4, 0.17631, 0.0001431581, 2.885⟩,
  ⟨"t2", 1, 1, 0, 0.000145245, 1.084⟩,
  ⟨"j1", 0.831, 1.227, 0.02097, 0.00007556036, 7.318⟩,
  ⟨"m1", 0.402, 1.6552, 0.21805, 0.00007025945, 30.335⟩,
  ⟨"oo1", 0.226, 1.774, 0.09617, 0.00007824458, 51.755⟩,
  ⟨"rho1", 0.812, 1.188, 0.03928, 0.00006531174, 7.441⟩,
  ⟨"mf", 0.629, 1.457, 0.06273, 0.0000053234, 3.682⟩,
  ⟨"mm", 0.87, 1.13, 0.00689, 0.0000026392, 1.284⟩,
  ⟨"ssa", 1, 1, 0, 0.0000003982, 1.63⟩,
  ⟨"m4", 0.9257, 1.0771, 0.00844, 0.0002810377, 0.167⟩,
  ⟨"ms4", 0.9621, 1.0379, 0.00407, 0.000285963, 0.141⟩,
  ⟨"mn4", 0.9257, 1.0771, 0.00844, 0.0002783984, 0.168⟩,
  ⟨"m6", 0.8907, 1.1179, 0.01313, 0.0004215566, 0.117⟩,
  ⟨"m8", 0.857, 1.1602, 0.01817, 0.0005620755, 0.098⟩,
  ⟨"mk3", 0.8479, 1.2022, 0.02025, 0.0002134402, 0.322⟩,
  ⟨"s6", 1, 1, 0, 0.0004363323, 0.076⟩,
  ⟨"2sm2", 0.9621, 1.0379, 0.00407, 0.0001503693, 0.445⟩,
  ⟨"2mk3", 0.8158, 1.2476, 0.0259, 0.0002081166, 0.378⟩,
  ⟨"msf", 1, 1, 0, 0.0000049252, 1.492⟩,
  ⟨"sa", 1, 1, 0, 0.000000199097, 1.918⟩,
  ⟨"mt", 0.757, 1.243, 0.02998, 0.000007962619, 1.65⟩,
  ⟨"2q1", 0.812, 1.188, 0.03928, 0.00006231934, 3.595⟩]

/-- The entry is that of the program. -/
def Entry.sound (e : Entry) : Bool :=
  (match bounds e.name with
    | some b => decide (e.low ≤ b.low) && decide (b.high ≤ e.high) && decide (b.rate ≤ e.rate)
    | none => false) &&
  (match Parameters.parameters e.name false with
    | .ok q => decide (q.omega = e.omega)
    | .error _ => false) &&
  (Coef.table.lookup e.name).isSome && decide (e.name ≠ "s1") && decide (0 ≤ e.low) && decide (0 < e.omega) &&
  decide (0 < e.weight)

/-- What is left of a slowly varying factor over `T` days, in days. -/
def residue (T U D ψ : ℚ) : ℚ := 3.1416 * (2 * U + 0.0192 * D * T) / (172800 * |ψ|)

def Entry.cross (T : ℚ) (k l : Entry) (ψ : ℚ) : ℚ :=
  l.weight * residue T (l.high * k.high) (l.high * k.rate + k.high * l.rate) ψ

/-- The constituents are separated over `T` days with samples no more than `D` days apart. -/
def separated (E : List Entry) (T D : ℚ) : Bool :=
  decide ((E.map fun l => l.weight * residue T l.high l.rate l.omega).sum < T) &&
  E.all fun k =>
    decide (2 * residue T k.high k.rate k.omega
      + (E.map fun l => if l.name = k.name then 0 else k.cross T l (l.omega - k.omega)).sum
      + (E.map fun l => k.cross T l (l.omega + k.omega)).sum < k.weight * (T * k.low ^ 2)) &&
    E.all fun l => decide ((l.omega + k.omega) * 86400 * D ≤ 3.14159265) &&
      (decide (l.name = k.name) || decide (l.omega ≠ k.omega))

theorem full_sound : full.all Entry.sound = true := by decide +kernel
theorem hourly_sound : hourly.all Entry.sound = true := by decide +kernel
theorem year_sound : year.all Entry.sound = true := by decide +kernel
theorem half_sound : half.all Entry.sound = true := by decide +kernel

theorem full_separated : separated full 740 (1 / 32) = true := by decide +kernel
theorem hourly_separated : separated hourly 740 (1 / 24) = true := by decide +kernel
theorem year_separated : separated year 365 (1 / 24) = true := by decide +kernel
theorem half_separated : separated half 210 (1 / 16) = true := by decide +kernel

end Verif.Separate
