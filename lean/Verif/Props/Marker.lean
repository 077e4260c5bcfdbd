import Verif.Model.Marker
import Verif.Props.Ellipsoid
/-!
C125: the marker of the map and the text with its position stand for the same place.
-/
namespace Verif.Marker
open Verif Real
open scoped Classical

/-- Numbers are printed with eight digits, to the nearest. -/
def Nearest (print : ℝ → ℤ) : Prop := ∀ x, |print x - x * 1e8| ≤ 1 / 2

/-- The same place, to half a unit of the eighth digit; longitudes up to whole turns. -/
def SamePlace (p q : ℝ × ℝ) : Prop :=
  |p.1 - q.1| ≤ 1 / 2 / 1e8 ∧ ∃ k : ℤ, |p.2 - q.2 + 360 * k| ≤ 1 / 2 / 1e8

theorem samePlace_refl (p : ℝ × ℝ) : SamePlace p p :=
  ⟨by rw [sub_self, abs_zero]; norm_num, 0, by rw [sub_self]; norm_num⟩

variable {print : ℝ → ℤ}

theorem print_unit (h : Nearest print) (n : ℤ) : print ((n : ℝ) / 1e8) = n := by
  have := h ((n : ℝ) / 1e8)
  rw [show (n : ℝ) / 1e8 * 1e8 = n by norm_num, abs_le] at this
  have h1 : ((print ((n : ℝ) / 1e8) - n : ℤ) : ℝ) < 1 := by push_cast; linarith [this.2]
  have h2 : (-1 : ℝ) < ((print ((n : ℝ) / 1e8) - n : ℤ) : ℝ) := by push_cast; linarith [this.1]
  have h1' : print ((n : ℝ) / 1e8) - n < 1 := by exact_mod_cast h1
  have h2' : -1 < print ((n : ℝ) / 1e8) - n := by exact_mod_cast h2
  omega

theorem near_unit (h : Nearest print) (x : ℝ) : |(print x : ℝ) / 1e8 - x| ≤ 1 / 2 / 1e8 := by
  have := h x
  rw [abs_le] at this ⊢
  constructor <;> norm_num at this ⊢ <;> linarith [this.1, this.2]

theorem print_range (h : Nearest print) {x : ℝ} (h1 : -180 < x) (h2 : x ≤ 180) :
    -18000000000 ≤ print x ∧ print x ≤ 18000000000 := by
  have := abs_le.1 (h x)
  have a : (-18000000001 : ℝ) < print x := by norm_num at this ⊢; linarith [this.1]
  have b : (print x : ℝ) < 18000000001 := by norm_num at this ⊢; linarith [this.2]
  have a' : -18000000001 < print x := by exact_mod_cast a
  have b' : print x < 18000000001 := by exact_mod_cast b
  omega

theorem printed_same (h : Nearest print) (p : ℝ × ℝ) :
    SamePlace (value (.printed (print p.1) (print (Spatial.wrapLongitudes p.2)))) p := by
  refine ⟨near_unit h _, ?_⟩
  obtain ⟨-, -, k, hk⟩ := Spatial.C36_wrap p.2
  refine ⟨-k, ?_⟩
  have := near_unit h (Spatial.wrapLongitudes p.2)
  simp only [value]
  rw [hk] at this ⊢
  convert this using 2
  push_cast
  ring

theorem assign_marker (n : ℕ) (v : View) (p : ℝ × ℝ) : assign print (n + 1) v (.marker p) =
    if p = v.marker then some v
    else assign print n { v with marker := p }
      (.text (.printed (print p.1) (print (Spatial.wrapLongitudes p.2)))) := by
  rw [assign]

theorem assign_text (n : ℕ) (v : View) (t : Text) : assign print (n + 1) v (.text t) =
    if t = v.text then some v else assign print n { v with text := t } (.marker (value t)) := by
  rw [assign]

/-- A printed position west of the last meridian is left as it is. -/
theorem stays (h : Nearest print) (a b : ℤ) (h1 : -18000000000 < b) (h2 : b ≤ 18000000000) (n : ℕ)
    (q : ℝ × ℝ) : ∃ v, assign print (n + 2) ⟨q, .printed a b⟩ (.marker (value (.printed a b))) = some v ∧
      v.text = .printed a b ∧ (v.marker = q ∧ value (.printed a b) = q ∨ v.marker = value (.printed a b)) := by
  rw [assign_marker]
  by_cases e : value (.printed a b) = q
  · exact ⟨_, if_pos e, rfl, Or.inl ⟨rfl, e⟩⟩
  · rw [if_neg e]
    have w : Spatial.wrapLongitudes ((b : ℝ) / 1e8) = (b : ℝ) / 1e8 := by
      have h1' : (-18000000000 : ℝ) < b := by exact_mod_cast h1
      have h2' : (b : ℝ) ≤ 18000000000 := by exact_mod_cast h2
      exact Spatial.C36_wrap_fixed _ (by norm_num; linarith) (by norm_num; linarith)
    have e' : Text.printed (print (value (.printed a b)).1)
        (print (Spatial.wrapLongitudes (value (.printed a b)).2)) = .printed a b := by
      simp only [value]
      rw [w, print_unit h, print_unit h]
    rw [e', assign_text, if_pos rfl]
    exact ⟨_, rfl, rfl, Or.inr rfl⟩

/-- What follows from a move of the marker. -/
theorem moved (h : Nearest print) (v : View) (p : ℝ × ℝ) (hp : p ≠ v.marker) (n : ℕ) :
    ∃ w, assign print (n + 7) v (.marker p) = some w ∧ SamePlace (value w.text) p ∧ SamePlace w.marker p ∧
      (∃ a b, w.text = .printed a b ∧ -18000000000 ≤ b ∧ b ≤ 18000000000) := by
  rw [assign_marker, if_neg hp, assign_text]
  obtain ⟨r1, r2⟩ := print_range h (Spatial.C36_wrap p.2).1 (Spatial.C36_wrap p.2).2.1
  have same := printed_same h p
  set a := print p.1
  set b := print (Spatial.wrapLongitudes p.2)
  by_cases e : Text.printed a b = v.text
  · rw [if_pos (show Text.printed a b = ({ v with marker := p } : View).text from e)]
    exact ⟨_, rfl, by rw [← show Text.printed a b = ({ v with marker := p } : View).text from e]; exact same,
      samePlace_refl p, a, b, e.symm, r1, r2⟩
  · rw [if_neg (show ¬ Text.printed a b = ({ v with marker := p } : View).text from e)]
    by_cases hb : -18000000000 < b
    · obtain ⟨w, hw, ht, hm⟩ := stays h a b hb r2 (n + 3) p
      refine ⟨w, hw, by rw [ht]; exact same, ?_, a, b, ht, r1, r2⟩
      rcases hm with ⟨hm, -⟩ | hm
      · rw [hm]; exact samePlace_refl p
      · rw [hm]; exact same
    · have hb' : b = -18000000000 := by omega
      rw [assign_marker]
      by_cases e2 : value (.printed a b) = p
      · refine ⟨_, if_pos e2, same, samePlace_refl p, a, b, rfl, r1, r2⟩
      · rw [if_neg (show ¬ value (.printed a b) = (⟨p, .printed a b⟩ : View).marker from e2), assign_text]
        have w180 : Spatial.wrapLongitudes ((b : ℝ) / 1e8) = ((18000000000 : ℤ) : ℝ) / 1e8 := by
          obtain ⟨w1, w2, k, hk⟩ := Spatial.C36_wrap ((b : ℝ) / 1e8)
          rw [hk] at w1 w2 ⊢
          rw [hb'] at w1 w2 ⊢
          norm_num at w1 w2 ⊢
          have k2 : (k : ℝ) ≤ 1 := by linarith
          have k1' : 0 < k := by exact_mod_cast w1
          have k2' : k ≤ 1 := by exact_mod_cast k2
          rw [show k = 1 by omega]
          norm_num
        have e3 : Text.printed (print (value (.printed a b)).1)
            (print (Spatial.wrapLongitudes (value (.printed a b)).2)) = .printed a 18000000000 := by
          simp only [value]
          rw [w180, print_unit h, print_unit h]
        have same' : SamePlace (value (.printed a 18000000000)) p := by
          obtain ⟨s1, k, s2⟩ := same
          refine ⟨s1, k - 1, ?_⟩
          simp only [value] at s2 ⊢
          rw [hb'] at s2
          convert s2 using 2
          push_cast
          ring
        rw [e3, if_neg (show ¬ Text.printed a 18000000000 = Text.printed a b by
          rw [hb']; intro x; injection x with _ x; omega)]
        obtain ⟨w, hw, ht, hm⟩ := stays h a 18000000000 (by norm_num) (le_refl _) (n + 1) (value (.printed a b))
        refine ⟨w, hw, by rw [ht]; exact same', ?_, a, _, ht, by norm_num, le_refl _⟩
        rcases hm with ⟨hm, -⟩ | hm
        · rw [hm]; exact same
        · rw [hm]; exact same'

/-- **C125.** Wherever the marker is moved to, from whatever state: the chain of changes ends (after at most
seven assignments), and then the marker and the text are both at that place, to half a unit of the
eighth digit, and the longitude in the text is within 180 degrees. -/
theorem C125_moved (h : Nearest print) (v : View) (p : ℝ × ℝ) (hp : p ≠ v.marker) (n : ℕ) (hn : 7 ≤ n) :
    ∃ w, assign print n v (.marker p) = some w ∧ SamePlace (value w.text) p ∧ SamePlace w.marker p ∧
      -180 ≤ (value w.text).2 ∧ (value w.text).2 ≤ 180 := by
  obtain ⟨m, rfl⟩ := Nat.exists_eq_add_of_le' hn
  obtain ⟨w, hw, h1, h2, a, b, ht, r1, r2⟩ := moved h v p hp m
  refine ⟨w, hw, h1, h2, ?_⟩
  have r1' : (-18000000000 : ℝ) ≤ b := by exact_mod_cast r1
  have r2' : (b : ℝ) ≤ 18000000000 := by exact_mod_cast r2
  rw [ht]
  simp only [value]
  constructor <;> norm_num <;> linarith

/-- **C125.** Whatever two numbers are typed: the chain of changes ends (after at most eight assignments), and
then the marker and the text are both at the place that was typed, to half a unit of the eighth digit. -/
theorem C125_typed (h : Nearest print) (v : View) (t : Text) (ht : t ≠ v.text) (n : ℕ) (hn : 8 ≤ n) :
    ∃ w, assign print n v (.text t) = some w ∧ SamePlace (value w.text) (value t) ∧
      SamePlace w.marker (value t) := by
  obtain ⟨m, rfl⟩ := Nat.exists_eq_add_of_le' hn
  rw [show m + 8 = m + 7 + 1 from rfl, assign_text, if_neg ht]
  by_cases e : value t = v.marker
  · rw [assign_marker, if_pos (show value t = ({ v with text := t } : View).marker from e)]
    exact ⟨_, rfl, samePlace_refl _, by rw [e]; exact samePlace_refl _⟩
  · obtain ⟨w, hw, h1, h2, -⟩ := moved h { v with text := t } (value t) e m
    exact ⟨w, hw, h1, h2⟩

/-- Rounding half up prints to the nearest. -/
theorem nearest_round : Nearest (fun x => round (x * 1e8)) := fun x => by
  rw [abs_sub_comm]
  exact abs_sub_round _

/-- A marker moved over the date line from the origin. -/
example : ∃ w, assign (fun x => round (x * 1e8)) 7 ⟨(0, 0), .printed 0 0⟩ (.marker (-10, 181)) = some w ∧
    SamePlace (value w.text) (-10, 181) := by
  obtain ⟨w, h, h1, -⟩ := C125_moved nearest_round ⟨(0, 0), .printed 0 0⟩ (-10, 181)
    (by intro e; have := congrArg Prod.fst e; norm_num at this) 7 (le_refl _)
  exact ⟨w, h, h1⟩

end Verif.Marker
