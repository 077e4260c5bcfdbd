import Verif.Model.Utilities
import Verif.Spec.Roman
import Verif.Lemmas.Py
import Verif.Lemmas.Case
import Mathlib.Algebra.Order.Floor.Ring
import Mathlib.Tactic.Linarith
import Mathlib.Tactic.FieldSimp
import Mathlib.Tactic.Ring
import Mathlib.Tactic.IntervalCases
/-!
C49: Roman numerals and rounding.
-/
namespace Verif.Utilities
open Verif Verif.Spec.Roman

/-- The letter before does not come into a group whose first letter is not larger. -/
def Before (bound : Int) (p : Option Char) : Prop :=
  p = none ∨ ∃ c v, p = some c ∧ romanMap c = some v ∧ bound ≤ v

theorem loop_first (p : Option Char) (o : Int) (s : Char) (t : List Char) (v : Int)
    (hs : romanMap s = some v) (hp : Before v p) :
    romanLoop p o (s :: t) = romanLoop (some s) (o + v) t := by
  have e : romanValue s = .ok v := by rw [romanValue, hs]
  rcases hp with rfl | ⟨c, w, rfl, hc, hw⟩
  · rw [romanLoop, e, ok_bind]
  · have e' : romanValue c = .ok w := by rw [romanValue, hc]
    rw [romanLoop, e, ok_bind, e', ok_bind, if_neg (by omega)]

theorem loop_thousands (k : Nat) (p : Option Char) (hp : Before 1000 p) (o : Int) (t : List Char) :
    ∃ q, Before 1000 q ∧
      romanLoop p o (List.replicate k 'm' ++ t) = romanLoop q (o + 1000 * k) t := by
  induction k generalizing p o with
  | zero => exact ⟨p, hp, by simp⟩
  | succ k ih =>
    rw [List.replicate_succ, List.cons_append, loop_first p o 'm' _ 1000 rfl hp]
    obtain ⟨q, hq, e⟩ := ih (some 'm') (Or.inr ⟨'m', 1000, rfl, rfl, le_refl _⟩) (o + 1000)
    refine ⟨q, hq, e.trans ?_⟩
    congr 1
    push_cast
    ring

theorem before_some {b : Int} {c : Char} {v : Int} (h : romanMap c = some v) (hb : b ≤ v) :
    Before b (some c) := Or.inr ⟨c, v, rfl, h, hb⟩

/-- A group of letters adds its digit. -/
theorem loop_group (one five ten : Char) (u : Int) (hu : 0 < u) (h1 : romanMap one = some u)
    (h5 : romanMap five = some (5 * u)) (h10 : romanMap ten = some (10 * u)) (d : Nat) (hd : d < 10)
    (p : Option Char) (hp : Before (10 * u) p) (o : Int) (t : List Char) :
    ∃ q, Before u q ∧
      romanLoop p o (group one five ten d ++ t) = romanLoop q (o + u * d) t := by
  have w : ∀ {b : Int}, b ≤ 10 * u → Before b p := by
    intro b hb
    rcases hp with rfl | ⟨c, v, rfl, hc, hv⟩
    · exact Or.inl rfl
    · exact before_some hc (by omega)
  have b1 := before_some (b := u) h1 (le_refl _)
  have b5 := before_some (b := u) h5 (by omega)
  have b10 := before_some (b := u) h10 (by omega)
  have v1 : romanValue one = .ok u := by rw [romanValue, h1]
  have v5 : romanValue five = .ok (5 * u) := by rw [romanValue, h5]
  have v10 : romanValue ten = .ok (10 * u) := by rw [romanValue, h10]
  have f1 := fun o t => loop_first p o one t u h1 (w (by omega))
  have f5 := fun o t => loop_first p o five t (5 * u) h5 (w (by omega))
  have s1 := fun o t => loop_first (some one) o one t u h1 b1
  have s5 := fun o t => loop_first (some five) o one t u h1 b5
  have up5 : ∀ o t, romanLoop (some one) o (five :: t) = romanLoop (some five) (o + (5 * u - 2 * u)) t := by
    intro o t
    rw [romanLoop, v5, ok_bind, v1, ok_bind, if_pos (by omega)]
  have up10 : ∀ o t, romanLoop (some one) o (ten :: t) = romanLoop (some ten) (o + (10 * u - 2 * u)) t := by
    intro o t
    rw [romanLoop, v10, ok_bind, v1, ok_bind, if_pos (by omega)]
  interval_cases d <;>
    simp only [group, List.cons_append, List.nil_append, f1, f5, s1, s5, up5, up10]
  · exact ⟨p, w (by omega), by simp⟩
  all_goals first
    | exact ⟨some one, b1, by congr 1; push_cast; ring⟩
    | exact ⟨some five, b5, by congr 1; push_cast; ring⟩
    | exact ⟨some ten, b10, by congr 1; push_cast; ring⟩

theorem loop_numeral (n : Nat) :
    romanLoop none 0 (List.replicate (n / 1000) 'm' ++ (group 'c' 'd' 'm' (n / 100 % 10) ++
      (group 'x' 'l' 'c' (n / 10 % 10) ++ group 'i' 'v' 'x' (n % 10)))) = .ok n := by
  obtain ⟨p, hp, e1⟩ := loop_thousands (n / 1000) none (Or.inl rfl) 0
    (group 'c' 'd' 'm' (n / 100 % 10) ++ (group 'x' 'l' 'c' (n / 10 % 10) ++ group 'i' 'v' 'x' (n % 10)))
  obtain ⟨q, hq, e2⟩ := loop_group 'c' 'd' 'm' 100 (by norm_num) rfl rfl rfl (n / 100 % 10)
    (Nat.mod_lt _ (by norm_num)) p hp (0 + 1000 * ((n / 1000 : Nat) : Int))
    (group 'x' 'l' 'c' (n / 10 % 10) ++ group 'i' 'v' 'x' (n % 10))
  obtain ⟨r, hr, e3⟩ := loop_group 'x' 'l' 'c' 10 (by norm_num) rfl rfl rfl (n / 10 % 10)
    (Nat.mod_lt _ (by norm_num)) q hq
    (0 + 1000 * ((n / 1000 : Nat) : Int) + 100 * ((n / 100 % 10 : Nat) : Int))
    (group 'i' 'v' 'x' (n % 10))
  obtain ⟨s, _, e4⟩ := loop_group 'i' 'v' 'x' 1 (by norm_num) rfl rfl rfl (n % 10)
    (Nat.mod_lt _ (by norm_num)) r hr
    (0 + 1000 * ((n / 1000 : Nat) : Int) + 100 * ((n / 100 % 10 : Nat) : Int)
      + 10 * ((n / 10 % 10 : Nat) : Int)) []
  rw [e1, e2, e3]
  rw [List.append_nil] at e4
  rw [e4, romanLoop]
  refine congrArg Except.ok ?_
  push_cast
  omega

theorem group_lower (one five ten : Char) (h1 : one.toLower = one) (h5 : five.toLower = five)
    (h10 : ten.toLower = ten) (d : Nat) :
    (group one five ten d).map Char.toLower = group one five ten d := by
  unfold group
  split <;> simp [h1, h5, h10]

/-- C49: the numeral of a number, in any case of the letters, converts to the number. -/
theorem C49_roman (n : Nat) (text : String) (h : text.toLower = numeral n) :
    romanToInt text = .ok n := by
  rw [romanToInt, h, numeral, String.toList_ofList]
  exact loop_numeral n

theorem numeral_lower (n : Nat) : (numeral n).toLower = numeral n := by
  unfold numeral
  rw [← String.toList_inj, String.toLower, String.toList_map, String.toList_ofList]
  simp only [List.map_append, List.map_replicate]
  rw [group_lower 'c' 'd' 'm' rfl rfl rfl, group_lower 'x' 'l' 'c' rfl rfl rfl,
    group_lower 'i' 'v' 'x' rfl rfl rfl]
  rfl

/-- C49: so no two numbers have the same numeral. -/
theorem C49_injective (n m : Nat) (h : numeral n = numeral m) : n = m := by
  have h1 := C49_roman n (numeral n) (numeral_lower n)
  rw [C49_roman m (numeral n) ((numeral_lower n).trans h)] at h1
  exact_mod_cast (Except.ok.inj h1).symm

/-- C49: a text with a letter that is no numeral is refused. -/
theorem C49_refused (text : String) (c : Char) (hc : c ∈ text.toLower.toList)
    (h : romanMap c = none) : romanToInt text = .error .keyError := by
  have key : ∀ (l : List Char) (p : Option Char) (o : Int),
      (p = none ∨ ∃ d v, p = some d ∧ romanMap d = some v) → c ∈ l →
      romanLoop p o l = .error .keyError := by
    intro l
    induction l with
    | nil => intro p o _ h; cases h
    | cons s t ih =>
      intro p o hp hm
      cases hs : romanMap s with
      | none =>
        have e : romanValue s = .error .keyError := by rw [romanValue, hs]
        cases p <;> rw [romanLoop, e, error_bind]
      | some v =>
        have hct : c ∈ t := by
          rcases List.mem_cons.mp hm with rfl | h'
          · rw [h] at hs; cases hs
          · exact h'
        have e : romanValue s = .ok v := by rw [romanValue, hs]
        have next := fun o => ih (some s) o (Or.inr ⟨s, v, rfl, hs⟩) hct
        rcases hp with rfl | ⟨d, w, rfl, hd⟩
        · rw [romanLoop, e, ok_bind, next]
        · have e' : romanValue d = .ok w := by rw [romanValue, hd]
          rw [romanLoop, e, ok_bind, e', ok_bind]
          split <;> exact next _
  exact key _ none 0 (Or.inl rfl) hc

/-- Numerals in use. -/
example : numeral 1994 = "mcmxciv" ∧ "MCMXCIV".toLower = numeral 1994 ∧
    romanToInt "MCMXCIV" = .ok 1994 := by decide +kernel

variable {K : Type} [Field K] [LinearOrder K] [IsStrictOrderedRing K] [FloorRing K]

/-- C49: `even` is the largest even integer that is not above the value. -/
theorem C49_even (v : K) :
    Even (even v) ∧ (even v : K) ≤ v ∧ ∀ k : Int, Even k → (k : K) ≤ v → k ≤ even v := by
  refine ⟨⟨⌊v / 2⌋, by rw [even]; ring⟩, ?_, ?_⟩
  · rw [even]
    have := Int.floor_le (v / 2)
    push_cast
    linarith
  · rintro k ⟨j, rfl⟩ hk
    have : j ≤ ⌊v / 2⌋ := by
      rw [Int.le_floor]
      push_cast at hk
      linarith
    rw [even]
    omega

/-- C49: `ceil` is the smallest integer that is not below the value. -/
theorem C49_ceil (v : K) (k : Int) : ceil v ≤ k ↔ v ≤ k := by
  rw [ceil, div_one, Int.floor_neg, neg_neg, Int.ceil_le]

end Verif.Utilities
