import Mathlib.Data.Int.Notation
import Mathlib.Data.Nat.Notation
/-!
Numbers of tidal constituents as they are printed in tables, written without the code.
-/
namespace Verif.Spec

/-- The digits of a Doodson number: the species, and the other five multiples raised by five. -/
def digits : List ℤ → List ℤ
  | [a, b, c, d, e, f] => [a, b + 5, c + 5, d + 5, e + 5, f + 5]
  | _ => []

/-- A Doodson number of decimal digits, times a thousand (2 0 0 0 0 0 is 255.555). -/
def Decimal (c : List ℤ) (n : ℕ) : Prop :=
  (∀ d ∈ digits c, 0 ≤ d ∧ d ≤ 9) ∧ c.length = 6 ∧ (n : ℤ) = (digits c).foldl (fun s d => 10 * s + d) 0

instance (c : List ℤ) (n : ℕ) : Decidable (Decimal c n) := by unfold Decimal; infer_instance

/-- The sign of a digit up to eleven. -/
def sign (d : ℤ) : Char :=
  if d = 10 then 'X' else if d = 11 then 'E' else Char.ofNat ('0'.toNat + d.toNat)

/-- A Doodson number with signs for ten and eleven. -/
def Signed (c : List ℤ) (s : List Char) : Prop :=
  (∀ d ∈ digits c, 0 ≤ d ∧ d ≤ 11) ∧ c.length = 6 ∧ (10 ∈ digits c ∨ 11 ∈ digits c) ∧
    s = ((digits c).take 3).map sign ++ '.' :: ((digits c).drop 3).map sign

instance (c : List ℤ) (s : List Char) : Decidable (Signed c s) := by unfold Signed; infer_instance

/-- The letter of a multiple in an extended Doodson number: Z is zero, the letters from A count up and the
letters before Z count down. -/
def letter (v : ℤ) : Char :=
  if 0 < v then Char.ofNat ('A'.toNat + v.toNat - 1) else Char.ofNat ('Z'.toNat - (-v).toNat)

/-- An extended Doodson number of the UKHO.  The letters are those from R to P only. -/
def Extended (c : List ℤ) (s : List Char) : Prop :=
  (∀ v ∈ c, -8 ≤ v ∧ v ≤ 16) ∧ s = c.map letter

instance (c : List ℤ) (s : List Char) : Decidable (Extended c s) := by unfold Extended; infer_instance

end Verif.Spec
