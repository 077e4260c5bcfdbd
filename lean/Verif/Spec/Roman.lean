/-!
The standard Roman numeral of a number: as many `m` as thousands, then the usual groups for the
hundreds, tens and units.
-/
namespace Verif.Spec.Roman

/-- The group for a digit, from the letters for one, five and ten. -/
def group (one five ten : Char) : Nat → List Char
  | 1 => [one]
  | 2 => [one, one]
  | 3 => [one, one, one]
  | 4 => [one, five]
  | 5 => [five]
  | 6 => [five, one]
  | 7 => [five, one, one]
  | 8 => [five, one, one, one]
  | 9 => [one, ten]
  | _ => []

/-- The numeral of a number. -/
def numeral (n : Nat) : String :=
  String.ofList (List.replicate (n / 1000) 'm' ++ (group 'c' 'd' 'm' (n / 100 % 10) ++
    (group 'x' 'l' 'c' (n / 10 % 10) ++ group 'i' 'v' 'x' (n % 10))))

end Verif.Spec.Roman
