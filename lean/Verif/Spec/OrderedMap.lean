/-!
Specification for C04: an ordered map from names to values, as an association list with
distinct keys.  It does not mention the implementation.
-/
namespace Verif.Spec

/-- An ordered map: pairs in insertion order. -/
abbrev OMap (V : Type) := List (String × V)

namespace OMap
variable {V : Type}

/-- The value stored under a name. -/
def find (m : OMap V) (n : String) : Option V := (m.find? (fun p => p.1 == n)).map (·.2)

/-- The names in insertion order. -/
def keys (m : OMap V) : List String := m.map (·.1)

/-- Replace the value of an existing name, keeping its place. -/
def replace (m : OMap V) (n : String) (v : V) : OMap V :=
  m.map (fun p => if p.1 = n then (n, v) else p)

/-- Insert: a new name goes to the end, an existing one keeps its place. -/
def insert (m : OMap V) (n : String) (v : V) : OMap V :=
  if n ∈ m.keys then m.replace n v else m ++ [(n, v)]

/-- Remove a name. -/
def erase (m : OMap V) (n : String) : OMap V := m.filter (fun p => p.1 ≠ n)

end OMap
end Verif.Spec
