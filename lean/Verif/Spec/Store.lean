import Verif.Model.Store
import Mathlib.Data.List.Forall2
/-!
What it means that arrays and attributes come back from a file.
-/
namespace Verif.Spec.Store
open Verif Verif.Store

variable {K : Type}

/-- The values one sees in an array: nothing where it is masked. -/
def seen (a : Arr K) : List (Option K) := a.vals.map fun p => if p.2 then none else some p.1

/-- Arrays that show the same. -/
def Same (a b : Arr K) : Prop := a.shape = b.shape ∧ seen a = seen b

/-- The attributes that a file of spatial data keeps. -/
def kept : List String :=
  ["description", "units", "long_name", "calendar", "standard_name", "grid_mapping", "_FillValue"]

/-- What is read shows the arrays that were written under the names in the file, in the order that
was asked for, with the attributes `attrs` says. -/
def Returns (output : List (String × Arr K)) (attrs : String → String → Option (Value K))
    (mapping : List (String × String)) (read : List (String × Arr K × List (String × Value K))) :
    Prop :=
  List.Forall₂ (fun (m : String × String) r => r.1 = m.1 ∧
    ∃ val, (m.2, val) ∈ output ∧ Same r.2.1 val ∧
      ∀ attr ∈ kept, r.2.2.lookup attr = attrs m.2 attr) mapping read

end Verif.Spec.Store
