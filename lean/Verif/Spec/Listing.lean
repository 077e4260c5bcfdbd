/-!
Specification for C87: which databases have a section, and what a sorted list of names is.
-/
namespace Verif.Spec

/-- The value of a key in an object given by its keys and values in order. -/
def valueOf {V : Type} (d : List (String × V)) (k : String) (v : V) : Prop := (k, v) ∈ d

/-- The last of the files that have a section, with the models in it. -/
def LastSection {E : Type} (files : List (List (String × List (String × E)))) (s : String)
    (models : List (String × E)) : Prop :=
  ∃ before file after, files = before ++ file :: after ∧ valueOf file s models ∧
    ∀ f ∈ after, ∀ m, ¬ valueOf f s m

/-- A list of names in increasing order, hence without repetitions, that has exactly the names with
a property. -/
def ListOf (P : String → Prop) (l : List String) : Prop :=
  l.Pairwise (· < ·) ∧ ∀ m, m ∈ l ↔ P m

end Verif.Spec
