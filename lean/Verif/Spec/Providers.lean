/-!
Specification for C117: what the files of providers in a directory offer.
-/
namespace Verif.Spec

/-- A name that ends with `.json` and has something other than dots before. -/
def JsonName (n : List Char) : Prop :=
  ∃ stem : List Char, n = stem ++ ['.', 'j', 's', 'o', 'n'] ∧ ∃ c ∈ stem, c ≠ '.'

/-- A file offers an entry for a model in a section. -/
def FileOffers {E : Type} (p : List Char × Option (List (String × List (String × E))))
    (s m : String) (e : E) : Prop :=
  JsonName p.1 ∧ ∃ f, p.2 = some f ∧ ∃ d, (s, d) ∈ f ∧ (m, e) ∈ d

/-- Some file of a directory offers an entry for a model in a section. -/
def Offers {E : Type} (entries : List (List Char × Option (List (String × List (String × E)))))
    (s m : String) (e : E) : Prop := ∃ p ∈ entries, FileOffers p s m e

/-- The entry offered for a model by the last of the files that offer one. -/
def LastOffers {E : Type} (entries : List (List Char × Option (List (String × List (String × E)))))
    (s m : String) (e : E) : Prop :=
  ∃ before p after, entries = before ++ p :: after ∧ FileOffers p s m e ∧
    ∀ q ∈ after, ∀ e', ¬ FileOffers q s m e'

end Verif.Spec
