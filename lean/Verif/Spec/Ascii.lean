/-!
The layout of ascii grids: the values of a row are written in lines of a fixed number of values,
the last of which may be shorter.
-/
namespace Verif.Spec.Ascii

variable {R : Type}

/-- A row in lines of `width` values. -/
def wrapped (width : Nat) (row : List R) : List (List R) :=
  if h : width = 0 ∨ row = [] then []
  else row.take width :: wrapped width (row.drop width)
termination_by row.length
decreasing_by
  rcases row with _ | ⟨a, t⟩
  · simp at h
  · simp at h ⊢
    omega

/-- A GOT file: header, amplitudes, a second header, phases. -/
def gotFile (header header2 amp ph : List (List R)) : List (List R) :=
  header ++ (amp.map (wrapped 11)).flatten ++ header2 ++ (ph.map (wrapped 11)).flatten

/-- Two lists in turn. -/
def inTurn : List (List R) → List (List R) → List (List R)
  | a :: as, b :: bs => a :: b :: inTurn as bs
  | _, _ => []

/-- An FES file: header, then for each row its lines of amplitudes and of phases in turn. -/
def fesFile (header amp ph : List (List R)) : List (List R) :=
  header ++ (List.zipWith (fun a p => inTurn (wrapped 30 a) (wrapped 30 p)) amp ph).flatten

end Verif.Spec.Ascii
