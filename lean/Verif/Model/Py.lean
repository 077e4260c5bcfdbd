/-!
Python-level conventions shared by the models: exceptions as values, and the
indexing rules of Python sequences.
-/
namespace Verif

/-- The Python exceptions the modelled code can raise.  `unbound` stands for
`UnboundLocalError`/`NameError`: a branch that should have bound a variable did not run. -/
inductive PyErr where
  | valueError
  | keyError
  | indexError
  | attributeError
  | typeError
  | assertionError
  | fileNotFound
  | stopIteration
  | unbound
  | ioError
  | structError
  | exception
  deriving DecidableEq, Repr

-- Equality of outcomes is decidable, so that finite tables can be checked by evaluation.
deriving instance DecidableEq for Except

/-- `seq[i]` for a Python integer `i`: negative indices count from the end, anything
outside `-len ≤ i < len` raises `IndexError`. -/
def pyIndex {α : Type} (l : List α) (i : Int) : Except PyErr α :=
  let j : Int := if i < 0 then i + l.length else i
  if j < 0 then .error .indexError
  else match l[j.toNat]? with
    | some a => .ok a
    | none => .error .indexError

/-- `mapM` in `Except`, written out so that proofs unfold it: a Python list
comprehension that stops at the first exception. -/
def pyMap {α β : Type} (f : α → Except PyErr β) : List α → Except PyErr (List β)
  | [] => .ok []
  | a :: as =>
    match f a with
    | .error e => .error e
    | .ok b =>
      match pyMap f as with
      | .error e => .error e
      | .ok bs => .ok (b :: bs)

end Verif
