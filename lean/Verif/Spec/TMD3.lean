import Verif.Spec.Staggered
/-!
What a consolidated TMD3 file says: rows go from north to south, constants are `amplitude · exp(i · phase lag)` in the
file and `amplitude · exp(-i · phase lag)` here, the flexure is the percentage of the tide that the ice follows.
-/
namespace Verif.Spec

variable {K : Type} [Field K] [LinearOrder K]

/-- Row `j` from the south of a matrix with `ny` rows that begins in the north. -/
def fromSouth {α : Type} (ny : ℕ) (m : List α) (d : α) (j : ℤ) : α :=
  if j.toNat < ny then m.getD (ny - 1 - j.toNat) d else d

/-- The constant at a point: the conjugate of the number in the file, and with `flexure` its percentage (nothing where
the percentage is 0). -/
def tmdConstant (re im : K) (flexure : Option K) : Option (K × K) :=
  match flexure with
  | none => some (re, -im)
  | some f => if f = 0 then none else some (re * f / 100, -im * f / 100)

end Verif.Spec
