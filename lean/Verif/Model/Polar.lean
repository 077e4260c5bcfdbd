import Verif.Model.Constituents
import Mathlib.Analysis.SpecialFunctions.Complex.Arg
/-!
Model of `constituents.amplitude`, `constituents.phase` and `constituents.shape`, `/repo/pyTMD/
io/constituents.py` lines 124-168 and 219-227.

The values kept in the container are arrays of complex numbers, either plain or masked.  A masked
array is its shape and its cells in order, each with its datum and its mask.  Simplifications:
datums are exact, so NaN and signed zeros are left out; a masked array without a mask is one with
no masked cell; the shape is not tied to the number of cells.
-/
namespace Verif.Polar
open Verif Verif.Constituents

/-- What is stored under the name of a constituent: an array without a `mask` attribute or a masked
array. -/
inductive Arr where
  | plain (shape : List ℕ) (cells : List ℂ)
  | masked (shape : List ℕ) (cells : List (ℂ × Bool))

/-- `constituent.shape`. -/
def Arr.shape : Arr → List ℕ
  | .plain s _ => s
  | .masked s _ => s

/-- A masked array of reals: shape and cells in order, each with its datum and its mask. -/
structure Reals where
  shape : List ℕ
  cells : List (ℝ × Bool)

/-- constituents.py 124-143, `amplitude`: the attribute, the square root of the sum of squares,
the mask of the constituent and the fill value in the masked cells.  A plain array has no mask. -/
noncomputable def amplitude (fill : ℝ) (s : State Arr) (field : String) : Except PyErr Reals :=
  match s.getattr field with
  | .error e => .error e
  | .ok (.plain _ _) => .error .attributeError
  | .ok (.masked sh cells) =>
    .ok ⟨sh, cells.map fun c =>
      (if c.2 then fill else √(c.1.re ^ 2 + c.1.im ^ 2), c.2)⟩

/-- constituents.py 161-162: `180.0*np.arctan2(-imag, real)/np.pi` and 360 added below zero. -/
noncomputable def degrees (z : ℂ) : ℝ :=
  open Classical in
  if 180 * Complex.arg ⟨z.re, -z.im⟩ / Real.pi < 0 then
    180 * Complex.arg ⟨z.re, -z.im⟩ / Real.pi + 360
  else 180 * Complex.arg ⟨z.re, -z.im⟩ / Real.pi

/-- constituents.py 145-166, `phase`.  On a plain array `ph.data` is a buffer of bytes; it is left
out, as the lines before the mask do not change what is raised at line 164 at the latest (a
comparison of a buffer with a number raises `TypeError`, line 162). -/
noncomputable def phase (fill : ℝ) (s : State Arr) (field : String) : Except PyErr Reals :=
  match s.getattr field with
  | .error e => .error e
  | .ok (.plain _ _) => .error .typeError
  | .ok (.masked sh cells) =>
    .ok ⟨sh, cells.map fun c => (if c.2 then fill else degrees c.1, c.2)⟩

/-- constituents.py 219-227, `shape`: any exception gives `None`. -/
def shape (s : State Arr) : Option (List ℕ) :=
  match s.fields with
  | [] => none
  | f :: _ =>
    match s.getattr f with
    | .error _ => none
    | .ok a => some a.shape

end Verif.Polar
