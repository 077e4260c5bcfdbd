import Verif.Model.Py
import Mathlib.Algebra.Order.Floor.Defs
import Mathlib.Algebra.Field.Defs
import Mathlib.Algebra.Order.Ring.Defs
/-!
Model of small functions of `/repo/pyTMD/utilities.py`: `roman_to_int` (362-383), `even` (433-442)
and `ceil` (445-454).
-/
namespace Verif.Utilities
open Verif

/-- utilities.py 372, `roman_map` -/
def romanMap : Char → Option Int
  | 'i' => some 1
  | 'v' => some 5
  | 'x' => some 10
  | 'l' => some 50
  | 'c' => some 100
  | 'd' => some 500
  | 'm' => some 1000
  | _ => none

/-- `roman_map[s]` -/
def romanValue (c : Char) : Except PyErr Int :=
  match romanMap c with
  | some v => .ok v
  | none => .error .keyError

/-- utilities.py 377-381: the loop, with the letter before and the output so far. -/
def romanLoop (prev : Option Char) (output : Int) : List Char → Except PyErr Int
  | [] => .ok output
  | s :: t =>
    match prev with
    | none => do
      let v ← romanValue s
      romanLoop (some s) (output + v) t
    | some p => do
      let v ← romanValue s
      let w ← romanValue p
      if v > w then romanLoop (some s) (output + (v - 2 * w)) t
      else romanLoop (some s) (output + v) t

/-- utilities.py 362-383, `roman_to_int` -/
def romanToInt (roman : String) : Except PyErr Int := romanLoop none 0 roman.toLower.toList

/-- utilities.py 433-442, `even`: `2*int(value//2)` -/
def even {K : Type} [Field K] [LinearOrder K] [FloorRing K] (value : K) : Int := 2 * ⌊value / 2⌋

/-- utilities.py 445-454, `ceil`: `-int(-value//1)` -/
def ceil {K : Type} [Field K] [LinearOrder K] [FloorRing K] (value : K) : Int := -⌊-value / 1⌋

end Verif.Utilities
