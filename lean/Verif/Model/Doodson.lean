import Verif.Model.Py
/-!
Model of the Doodson-number codecs in `/repo/pyTMD/arguments.py`, lines 1542-1650.
-/
namespace Verif.Doodson
open Verif

/-- A Doodson number as returned by `_to_doodson_number`: either a float, stored here
as its exact number of thousandths, or a `str` in the form `abc.def`. -/
inductive DO where
  | num (thousandths : Nat)
  | txt (s : List Char)
  deriving DecidableEq, Repr

/-- arguments.py 1564-1566: `coef = np.array(coef[:6]).astype(int); coef[1:] += 5`.
Coefficients are integers here (all entries of the coefficient table are). -/
def shifted (coef : List Int) : List Int :=
  match coef.take 6 with
  | [] => []
  | a :: t => a :: t.map (· + 5)

/-- arguments.py 1568: `np.any(coef < 0) or np.any(coef > 11)`. -/
def outOfRange (c : List Int) : Bool := c.any (fun v => v < 0 || v > 11)

/-- arguments.py 1575: `str(v).replace('10','X').replace('11','E')` for `0 ≤ v ≤ 11`. -/
def symbol (v : Int) : Char :=
  if v = 10 then 'X' else if v = 11 then 'E' else Nat.digitChar v.toNat

/-- arguments.py 1580-1581: `np.sum([v*10**(2-o) ...])` rounded to three decimals, in
thousandths.  Simplification: exact arithmetic instead of binary floating point; the
rounding to three decimals restores the exact decimal value. -/
def thousandths (c : List Int) : Nat :=
  ((c.zipIdx.map (fun (v, o) => v.toNat * 10 ^ (5 - o))).sum)

/-- arguments.py 1542-1581, `_to_doodson_number` with the default `astype=float`.
The `format` call at 1577 raises `IndexError` on fewer than six digits. -/
def toDoodson (raiseError : Bool) (coef : List Int) : Except PyErr (Option DO) :=
  let c := shifted coef
  if outOfRange c && raiseError then .error .valueError
  else if outOfRange c then .ok none
  else if c.any (fun v => v == 10) || c.any (fun v => v == 11) then
    match c.map symbol with
    | [s0, s1, s2, s3, s4, s5] => .ok (some (.txt [s0, s1, s2, '.', s3, s4, s5]))
    | _ => .error .indexError
  else .ok (some (.num (thousandths c)))

/-- Drop trailing zeros of a fraction, keeping at least one digit (as `str(float)` does). -/
def stripZeros (f : List Char) : List Char :=
  match (f.reverse.dropWhile (· == '0')).reverse with
  | [] => ['0']
  | g => g

/-- Three decimal digits of `n`, for `n < 1000`. -/
def pad3 (n : Nat) : List Char :=
  [Nat.digitChar (n / 100 % 10), Nat.digitChar (n / 10 % 10), Nat.digitChar (n % 10)]

/-- `str(x)` of the float `n/1000`: shortest decimal text.  All such values lie in
`[0.001, 1e6)` or are zero, so Python uses positional notation. -/
def floatText (n : Nat) : List Char :=
  Nat.toDigits 10 (n / 1000) ++ '.' :: stripZeros (pad3 (n % 1000))

/-- `str(DO)`. -/
def text : DO → List Char
  | .num n => floatText n
  | .txt s => s

/-- `str.zfill(w)` for text without a sign. -/
def zfill (w : Nat) (s : List Char) : List Char := List.replicate (w - s.length) '0' ++ s

/-- `re.findall(r'\w', s)` restricted to ASCII: letters, digits and underscore. -/
def wordChars (s : List Char) : List Char := s.filter (fun c => c.isAlphanum || c == '_')

/-- arguments.py 1623: `int(c.replace('X','10').replace('E','11'))` for one character. -/
def symbolValue (c : Char) : Except PyErr Int :=
  if c = 'X' then .ok 10
  else if c = 'E' then .ok 11
  else if c.isDigit then .ok (Int.ofNat (c.toNat - 48))
  else .error .valueError

/-- arguments.py 1607-1627, `_from_doodson_number`. -/
def fromDoodson (d : DO) : Except PyErr (List Int) :=
  match pyMap symbolValue (wordChars (zfill 7 (text d))) with
  | .error e => .error e
  | .ok [] => .ok []
  | .ok (a :: t) => .ok (a :: t.map (· - 5))

/-- arguments.py 1603 and 1647: the digits of the UKHO extended Doodson number. -/
def extDigits : List Char := "RSTUVWXYZABCDEFGHIJKLMNOP".toList

/-- arguments.py 1583-1605, `_to_extended_doodson`: `digits[v+8]` with Python indexing. -/
def toExtended (coef : List Int) : Except PyErr (List Char) :=
  pyMap (fun v => pyIndex extDigits (v + 8)) coef

/-- `str.index(c)`: position of the first occurrence, `ValueError` if absent. -/
def strIndex (l : List Char) (c : Char) : Except PyErr Int :=
  match l.findIdx? (· == c) with
  | some i => .ok (Int.ofNat i)
  | none => .error .valueError

/-- arguments.py 1629-1650, `_from_extended_doodson`. -/
def fromExtended (s : List Char) : Except PyErr (List Int) :=
  pyMap (fun c => match strIndex extDigits c with
    | .ok i => .ok (i - 8)
    | .error e => .error e) s

end Verif.Doodson
