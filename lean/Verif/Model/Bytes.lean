import Verif.Model.Py
import Mathlib.Data.Nat.Notation
import Mathlib.Data.Int.Notation
/-!
Binary files as lists of bytes: the big-endian primitives `struct.pack('>i', v)`,
`np.fromfile(fid, dtype='>i4'/'>f4', count=n)` and `fid.seek(n, 1)` used in
`/repo/pyTMD/io/OTIS.py`.

A binary32 number is its bit pattern.  The reading position is represented by the bytes not yet
read; relative seeks go forward only (the code never seeks back on well-formed files).
-/
namespace Verif.Bytes
open Verif

/-- A binary32 number, by its bit pattern. -/
abbrev F4 := UInt32

/-- The four bytes of a 32-bit word, most significant first. -/
def be (n : ℕ) : List UInt8 :=
  [UInt8.ofNat (n / 2 ^ 24), UInt8.ofNat (n / 2 ^ 16), UInt8.ofNat (n / 2 ^ 8), UInt8.ofNat n]

/-- The words of a byte string; an incomplete word at the end is dropped as `np.fromfile` does. -/
def words : List UInt8 → List ℕ
  | a :: b :: c :: d :: t =>
    (a.toNat * 2 ^ 24 + b.toNat * 2 ^ 16 + c.toNat * 2 ^ 8 + d.toNat) :: words t
  | _ => []

/-- Two's complement reading of a word. -/
def toI4 (n : ℕ) : ℤ := if n < 2 ^ 31 then (n : ℤ) else (n : ℤ) - 2 ^ 32

/-- Two's complement representation of a signed 32-bit integer. -/
def ofI4 (v : ℤ) : ℕ := (v % 2 ^ 32).toNat

/-- `struct.pack('>i', v)`: `struct.error` outside the range of a signed 32-bit integer. -/
def packI (v : ℤ) : Except PyErr (List UInt8) :=
  if -2 ^ 31 ≤ v ∧ v < 2 ^ 31 then .ok (be (ofI4 v)) else .error .structError

/-- `np.fromfile(fid, dtype='>i4' or '>f4', count=n)`: raw words and the bytes that follow. -/
def fromfile (n : ℕ) (bs : List UInt8) : List ℕ × List UInt8 :=
  (words (bs.take (4 * n)), bs.drop (4 * n))

/-- `a, = np.fromfile(fid, dtype='>i4', count=1)`. -/
def readI (bs : List UInt8) : Except PyErr (ℤ × List UInt8) :=
  match fromfile 1 bs with
  | ([n], rest) => .ok (toI4 n, rest)
  | _ => .error .valueError

/-- `fid.seek(n, 1)` with `n ≥ 0`. -/
def seek (n : ℤ) (bs : List UInt8) : List UInt8 := bs.drop n.toNat

/-- The bytes written by `array.tofile(fid, format=...)` for an array of dtype `>f4`: the
`format` keyword only concerns text files, so the bytes are those of the array itself. -/
def tofileF (l : List F4) : List UInt8 := l.flatMap (fun x => be x.toNat)

/-- `np.isnan` on a bit pattern: exponent all ones and a nonzero fraction. -/
def isNaN (x : F4) : Bool := (x.toNat / 2 ^ 23) % 2 ^ 8 == 2 ^ 8 - 1 && x.toNat % 2 ^ 23 != 0

/-- `l[start::step]` -/
def stride (start step : ℕ) (l : List α) : List α :=
  (List.range l.length).filterMap (fun i =>
    if start ≤ i ∧ (i - start) % step = 0 then l[i]? else none)

end Verif.Bytes
