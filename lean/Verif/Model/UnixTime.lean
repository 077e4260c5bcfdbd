import Mathlib.Data.Rat.Defs
import Verif.Model.Py
/-!
Model of `get_unix_time` (`/repo/pyTMD/utilities.py` 386-412), with the functions of Python's library that it
uses: `time.strptime`, `calendar.timegm` and `datetime.timestamp`.

Simplifications: digits are the ASCII ones; literal characters are compared with case (`strptime` does not look
at case); offsets of time zones have hours and minutes only; what `dateutil` makes of a string is given from
outside; the zone of the machine is a function from a local time to its offset; the string is a string.
-/
namespace Verif.UnixTime
open Verif

/-- The parts of a format. -/
inductive Directive where
  | Y | m | d | H | M | S | z
  | lit (c : Char)
  | space
deriving DecidableEq

/-- The formats that the package uses: the default of `get_unix_time`, that of a listing by http, of
bulletins, of an ftp server, of lists of granules and of box. -/
def formatDefault : List Directive :=
  [.Y, .lit '-', .m, .lit '-', .d, .space, .H, .lit ':', .M, .lit ':', .S]
def formatHttp : List Directive := [.Y, .lit '-', .m, .lit '-', .d, .space, .H, .lit ':', .M]
def formatDay : List Directive := [.Y, .lit '-', .m, .lit '-', .d]
def formatFtp : List Directive := [.Y, .m, .d, .H, .M, .S]
def formatGranule : List Directive :=
  [.Y, .lit ':', .m, .lit ':', .d, .space, .H, .lit ':', .M, .lit ':', .S]
def formatBox : List Directive :=
  [.Y, .lit '-', .m, .lit '-', .d, .lit 'T', .H, .lit ':', .M, .lit ':', .S, .z]

/-- A class of characters of a regular expression: those from one to another. -/
abbrev Class := Char × Char

/-- The alternatives of the regular expressions of `_strptime.TimeRE`, in order: for each the classes of its
characters. -/
def alternatives : Directive → List (List Class)
  | .Y => [[('0', '9'), ('0', '9'), ('0', '9'), ('0', '9')]]
  | .m => [[('1', '1'), ('0', '2')], [('0', '0'), ('1', '9')], [('1', '9')]]
  | .d => [[('3', '3'), ('0', '1')], [('1', '2'), ('0', '9')], [('0', '0'), ('1', '9')], [('1', '9')],
      [(' ', ' '), ('1', '9')]]
  | .H => [[('2', '2'), ('0', '3')], [('0', '1'), ('0', '9')], [('0', '9')]]
  | .M => [[('0', '5'), ('0', '9')], [('0', '9')]]
  | .S => [[('6', '6'), ('0', '1')], [('0', '5'), ('0', '9')], [('0', '9')]]
  | .z => [[('+', '+'), ('0', '9'), ('0', '9'), (':', ':'), ('0', '5'), ('0', '9')],
      [('-', '-'), ('0', '9'), ('0', '9'), (':', ':'), ('0', '5'), ('0', '9')],
      [('+', '+'), ('0', '9'), ('0', '9'), ('0', '5'), ('0', '9')],
      [('-', '-'), ('0', '9'), ('0', '9'), ('0', '5'), ('0', '9')], [('Z', 'Z')]]
  | .lit c => [[(c, c)]]
  | .space => []

/-- A sequence of classes at the beginning of a string: the text and the rest. -/
def matchClasses : List Class → List Char → Option (List Char × List Char)
  | [], s => some ([], s)
  | _ :: _, [] => none
  | k :: ks, c :: s =>
    if k.1 ≤ c ∧ c ≤ k.2 then (matchClasses ks s).map fun r => (c :: r.1, r.2) else none

def isSpace (c : Char) : Bool := c = ' ' || c = '\t' || c = '\n' || c = '\r' || c = '\x0b' || c = '\x0c'

/-- `\s+`: all ways to take characters of space, most first. -/
def spaces : List Char → List (List Char × List Char)
  | [] => []
  | c :: s => if isSpace c then (spaces s).map (fun r => (c :: r.1, r.2)) ++ [([c], s)] else []

/-- What a part of a format matches at the beginning of a string, in the order in which they are tried. -/
def alts (d : Directive) (s : List Char) : List (List Char × List Char) :=
  match d with
  | .space => spaces s
  | d => (alternatives d).filterMap fun ks => matchClasses ks s

/-- The fields of `struct_time` that are used, and the offset in seconds. -/
structure Fields where
  year : ℕ
  month : ℕ
  day : ℕ
  hour : ℕ
  minute : ℕ
  second : ℕ
  gmtoff : Option ℤ
deriving DecidableEq

/-- The values before anything is read. -/
def blank : Fields := ⟨1900, 1, 1, 0, 0, 0, none⟩

def digitOf (c : Char) : ℕ := c.toNat - 48

/-- `int(text)` -/
def value (t : List Char) : ℕ := (t.filter Char.isDigit).foldl (fun n c => 10 * n + digitOf c) 0

/-- The offset of a time zone in seconds. -/
def offsetOf (t : List Char) : ℤ :=
  let n : ℤ := (value t / 100 * 3600 + value t % 100 * 60 : ℕ)
  if t.head? = some '-' then -n else n

/-- Storing what a part has matched. -/
def store (d : Directive) (t : List Char) (f : Fields) : Fields :=
  match d with
  | .Y => { f with year := value t }
  | .m => { f with month := value t }
  | .d => { f with day := value t }
  | .H => { f with hour := value t }
  | .M => { f with minute := value t }
  | .S => { f with second := value t }
  | .z => { f with gmtoff := some (offsetOf t) }
  | .lit _ => f
  | .space => f

/-- All ways to match a format at the beginning of a string, in the order of the regular expression. -/
def ways : List Directive → List Char → Fields → List (Fields × List Char)
  | [], s, f => [(f, s)]
  | d :: ds, s, f => (alts d s).flatMap fun r => ways ds r.2 (store d r.1 f)

def leap (y : ℕ) : Bool := y % 4 = 0 && (y % 100 ≠ 0 || y % 400 = 0)

/-- `datetime._days_before_year` -/
def daysBeforeYear (y : ℕ) : ℤ :=
  let y : ℤ := (y : ℤ) - 1
  y * 365 + y / 4 - y / 100 + y / 400

def monthLengths : List ℕ := [31, 28, 31, 30, 31, 30, 31, 31, 30, 31, 30, 31]

/-- `datetime._days_in_month` -/
def daysInMonth (y m : ℕ) : ℕ := if m = 2 && leap y then 29 else monthLengths.getD (m - 1) 0

/-- `datetime._DAYS_BEFORE_MONTH` -/
def daysBefore : List ℕ := [0, 31, 59, 90, 120, 151, 181, 212, 243, 273, 304, 334]

/-- `datetime._days_before_month` -/
def daysBeforeMonth (y m : ℕ) : ℕ := daysBefore.getD (m - 1) 0 + if 2 < m && leap y then 1 else 0

/-- `date.toordinal` -/
def toordinal (y m d : ℕ) : ℤ := daysBeforeYear y + daysBeforeMonth y m + d

/-- `time.strptime`: the first way to match the format, which must use all of the string; the date must be one
(`none` is a `ValueError`). -/
def strptime (fmt : List Directive) (s : List Char) : Option Fields :=
  match (ways fmt s blank).head? with
  | some (f, []) => if 1 ≤ f.year ∧ f.day ≤ daysInMonth f.year f.month then some f else none
  | _ => none

/-- `calendar.timegm`: looks at the first six fields only. -/
def timegm (f : Fields) : ℤ :=
  let days := toordinal f.year f.month 1 - 719163 + f.day - 1
  let hours := days * 24 + f.hour
  let minutes := hours * 60 + f.minute
  minutes * 60 + f.second

/-- A time that `dateutil` has read, in seconds since 1970 as its fields say: with a time zone whose offset is
given or without. -/
inductive Stamp where
  | aware (seconds offset : ℚ)
  | naive (seconds : ℚ)

/-- `datetime.timestamp`: a time without a zone is taken for one of the zone of the machine. -/
def timestamp (zone : ℚ → ℚ) : Stamp → ℚ
  | .aware t o => t - o
  | .naive t => t - zone t

def rstrip (s : List Char) : List Char := (s.reverse.dropWhile isSpace).reverse

/-- utilities.py 386-412 -/
def getUnixTime (zone : ℚ → ℚ) (dateutil : List Char → Option Stamp) (fmt : List Directive) (s : List Char) :
    Option ℚ :=
  match strptime fmt (rstrip s) with
  | some f => some (timegm f)
  | none => (dateutil (rstrip s)).map (timestamp zone)

end Verif.UnixTime
