import Verif.Model.UnixTime
import Mathlib.Algebra.BigOperators.Group.List.Basic
/-!
Dates of the Gregorian calendar, the seconds since 1970 by counting the days of years and months, and how
dates are written.
-/
namespace Verif.Spec.UnixTime
open Verif Verif.UnixTime

/-- A date and a time of the day, with the offset of a time zone in minutes. -/
structure Civil where
  year : ℕ
  month : ℕ
  day : ℕ
  hour : ℕ
  minute : ℕ
  second : ℕ
  west : Bool
  offset : ℕ

def IsLeap (y : ℕ) : Prop := 4 ∣ y ∧ (¬ 100 ∣ y ∨ 400 ∣ y)

instance (y : ℕ) : Decidable (IsLeap y) := inferInstanceAs (Decidable (_ ∧ _))

/-- The days of a month. -/
def lengthOf (y m : ℕ) : ℕ :=
  if m = 2 then (if IsLeap y then 29 else 28)
  else if m = 4 ∨ m = 6 ∨ m = 9 ∨ m = 11 then 30 else 31

/-- The days of a year. -/
def yearLength (y : ℕ) : ℕ := if IsLeap y then 366 else 365

/-- The days of the years 1 to `y - 1`. -/
def yearsBefore (y : ℕ) : ℕ := ((List.range (y - 1)).map fun i => yearLength (i + 1)).sum

/-- The days of the months 1 to `m - 1` of a year. -/
def monthsBefore (y m : ℕ) : ℕ := ((List.range (m - 1)).map fun i => lengthOf y (i + 1)).sum

/-- The days from the first day of the year 1 to a date. -/
def dayNumber (y m d : ℕ) : ℕ := yearsBefore y + monthsBefore y m + (d - 1)

/-- The seconds from the start of 1970 to a time, both in the same time zone. -/
def clock (c : Civil) : ℤ :=
  86400 * ((dayNumber c.year c.month c.day : ℤ) - dayNumber 1970 1 1) + 3600 * c.hour + 60 * c.minute +
    c.second

/-- The date exists. -/
structure Valid (c : Civil) : Prop where
  year : 1 ≤ c.year ∧ c.year ≤ 9999
  month : 1 ≤ c.month ∧ c.month ≤ 12
  day : 1 ≤ c.day ∧ c.day ≤ lengthOf c.year c.month
  hour : c.hour ≤ 23
  minute : c.minute ≤ 59
  second : c.second ≤ 59
  offset : c.offset < 6000

def digit (n : ℕ) : Char := Char.ofNat (48 + n % 10)
def two (n : ℕ) : List Char := [digit (n / 10), digit n]
def four (n : ℕ) : List Char := [digit (n / 1000), digit (n / 100), digit (n / 10), digit n]

/-- How a part of a format is written. -/
def written (c : Civil) : Directive → List Char
  | .Y => four c.year
  | .m => two c.month
  | .d => two c.day
  | .H => two c.hour
  | .M => two c.minute
  | .S => two c.second
  | .z => (if c.west then '-' else '+') :: (two (c.offset / 60) ++ ':' :: two (c.offset % 60))
  | .lit x => [x]
  | .space => [' ']

/-- How a date is written. -/
def write (fmt : List Directive) (c : Civil) : List Char := fmt.flatMap (written c)

/-- The time with what a format does not write set to zero. -/
def cut (fmt : List Directive) (c : Civil) : Civil :=
  { c with
    hour := if .H ∈ fmt then c.hour else 0
    minute := if .M ∈ fmt then c.minute else 0
    second := if .S ∈ fmt then c.second else 0 }

/-- The order of times of one zone. -/
def Earlier (a b : Civil) : Prop :=
  a.year < b.year ∨ a.year = b.year ∧ (a.month < b.month ∨ a.month = b.month ∧ (a.day < b.day ∨ a.day = b.day ∧
    (a.hour < b.hour ∨ a.hour = b.hour ∧ (a.minute < b.minute ∨ a.minute = b.minute ∧ a.second < b.second))))

/-- The fields of a date are in the ranges of what is written, be it a date that exists or not. -/
structure InRange (c : Civil) : Prop where
  year : c.year ≤ 9999
  month : 1 ≤ c.month ∧ c.month ≤ 12
  day : 1 ≤ c.day ∧ c.day ≤ 31
  hour : c.hour ≤ 23
  minute : c.minute ≤ 59
  second : c.second ≤ 59
  offset : c.offset < 6000

/-- The formats that write dates without a zone. -/
def plainFormats : List (List Directive) := [formatDefault, formatHttp, formatDay, formatFtp, formatGranule]

/-- The seconds since 1970 of a time in its zone. -/
def utc (c : Civil) : ℤ := clock c - (if c.west then -1 else 1) * (60 * c.offset)

end Verif.Spec.UnixTime
