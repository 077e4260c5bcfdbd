import Verif.Spec.UnixTime
import Mathlib.Tactic.IntervalCases
import Mathlib.Tactic.Linarith
import Mathlib.Tactic.Ring
import Mathlib.Data.Rat.Cast.Order
/-!
C120: dates that are written in the formats of the package are read as the seconds since 1970, whatever the
time zone of the machine is.
-/
namespace Verif.UnixTime
open Verif Verif.Spec.UnixTime

/-! ### Digits -/

theorem digit_small (k : ℕ) (h : k < 10) :
    '0' ≤ Char.ofNat (48 + k) ∧ Char.ofNat (48 + k) ≤ '9' ∧ (Char.ofNat (48 + k)).isDigit = true ∧
      digitOf (Char.ofNat (48 + k)) = k ∧ isSpace (Char.ofNat (48 + k)) = false := by
  revert k
  decide +kernel

theorem digit_props (n : ℕ) : '0' ≤ digit n ∧ digit n ≤ '9' ∧ (digit n).isDigit = true ∧
    digitOf (digit n) = n % 10 ∧ isSpace (digit n) = false :=
  digit_small (n % 10) (Nat.mod_lt _ (by norm_num))

theorem value_two (n : ℕ) (h : n < 100) : value (two n) = n := by
  have d1 := digit_props (n / 10)
  have d2 := digit_props n
  simp only [value, two, List.filter_cons, d1.2.2.1, d2.2.2.1, if_true, List.filter_nil, List.foldl_cons,
    List.foldl_nil, d1.2.2.2.1, d2.2.2.2.1]
  omega

theorem value_four (n : ℕ) (h : n < 10000) : value (four n) = n := by
  have d1 := digit_props (n / 1000)
  have d2 := digit_props (n / 100)
  have d3 := digit_props (n / 10)
  have d4 := digit_props n
  simp only [value, four, List.filter_cons, d1.2.2.1, d2.2.2.1, d3.2.2.1, d4.2.2.1, if_true, List.filter_nil,
    List.foldl_cons, List.foldl_nil, d1.2.2.2.1, d2.2.2.2.1, d3.2.2.2.1, d4.2.2.2.1]
  omega

/-! ### The first way to match -/

theorem ways_head {d : Directive} {ds : List Directive} {s t r : List Char} {f : Fields} {x : Fields × List Char}
    (h1 : (alts d s).head? = some (t, r)) (h2 : (ways ds r (store d t f)).head? = some x) :
    (ways (d :: ds) s f).head? = some x := by
  rw [ways]
  cases h : alts d s with
  | nil => rw [h] at h1; simp at h1
  | cons a l =>
    rw [h, List.head?_cons] at h1
    rw [Option.some.inj h1, List.flatMap_cons, List.head?_append, h2]
    rfl

theorem class_digit (n : ℕ) : ('0' ≤ digit n ∧ digit n ≤ '9') := ⟨(digit_props n).1, (digit_props n).2.1⟩

theorem alts_month (n : ℕ) (h : 1 ≤ n ∧ n ≤ 12) (rest : List Char) :
    (alts .m (two n ++ rest)).head? = some (two n, rest) := by
  obtain ⟨h1, h2⟩ := h
  interval_cases n <;> rfl

theorem alts_day (n : ℕ) (h : 1 ≤ n ∧ n ≤ 31) (rest : List Char) :
    (alts .d (two n ++ rest)).head? = some (two n, rest) := by
  obtain ⟨h1, h2⟩ := h
  interval_cases n <;> rfl

theorem alts_hour (n : ℕ) (h : n ≤ 23) (rest : List Char) :
    (alts .H (two n ++ rest)).head? = some (two n, rest) := by
  interval_cases n <;> rfl

theorem alts_minute (n : ℕ) (h : n ≤ 59) (rest : List Char) :
    (alts .M (two n ++ rest)).head? = some (two n, rest) := by
  interval_cases n <;> rfl

theorem alts_second (n : ℕ) (h : n ≤ 59) (rest : List Char) :
    (alts .S (two n ++ rest)).head? = some (two n, rest) := by
  interval_cases n <;> rfl

theorem alts_year (n : ℕ) (rest : List Char) : (alts .Y (four n ++ rest)).head? = some (four n, rest) := by
  simp [alts, alternatives, matchClasses, four, class_digit]

theorem alts_lit (x : Char) (rest : List Char) : (alts (.lit x) ([x] ++ rest)).head? = some ([x], rest) := by
  simp [alts, alternatives, matchClasses]

theorem alts_zone (west : Bool) (o : ℕ) (ho : o < 6000) (rest : List Char) :
    (alts .z (((if west then '-' else '+') :: (two (o / 60) ++ ':' :: two (o % 60))) ++ rest)).head? =
      some ((if west then '-' else '+') :: (two (o / 60) ++ ':' :: two (o % 60)), rest) := by
  have hm : o % 60 < 60 := Nat.mod_lt _ (by norm_num)
  generalize o % 60 = m at hm
  have h5 : '0' ≤ digit (m / 10) ∧ digit (m / 10) ≤ '5' := by
    have : m / 10 < 6 := by omega
    generalize m / 10 = k at this
    interval_cases k <;> decide
  have e1 : ¬ ('+' ≤ '-' ∧ '-' ≤ '+') := by decide
  cases west
  · simp [alts, alternatives, matchClasses, two, class_digit, h5]
  · simp [alts, alternatives, matchClasses, two, class_digit, h5]

theorem alts_space (rest : List Char) (h : ∀ c ∈ rest.head?, isSpace c = false) :
    (alts .space ([' '] ++ rest)).head? = some ([' '], rest) := by
  have hs : spaces rest = [] := by
    cases rest with
    | nil => rfl
    | cons c s => rw [spaces, h c (by simp)]; rfl
  change (spaces (' ' :: rest)).head? = _
  rw [spaces, if_pos (by decide), hs]
  rfl

/-- Spaces of a format are followed by numbers. -/
def good : List Directive → Bool
  | [] => true
  | .space :: ds => (match ds with
      | d :: _ => decide (d ∈ [.Y, .m, .d, .H, .M, .S])
      | [] => false) && good ds
  | _ :: ds => good ds

/-- What is stored when a date is read. -/
def stored (fmt : List Directive) (c : Civil) (f : Fields) : Fields :=
  fmt.foldl (fun f d => store d (written c d) f) f

theorem lengthOf_le (y m : ℕ) : lengthOf y m ≤ 31 := by
  rw [lengthOf]
  split_ifs <;> omega

theorem inRange {c : Civil} (h : Valid c) : InRange c :=
  ⟨h.year.2, h.month, ⟨h.day.1, h.day.2.trans (lengthOf_le _ _)⟩, h.hour, h.minute, h.second, h.offset⟩

theorem ways_written (c : Civil) (h : InRange c) : ∀ (fmt : List Directive), good fmt = true →
    ∀ (rest : List Char) (f : Fields),
      (ways fmt (write fmt c ++ rest) f).head? = some (stored fmt c f, rest) := by
  intro fmt
  induction fmt with
  | nil => intro _ rest f; rfl
  | cons d ds ih =>
    intro hg rest f
    have hw : write (d :: ds) c ++ rest = written c d ++ (write ds c ++ rest) := by
      rw [write, List.flatMap_cons, List.append_assoc, write]
    rw [hw]
    have hds : good ds = true := by
      cases d <;> first | exact hg | exact (Bool.and_eq_true_iff.1 hg).2
    refine ways_head (t := written c d) (r := write ds c ++ rest) ?_ (ih hds rest _)
    cases d with
    | Y => exact alts_year _ _
    | m => exact alts_month _ h.month _
    | d => exact alts_day _ h.day _
    | H => exact alts_hour _ h.hour _
    | M => exact alts_minute _ h.minute _
    | S => exact alts_second _ h.second _
    | z => exact alts_zone _ _ h.offset _
    | lit x => exact alts_lit _ _
    | space =>
      refine alts_space _ ?_
      have hd := (Bool.and_eq_true_iff.1 hg).1
      cases ds with
      | nil => simp at hd
      | cons d' ds =>
        simp only [List.mem_cons, List.not_mem_nil, or_false, decide_eq_true_eq] at hd
        intro x hx
        rcases hd with rfl | rfl | rfl | rfl | rfl | rfl <;>
          · rw [Option.mem_def] at hx
            rw [← Option.some.inj hx]
            exact (digit_props _).2.2.2.2

theorem rstrip_written {u : List Char} {x : Char} (hu : u.getLast? = some x) (hx : isSpace x = false)
    (w : List Char) (hw : ∀ c ∈ w, isSpace c = true) : rstrip (u ++ w) = u := by
  obtain ⟨a, rfl⟩ : ∃ a, u = a ++ [x] := by
    obtain ⟨a, e⟩ := List.getLast?_eq_some_iff.1 hu
    exact ⟨a, e⟩
  rw [rstrip, List.reverse_append, List.dropWhile_append_of_pos (by simpa using hw), List.reverse_append,
    List.reverse_singleton, List.singleton_append, List.dropWhile_cons_of_neg (by simp [hx]),
    List.reverse_cons, List.reverse_reverse]

/-! ### Counting days -/

theorem leap_iff (y : ℕ) : leap y = true ↔ IsLeap y := by
  simp only [leap, IsLeap, Bool.and_eq_true, Bool.or_eq_true, decide_eq_true_eq]
  omega

theorem yearsBefore_succ (n : ℕ) : yearsBefore (n + 2) = yearsBefore (n + 1) + yearLength (n + 1) := by
  rw [yearsBefore, yearsBefore, show n + 2 - 1 = n + 1 by omega, show n + 1 - 1 = n by omega,
    List.range_succ, List.map_append, List.sum_append]
  simp

theorem yearsBefore_eq (n : ℕ) : (yearsBefore (n + 1) : ℤ) = daysBeforeYear (n + 1) := by
  induction n with
  | zero => rfl
  | succ n ih =>
    rw [yearsBefore_succ, Nat.cast_add, ih]
    clear ih
    by_cases h : IsLeap (n + 1)
    · have e : yearLength (n + 1) = 366 := if_pos h
      rw [e]
      simp only [IsLeap] at h
      simp only [daysBeforeYear]
      push_cast
      omega
    · have e : yearLength (n + 1) = 365 := if_neg h
      rw [e]
      simp only [IsLeap] at h
      simp only [daysBeforeYear]
      push_cast
      omega

theorem lengthOf_eq (y m : ℕ) (h : 1 ≤ m ∧ m ≤ 12) : daysInMonth y m = lengthOf y m := by
  obtain ⟨h1, h2⟩ := h
  have hl := leap_iff y
  by_cases l : IsLeap y
  · have l' := hl.2 l
    interval_cases m <;> simp [daysInMonth, lengthOf, l, l', monthLengths]
  · have l' : leap y = false := by simpa using fun e => l (hl.1 e)
    interval_cases m <;> simp [daysInMonth, lengthOf, l, l', monthLengths]

theorem monthsBefore_eq (y m : ℕ) (h : 1 ≤ m ∧ m ≤ 12) : daysBeforeMonth y m = monthsBefore y m := by
  obtain ⟨h1, h2⟩ := h
  have hl := leap_iff y
  by_cases l : IsLeap y
  · have l' := hl.2 l
    interval_cases m <;> simp [daysBeforeMonth, monthsBefore, lengthOf, l, l', daysBefore, List.range_succ]
  · have l' : leap y = false := by simpa using fun e => l (hl.1 e)
    interval_cases m <;> simp [daysBeforeMonth, monthsBefore, lengthOf, l, l', daysBefore, List.range_succ]

theorem epoch : dayNumber 1970 1 1 = 719162 := by
  have h : (yearsBefore 1970 : ℤ) = 719162 := yearsBefore_eq 1969
  have h : yearsBefore 1970 = 719162 := by exact_mod_cast h
  rw [dayNumber, h]
  rfl

theorem timegm_clock (c : Civil) (hy : 1 ≤ c.year) (hm : 1 ≤ c.month ∧ c.month ≤ 12) (hd : 1 ≤ c.day)
    (o : Option ℤ) : timegm ⟨c.year, c.month, c.day, c.hour, c.minute, c.second, o⟩ = clock c := by
  obtain ⟨n, e⟩ : ∃ n, c.year = n + 1 := ⟨c.year - 1, by omega⟩
  have h1 := yearsBefore_eq n
  have h2 := monthsBefore_eq c.year c.month hm
  rw [← e] at h1
  rw [clock, epoch]
  simp only [timegm, toordinal, dayNumber, h2]
  rw [← h1]
  push_cast
  omega

/-! ### Reading dates -/

theorem strptime_written (fmt : List Directive) (hg : good fmt = true) (c : Civil) (h : InRange c) :
    strptime fmt (write fmt c) =
      if 1 ≤ (stored fmt c blank).year ∧ (stored fmt c blank).day ≤
        daysInMonth (stored fmt c blank).year (stored fmt c blank).month
      then some (stored fmt c blank) else none := by
  have := ways_written c h fmt hg [] blank
  rw [List.append_nil] at this
  rw [strptime, this]

theorem stored_plain (c : Civil) (h : InRange c) (fmt : List Directive) (hf : fmt ∈ plainFormats) :
    stored fmt c blank = ⟨c.year, c.month, c.day, (cut fmt c).hour, (cut fmt c).minute, (cut fmt c).second,
      none⟩ := by
  have e1 := value_four c.year (by have := h.year; omega)
  have e2 := value_two c.month (by have := h.month; omega)
  have e3 := value_two c.day (by have := h.day; omega)
  have e4 := value_two c.hour (by have := h.hour; omega)
  have e5 := value_two c.minute (by have := h.minute; omega)
  have e6 := value_two c.second (by have := h.second; omega)
  simp only [plainFormats, List.mem_cons, List.not_mem_nil, or_false] at hf
  rcases hf with rfl | rfl | rfl | rfl | rfl <;>
    simp [stored, store, written, blank, cut, formatDefault, formatHttp, formatDay, formatFtp, formatGranule,
      e1, e2, e3, e4, e5, e6]

theorem last_plain (c : Civil) (fmt : List Directive) (hf : fmt ∈ formatBox :: plainFormats) :
    ∃ x, (write fmt c).getLast? = some x ∧ isSpace x = false := by
  simp only [plainFormats, List.mem_cons, List.not_mem_nil, or_false] at hf
  rcases hf with rfl | rfl | rfl | rfl | rfl | rfl <;> exact ⟨_, rfl, (digit_props _).2.2.2.2⟩

theorem good_plain (fmt : List Directive) (hf : fmt ∈ formatBox :: plainFormats) : good fmt = true := by
  simp only [plainFormats, List.mem_cons, List.not_mem_nil, or_false] at hf
  rcases hf with rfl | rfl | rfl | rfl | rfl | rfl <;> decide

theorem cut_civil (fmt : List Directive) (c : Civil) : (cut fmt c).year = c.year ∧ (cut fmt c).month = c.month ∧
    (cut fmt c).day = c.day := ⟨rfl, rfl, rfl⟩

/-- **C120** (dates).  Every date that exists, written in one of the five formats without a zone and followed by
any space, is read as the seconds since 1970 (what the format does not write being zero), whatever the time
zone of the machine is and whatever `dateutil` would do. -/
theorem C120_read (zone : ℚ → ℚ) (dateutil : List Char → Option Stamp) (fmt : List Directive)
    (hf : fmt ∈ plainFormats) (c : Civil) (h : Valid c) (w : List Char) (hw : ∀ x ∈ w, isSpace x = true) :
    getUnixTime zone dateutil fmt (write fmt c ++ w) = some ((clock (cut fmt c) : ℤ) : ℚ) := by
  have hf' : fmt ∈ formatBox :: plainFormats := List.mem_cons_of_mem _ hf
  obtain ⟨x, hx, hs⟩ := last_plain c fmt hf'
  rw [getUnixTime, rstrip_written hx hs w hw, strptime_written fmt (good_plain fmt hf') c (inRange h),
    stored_plain c (inRange h) fmt hf]
  dsimp only
  rw [if_pos ⟨h.year.1, by rw [lengthOf_eq _ _ h.month]; exact h.day.2⟩]
  exact congrArg (fun z : ℤ => some (z : ℚ)) (timegm_clock (cut fmt c) h.year.1 h.month h.day.1 none)

/-- The formats are those of the package. -/
example : write formatDefault ⟨2024, 2, 29, 23, 5, 9, false, 0⟩ = "2024-02-29 23:05:09".toList ∧
    write formatHttp ⟨2024, 2, 29, 23, 5, 9, false, 0⟩ = "2024-02-29 23:05".toList ∧
    write formatDay ⟨2024, 2, 29, 23, 5, 9, false, 0⟩ = "2024-02-29".toList ∧
    write formatFtp ⟨2024, 2, 29, 23, 5, 9, false, 0⟩ = "20240229230509".toList ∧
    write formatGranule ⟨2024, 2, 29, 23, 5, 9, false, 0⟩ = "2024:02:29 23:05:09".toList ∧
    write formatBox ⟨2024, 2, 29, 23, 5, 9, true, 480⟩ = "2024-02-29T23:05:09-08:00".toList := by
  refine ⟨?_, ?_, ?_, ?_, ?_, ?_⟩ <;> decide +kernel

theorem leapDay : Valid ⟨2024, 2, 29, 23, 5, 9, true, 480⟩ := by
  constructor <;> decide

/-- A date that is known: the leap day of 2024. -/
example : clock ⟨2024, 2, 29, 23, 5, 9, true, 480⟩ = 1709247909 := by
  rw [← timegm_clock _ leapDay.year.1 leapDay.month leapDay.day.1 none]
  decide +kernel

/-- **C120** (dates that do not exist).  A date with a day that its month does not have is not read with the
format: what is returned is what `dateutil` makes of it, nothing if it refuses. -/
theorem C120_nodate (zone : ℚ → ℚ) (dateutil : List Char → Option Stamp) (fmt : List Directive)
    (hf : fmt ∈ plainFormats) (c : Civil) (h : InRange c) (hd : lengthOf c.year c.month < c.day) :
    getUnixTime zone dateutil fmt (write fmt c) = (dateutil (write fmt c)).map (timestamp zone) := by
  have hf' : fmt ∈ formatBox :: plainFormats := List.mem_cons_of_mem _ hf
  obtain ⟨x, hx, hs⟩ := last_plain c fmt hf'
  have hr := rstrip_written hx hs [] (by simp)
  rw [List.append_nil] at hr
  rw [getUnixTime, hr, strptime_written fmt (good_plain fmt hf') c h, stored_plain c h fmt hf]
  dsimp only
  rw [if_neg fun ⟨_, e⟩ => by rw [lengthOf_eq _ _ h.month] at e; omega]

/-- **C120** (more than a date).  A date that is followed by more than space is not read with the format as if it
stood alone: what is returned is what `dateutil` makes of the whole text, nothing if it refuses. -/
theorem C120_more (zone : ℚ → ℚ) (dateutil : List Char → Option Stamp) (fmt : List Directive)
    (hf : fmt ∈ formatBox :: plainFormats) (c : Civil) (h : InRange c) (w : List Char) (x : Char)
    (hx : isSpace x = false) : getUnixTime zone dateutil fmt (write fmt c ++ (w ++ [x]))
      = (dateutil (write fmt c ++ (w ++ [x]))).map (timestamp zone) := by
  have hl : (write fmt c ++ (w ++ [x])).getLast? = some x := by rw [← List.append_assoc]; simp
  have hr := rstrip_written hl hx [] (by simp)
  rw [List.append_nil] at hr
  have hs : strptime fmt (write fmt c ++ (w ++ [x])) = none := by
    rw [strptime, ways_written c h fmt (good_plain fmt hf) (w ++ [x]) blank]
    cases w <;> rfl
  rw [getUnixTime, hr, hs]

/-- Such texts: a fraction of a second, and a name of a zone. -/
example : "2024-02-29 23:05:09.5".toList
      = write formatDefault ⟨2024, 2, 29, 23, 5, 9, false, 0⟩ ++ (['.'] ++ ['5']) ∧
    "2024-02-29 23:05 PST".toList
      = write formatHttp ⟨2024, 2, 29, 23, 5, 9, false, 0⟩ ++ ([' ', 'P', 'S'] ++ ['T']) := by
  constructor <;> decide +kernel

/-! ### The order of times -/

theorem monthsBefore_succ (y m : ℕ) (h : 1 ≤ m) : monthsBefore y (m + 1) = monthsBefore y m + lengthOf y m := by
  obtain ⟨n, rfl⟩ : ∃ n, m = n + 1 := ⟨m - 1, by omega⟩
  rw [monthsBefore, monthsBefore, show n + 1 + 1 - 1 = n + 1 by omega, show n + 1 - 1 = n by omega,
    List.range_succ, List.map_append, List.sum_append]
  simp

theorem monthsBefore_mono (y : ℕ) {m m' : ℕ} (h1 : 1 ≤ m) (h : m ≤ m') :
    monthsBefore y m ≤ monthsBefore y m' := by
  induction m', h using Nat.le_induction with
  | base => exact le_rfl
  | succ k hk ih => rw [monthsBefore_succ y k (h1.trans hk)]; omega

theorem monthsBefore_year (y : ℕ) : monthsBefore y 13 = yearLength y := by
  by_cases l : IsLeap y <;> simp [monthsBefore, lengthOf, yearLength, l, List.range_succ]

theorem yearsBefore_mono {y y' : ℕ} (h1 : 1 ≤ y) (h : y ≤ y') : yearsBefore y ≤ yearsBefore y' := by
  induction y', h using Nat.le_induction with
  | base => exact le_rfl
  | succ k hk ih =>
    obtain ⟨n, rfl⟩ : ∃ n, k = n + 1 := ⟨k - 1, by omega⟩
    rw [yearsBefore_succ]
    omega

theorem dayNumber_lt {y m d y' m' d' : ℕ} (hy : 1 ≤ y) (hm : 1 ≤ m ∧ m ≤ 12) (hd : 1 ≤ d ∧ d ≤ lengthOf y m)
    (hm' : 1 ≤ m') (hd' : 1 ≤ d')
    (h : y < y' ∨ y = y' ∧ (m < m' ∨ m = m' ∧ d < d')) : dayNumber y m d < dayNumber y' m' d' := by
  have s := monthsBefore_succ y m hm.1
  rw [dayNumber, dayNumber]
  rcases h with h | ⟨rfl, h | ⟨rfl, h⟩⟩
  · have h1 := yearsBefore_mono (by omega : 1 ≤ y + 1) h
    obtain ⟨n, rfl⟩ : ∃ n, y = n + 1 := ⟨y - 1, by omega⟩
    have h2 : yearsBefore (n + 1 + 1) = _ := yearsBefore_succ n
    have h3 := monthsBefore_mono (n + 1) (by omega : 1 ≤ m + 1) (by omega : m + 1 ≤ 13)
    rw [monthsBefore_year] at h3
    have h4 : yearsBefore (n + 1 + 1) ≤ yearsBefore y' := h1
    omega
  · have h1 := monthsBefore_mono y (by omega : 1 ≤ m + 1) h
    omega
  · omega

theorem clock_lt {a b : Civil} (ha : Valid a) (hb : Valid b) (h : Earlier a b) : clock a < clock b := by
  have a1 := ha.hour; have a2 := ha.minute; have a3 := ha.second
  have b1 := hb.hour; have b2 := hb.minute; have b3 := hb.second
  rw [clock, clock]
  by_cases hd : a.year < b.year ∨ a.year = b.year ∧ (a.month < b.month ∨ a.month = b.month ∧ a.day < b.day)
  · have := dayNumber_lt ha.year.1 ha.month ha.day hb.month.1 hb.day.1 hd
    omega
  · have : a.year = b.year ∧ a.month = b.month ∧ a.day = b.day ∧ (a.hour < b.hour ∨ a.hour = b.hour ∧
        (a.minute < b.minute ∨ a.minute = b.minute ∧ a.second < b.second)) := by
      rw [Earlier] at h
      omega
    obtain ⟨e1, e2, e3, h⟩ := this
    rw [e1, e2, e3]
    omega

/-- **C120** (order).  Of two dates in the formats with seconds, the earlier is read as the smaller number. -/
theorem C120_order (zone : ℚ → ℚ) (dateutil : List Char → Option Stamp) (fmt : List Directive)
    (hf : fmt ∈ [formatDefault, formatFtp, formatGranule]) (a b : Civil) (ha : Valid a) (hb : Valid b)
    (h : Earlier a b) : ∃ s t, getUnixTime zone dateutil fmt (write fmt a) = some s ∧
      getUnixTime zone dateutil fmt (write fmt b) = some t ∧ s < t := by
  have hp : fmt ∈ plainFormats := by
    simp only [plainFormats, List.mem_cons, List.not_mem_nil, or_false] at hf ⊢
    tauto
  have hc : ∀ c : Civil, cut fmt c = c := by
    intro c
    simp only [List.mem_cons, List.not_mem_nil, or_false] at hf
    rcases hf with rfl | rfl | rfl <;> rfl
  have h1 := C120_read zone dateutil fmt hp a ha [] (by simp)
  have h2 := C120_read zone dateutil fmt hp b hb [] (by simp)
  rw [List.append_nil, hc] at h1 h2
  exact ⟨_, _, h1, h2, by exact_mod_cast clock_lt ha hb h⟩

/-! ### Zones -/

theorem stored_box (c : Civil) (h : InRange c) : ∃ o, stored formatBox c blank =
    ⟨c.year, c.month, c.day, c.hour, c.minute, c.second, o⟩ := by
  have e1 := value_four c.year (by have := h.year; omega)
  have e2 := value_two c.month (by have := h.month; omega)
  have e3 := value_two c.day (by have := h.day; omega)
  have e4 := value_two c.hour (by have := h.hour; omega)
  have e5 := value_two c.minute (by have := h.minute; omega)
  have e6 := value_two c.second (by have := h.second; omega)
  refine ⟨some (offsetOf (written c .z)), ?_⟩
  simp [stored, store, written, blank, formatBox, e1, e2, e3, e4, e5, e6]

theorem box (zone : ℚ → ℚ) (dateutil : List Char → Option Stamp) (c : Civil) (h : Valid c) :
    getUnixTime zone dateutil formatBox (write formatBox c) = some ((clock c : ℤ) : ℚ) := by
  have hf' : formatBox ∈ formatBox :: plainFormats := List.mem_cons_self
  obtain ⟨x, hx, hs⟩ := last_plain c _ hf'
  have hr := rstrip_written hx hs [] (by simp)
  rw [List.append_nil] at hr
  obtain ⟨o, ho⟩ := stored_box c (inRange h)
  rw [getUnixTime, hr, strptime_written _ (good_plain _ hf') c (inRange h), ho]
  dsimp only
  rw [if_pos ⟨h.year.1, by rw [lengthOf_eq _ _ h.month]; exact h.day.2⟩]
  dsimp only
  rw [timegm_clock c h.year.1 h.month h.day.1]

/-- **C120** (times with a zone).  A time with the zone of Greenwich is read as the seconds since 1970.
Missing: times with another zone; see `C120_offset_false`. -/
theorem C120_greenwich_partial (zone : ℚ → ℚ) (dateutil : List Char → Option Stamp) (c : Civil) (h : Valid c)
    (h0 : c.offset = 0) :
    getUnixTime zone dateutil formatBox (write formatBox c) = some ((utc c : ℤ) : ℚ) := by
  rw [box zone dateutil c h, utc, h0]
  simp

/-- **C120** (refuted: times with a zone).  The offset of a zone is read and not used: every time with an offset
is off by it, so that the same instant has different times. -/
theorem C120_offset_false (zone : ℚ → ℚ) (dateutil : List Char → Option Stamp) (c : Civil) (h : Valid c)
    (h0 : c.offset ≠ 0) : ∃ t : ℚ, getUnixTime zone dateutil formatBox (write formatBox c) = some t ∧
      |t - utc c| = 60 * c.offset ∧ t ≠ utc c := by
  refine ⟨_, box zone dateutil c h, ?_⟩
  have hp : (0 : ℚ) < c.offset := by exact_mod_cast Nat.pos_of_ne_zero h0
  have e : |((clock c : ℤ) : ℚ) - (utc c : ℤ)| = 60 * c.offset := by
    rw [utc]
    push_cast
    cases c.west
    · simp only [Bool.false_eq_true, if_false]
      rw [show (clock c : ℚ) - ((clock c : ℚ) - 1 * (60 * c.offset)) = 60 * c.offset by ring, abs_of_pos]
      linarith
    · simp only [if_true]
      rw [show (clock c : ℚ) - ((clock c : ℚ) - (-1) * (60 * c.offset)) = -(60 * c.offset) by ring, abs_neg,
        abs_of_pos]
      linarith
  refine ⟨e, fun h' => ?_⟩
  rw [h', sub_self, abs_zero] at e
  linarith

/-- **C120** (refuted: other strings).  A string that is not in the format and that `dateutil` reads without a
zone is taken for a time of the zone of the machine: the result differs between machines by the difference
of their zones. -/
theorem C120_zone_false (dateutil : List Char → Option Stamp) (fmt : List Directive) (s : List Char) (t : ℚ)
    (hs : strptime fmt (rstrip s) = none) (hd : dateutil (rstrip s) = some (.naive t)) (z z' : ℚ → ℚ) :
    ∃ x x', getUnixTime z dateutil fmt s = some x ∧ getUnixTime z' dateutil fmt s = some x' ∧
      x - x' = z' t - z t := by
  refine ⟨t - z t, t - z' t, ?_, ?_, by ring⟩ <;> · rw [getUnixTime, hs, hd]; rfl

/-- Such a string: a listing in another format. -/
example : strptime formatHttp (rstrip "29-Feb-2024 23:05".toList) = none := by decide +kernel

end Verif.UnixTime
