import Mathlib.Logic.Function.Iterate
import Mathlib.Algebra.Order.Ring.Int

/-!
# Calendars and dates

Model of the part of `cftime` (and `xarray.cftime_range`) that momlevel uses: calendars, month
lengths, dates, adding a number of days, half of a time difference.

Used by /repo/src/momlevel/util.py:49-196 and 454-511, /repo/src/momlevel/trend.py:740-748 and
/repo/src/momlevel/test_data/time.py:15-120.

Simplifications: years are positive (no year zero, no negative years); the mixed calendar
`standard`/`gregorian` is only covered from 1583 on, where it coincides with
`proleptic_gregorian`; the time of day is a number of microseconds.
-/

namespace Momlevel

/-- The calendars of `cftime` (with the aliases `365_day`, `366_day`). -/
inductive Calendar
  | noleap | allLeap | day360 | julian | prolepticGregorian
  deriving DecidableEq, Repr

/-- `cftime.is_leap_year(year, calendar)` (used at /repo/src/momlevel/trend.py:744; False for
`360_day`). -/
def isLeap : Calendar → Nat → Bool
  | .noleap, _ => false
  | .allLeap, _ => true
  | .day360, _ => false
  | .julian, y => y % 4 == 0
  | .prolepticGregorian, y => (y % 4 == 0 && y % 100 != 0) || y % 400 == 0

/-- `date.daysinmonth`, the source of `dt.days_in_month` at /repo/src/momlevel/util.py:88. -/
def daysInMonth (c : Calendar) (y m : Nat) : Nat :=
  match c with
  | .day360 => 30
  | c =>
    if m = 2 then (if isLeap c y then 29 else 28)
    else if m = 4 ∨ m = 6 ∨ m = 9 ∨ m = 11 then 30 else 31

/-- Days in a year, month by month (`cftime` date arithmetic). -/
def daysInYear (c : Calendar) (y : Nat) : Nat :=
  ((List.range 12).map (fun m => daysInMonth c y (m + 1))).sum

/-- The date part of a `cftime.datetime`. -/
structure Date where
  year : Nat
  month : Nat
  day : Nat
  deriving DecidableEq, Repr

/-- A `cftime.datetime`: the date and the microseconds since midnight. -/
structure Stamp where
  date : Date
  us : Nat
  deriving DecidableEq, Repr

/-- A `cftime` time axis: one calendar and the values in order. -/
structure TimeAxis where
  cal : Calendar
  stamps : List Stamp

/-- Microseconds of a day. -/
def usPerDay : Nat := 86400000000

namespace Date

/-- The date exists in the calendar (what the constructor of `cftime.datetime` checks). -/
def Valid (c : Calendar) (d : Date) : Prop :=
  1 ≤ d.year ∧ 1 ≤ d.month ∧ d.month ≤ 12 ∧ 1 ≤ d.day ∧ d.day ≤ daysInMonth c d.year d.month

instance (c : Calendar) (d : Date) : Decidable (d.Valid c) := by unfold Valid; infer_instance

/-- `date + timedelta(days=1)` (`cftime` `add_timedelta`; /repo/src/momlevel/test_data/time.py:36). -/
def next (c : Calendar) (d : Date) : Date :=
  if d.day < daysInMonth c d.year d.month then { d with day := d.day + 1 }
  else if d.month < 12 then { d with month := d.month + 1, day := 1 }
  else { year := d.year + 1, month := 1, day := 1 }

/-- Days since 1 January of year 1 (`date.toordinal`, the number behind `date - date`). -/
def ord (c : Calendar) (d : Date) : Nat :=
  ((List.range (d.year - 1)).map (fun y => daysInYear c (y + 1))).sum
    + ((List.range (d.month - 1)).map (fun m => daysInMonth c d.year (m + 1))).sum + (d.day - 1)

/-- The date a given number of days after 1 January of year 1. -/
def ofOrd (c : Calendar) (n : Nat) : Date := (next c)^[n] ⟨1, 1, 1⟩

/-- `date + timedelta(days=n)`, see /repo/src/momlevel/test_data/time.py:36. -/
def addDays (c : Calendar) (d : Date) (n : Nat) : Date := (next c)^[n] d

/-- `a < b` on `cftime` dates of the same calendar: lexicographic, see
/repo/src/momlevel/test_data/time.py:37. -/
def lt (a b : Date) : Bool :=
  a.year < b.year || (a.year == b.year &&
    (a.month < b.month || (a.month == b.month && a.day < b.day)))

/-- `a <= b` on `cftime` dates of the same calendar, see /repo/src/momlevel/test_data/time.py:85. -/
def le (a b : Date) : Bool := !(lt b a)

end Date

namespace Stamp

/-- Microseconds since the start of year 1; `a - b` is the difference of these. -/
def toUs (c : Calendar) (s : Stamp) : Int := (s.date.ord c * usPerDay + s.us : Nat)

/-- The time with the given number of microseconds since the start of year 1 (earlier times do not
exist in the model). -/
def ofUs (c : Calendar) (n : Int) : Stamp :=
  ⟨Date.ofOrd c (n.toNat / usPerDay), n.toNat % usPerDay⟩

/-- Midnight of a date. -/
def midnight (d : Date) : Stamp := ⟨d, 0⟩

end Stamp

/-- `timedelta / 2`: Python rounds to the nearest microsecond, halves to even. -/
def halfTimedelta (n : Int) : Int :=
  if n % 2 = 0 then n / 2 else if n / 2 % 2 = 0 then n / 2 else n / 2 + 1

/-- `b0 + (b1 - b0) / 2`, see /repo/src/momlevel/util.py:99, 169, 498 and
/repo/src/momlevel/test_data/time.py:94. -/
def midpoint (c : Calendar) (b0 b1 : Stamp) : Stamp :=
  Stamp.ofUs c (b0.toUs c + halfTimedelta (b1.toUs c - b0.toUs c))

/-- `xr.cftime_range(f"{y}-01-01", freq="MS", periods=n)`: the starts of `n` months,
see /repo/src/momlevel/util.py:161-166, 488-493 and /repo/src/momlevel/test_data/time.py:67-72. -/
def monthStarts (y n : Nat) : List Stamp :=
  (List.range n).map (fun k => Stamp.midnight ⟨y + k / 12, k % 12 + 1, 1⟩)

/-- `xr.cftime_range(f"{y}-01-01", freq="YS", periods=n)`, see /repo/src/momlevel/util.py:96-98. -/
def yearStarts (y n : Nat) : List Stamp :=
  (List.range n).map (fun k => Stamp.midnight ⟨y + k, 1, 1⟩)

/-- `xr.cftime_range(f"{y}-01-01", freq="D", periods=n)`, see
/repo/src/momlevel/test_data/time.py:76-81. -/
def dayStarts (c : Calendar) (y n : Nat) : List Stamp :=
  (List.range n).map (fun k => Stamp.midnight (Date.addDays c ⟨y, 1, 1⟩ k))

/-- The twelve mid-month times of a year:
`[bounds[x] + (bounds[x + 1] - bounds[x]) / 2 for x in range(0, len(bounds) - 1)]` with
13 month starts, see /repo/src/momlevel/util.py:161-170 and 488-500. -/
def midMonths (c : Calendar) (y : Nat) : List Stamp :=
  let bounds := monthStarts y 13
  (List.range (bounds.length - 1)).map (fun x =>
    midpoint c (bounds.getD x default) (bounds.getD (x + 1) default))
where
  default : Stamp := ⟨⟨1, 1, 1⟩, 0⟩

/-- `_find_ann_midpoint`, /repo/src/momlevel/util.py:94-99. -/
def midYear (c : Calendar) (y : Nat) : Stamp :=
  let bounds := yearStarts y 2
  midpoint c (bounds.getD 0 midMonths.default) (bounds.getD 1 midMonths.default)

end Momlevel
