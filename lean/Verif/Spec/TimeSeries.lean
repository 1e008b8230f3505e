import Verif.Spec.Calendar
import Verif.Spec.Average

/-!
# Samples of a time axis, stated independently of the model functions
-/

namespace Momlevel.Spec

/-- The samples that fall in year `y`. -/
def inYear (stamps : List Stamp) (y : Nat) : Finset Nat :=
  (Finset.range stamps.length).filter (fun i => stamps[i]?.map (fun s => s.date.year) = some y)

/-- The samples that fall in month `m` (of any year). -/
def inMonth (stamps : List Stamp) (m : Nat) : Finset Nat :=
  (Finset.range stamps.length).filter (fun i => stamps[i]?.map (fun s => s.date.month) = some m)

/-- The samples that fall in month `m` of year `y`. -/
def inYearMonth (stamps : List Stamp) (y m : Nat) : Finset Nat :=
  (Finset.range stamps.length).filter
    (fun i => stamps[i]?.map (fun s => (s.date.year, s.date.month)) = some (y, m))

/-- The length of the month in which sample `i` falls. -/
def monthDays (c : Calendar) (stamps : List Stamp) (i : Nat) : Nat :=
  (stamps[i]?.map (fun s => monthLength c s.date.year s.date.month)).getD 0

/-- The number of the day within its year, 1 January being 1. -/
def dayOfYear (c : Calendar) (d : Date) : Nat :=
  ((List.range (d.month - 1)).map (fun m => monthLength c d.year (m + 1))).sum + d.day

/-- `s` is the middle of year `y`: as much time before it as after it. -/
def IsMidYear (c : Calendar) (y : Nat) (s : Stamp) : Prop :=
  s.date.Valid c ∧ s.date.year = y ∧ s.us < 86400000000 ∧
    2 * ((dayOfYear c s.date - 1) * 86400000000 + s.us) = yearLength c y * 86400000000

/-- `s` is the middle of month `m` of year `y`. -/
def IsMidMonth (c : Calendar) (y m : Nat) (s : Stamp) : Prop :=
  s.date.Valid c ∧ s.date.year = y ∧ s.date.month = m ∧ s.us < 86400000000 ∧
    2 * ((s.date.day - 1) * 86400000000 + s.us) = monthLength c y m * 86400000000

end Momlevel.Spec

namespace Momlevel.Spec

/-- Microseconds between the start of year 1 and a time. -/
def elapsed (c : Calendar) (s : Stamp) : Nat :=
  (daysBeforeYear c s.date.year + (dayOfYear c s.date - 1)) * 86400000000 + s.us

end Momlevel.Spec
