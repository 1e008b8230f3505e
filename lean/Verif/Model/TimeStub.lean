import Verif.Model.Calendar
import Verif.Model.Fl

/-!
# Time axes for test data

Model of /repo/src/momlevel/test_data/time.py.  Simplification: `start_year` is a natural number of
exactly four digits (the code formats the year without padding, line 68), `nyears` a natural number;
attributes are omitted.
-/

namespace Momlevel

/-- test_data/time.py:15-39 `generate_daily_timeaxis` -/
def generateDailyTimeaxis (start_year : Nat := 1979) (nyears : Nat := 2)
    (calendar : Calendar := .noleap) : List Stamp :=
  -- 33-34
  let init : Date := ⟨start_year, 1, 1⟩
  let endtime : Date := ⟨start_year + nyears, 1, 1⟩
  -- 36-37
  let days := (List.range (366 * nyears)).map (fun x => init.addDays calendar x)
  (days.filter (fun x => x.lt endtime)).map Stamp.midnight

/-- The stub dataset of `generate_time_stub`, lines 112-120. -/
structure TimeStub where
  time : List Stamp
  time_bnds : List (Stamp × Stamp)
  average_T1 : List Stamp
  average_T2 : List Stamp
  /-- In microseconds. -/
  average_DT : List Int
  calendar : Calendar

/-- test_data/time.py:66-90: the bounds for each supported frequency. -/
def stubBounds (start_year nyears : Nat) (calendar : Calendar) (frequency : String) :
    Except PyErr (List Stamp) :=
  if frequency = "MS" then .ok (monthStarts start_year (nyears * 12 + 1))
  else if frequency = "D" then
    .ok ((dayStarts calendar start_year (nyears * 366 + 1)).filter
      (fun x => x.date.le ⟨start_year + nyears, 1, 1⟩))
  else .error .valueError

/-- test_data/time.py:42-120 `generate_time_stub` -/
def generateTimeStub (start_year : Nat := 1981) (nyears : Nat := 5) (calendar : Calendar := .noleap)
    (frequency : String := "MS") : Except PyErr TimeStub := do
  let bounds ← stubBounds start_year nyears calendar frequency
  -- 92: list(zip(bounds[0:-1], bounds[1::]))
  let time_bnds := bounds.dropLast.zip bounds.tail
  -- 95
  let time := time_bnds.map (fun x => midpoint calendar x.1 x.2)
  -- 108-110
  let average_T1 := time_bnds.map Prod.fst
  let average_T2 := time_bnds.map Prod.snd
  let average_DT := (average_T2.zip average_T1).map (fun p => p.1.toUs calendar - p.2.toUs calendar)
  return ⟨time, time_bnds, average_T1, average_T2, average_DT, calendar⟩

end Momlevel
