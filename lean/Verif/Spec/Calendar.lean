import Verif.Model.Calendar

/-!
# Calendars, stated independently of the model functions

The month lengths as a table, the leap-year rule and the year lengths as numbers.
-/

namespace Momlevel.Spec

/-- Does the calendar insert a 29 February in year `y`? -/
def Leap : Calendar → Nat → Prop
  | .noleap, _ => False
  | .allLeap, _ => True
  | .day360, _ => False
  | .julian, y => 4 ∣ y
  | .prolepticGregorian, y => if 100 ∣ y then 400 ∣ y else 4 ∣ y

instance : ∀ (c : Calendar) (y : Nat), Decidable (Leap c y)
  | .noleap, _ => inferInstanceAs (Decidable False)
  | .allLeap, _ => inferInstanceAs (Decidable True)
  | .day360, _ => inferInstanceAs (Decidable False)
  | .julian, y => inferInstanceAs (Decidable (4 ∣ y))
  | .prolepticGregorian, y => inferInstanceAs (Decidable (if 100 ∣ y then 400 ∣ y else 4 ∣ y))

/-- The number of days of month `m` (1..12) of year `y`. -/
def monthLength (c : Calendar) (y m : Nat) : Nat :=
  if c = .day360 then 30
  else [31, if Leap c y then 29 else 28, 31, 30, 31, 30, 31, 31, 30, 31, 30, 31].getD (m - 1) 0

/-- The number of days of a year. -/
def yearLength (c : Calendar) (y : Nat) : Nat :=
  if c = .day360 then 360 else if Leap c y then 366 else 365

/-- Days before 1 January of year `y` (year 1 being the first). -/
def daysBeforeYear (c : Calendar) (y : Nat) : Nat :=
  ((List.range (y - 1)).map (fun k => yearLength c (k + 1))).sum

end Momlevel.Spec
