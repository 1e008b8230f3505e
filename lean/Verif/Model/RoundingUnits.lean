import Verif.Model.Rounding
import Verif.Model.Trend

/-!
# Time conversion factors with the operations of any number type

As in `Model/Rounding.lean`: the numbers may round.
-/

namespace Momlevel

section
variable {α : Type*} [Mul α] [Div α] [OfScientific α]

/-- /repo/src/momlevel/trend.py:145-153 `ns_from`: nanoseconds in each unit. -/
def unitNs (days_per_month days_per_year : α) : List (String × α) :=
  [("ns", 1.0),
   ("s", 1.0e9),
   ("min", 1.0e9 * 60.0),
   ("hr", 1.0e9 * 60.0 * 60.0),
   ("day", 1.0e9 * 60.0 * 60.0 * 24.0),
   ("mon", 1.0e9 * 60.0 * 60.0 * 24.0 * days_per_month),
   ("yr", 1.0e9 * 60.0 * 60.0 * 24.0 * days_per_year)]

/-- trend.py:156, 162 `ns_from[src] * ns_to[dst]` with `ns_to[dst] = 1.0 / ns_from[dst]`. -/
def unitFactor (days_per_month days_per_year : α) (src dst : String) : Option α :=
  match (unitNs days_per_month days_per_year).lookup src, (unitNs days_per_month days_per_year).lookup dst with
  | some a, some b => some (a * (1.0 / b))
  | _, _ => none

/-- trend.py:281, 284: a slope per nanosecond in another unit, `slope * (1.0 / factor)` at one point. -/
def slopePoint (slope factor : α) : α := slope * (1.0 / factor)

end

end Momlevel
