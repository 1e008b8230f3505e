import Mathlib.Data.Rat.Defs
import Mathlib.Algebra.Field.Rat

/-! # What attributes should say, stated without the model -/

namespace Momlevel.Spec

/-- A dictionary that names and dimensions a field. -/
def Labelled (attrs : List (String × String)) : Prop :=
  (attrs.lookup "long_name").isSome ∧ (attrs.lookup "units").isSome

/-- How many `m⁻¹ s⁻¹` one unit is, for the two unit strings of potential vorticity, read as a unit
string is read by UDUNITS: a number in front is a factor, and `cm⁻¹` is a hundred `m⁻¹`. -/
def perMetreSecond : String → Option ℚ
  | "m-1 s-1" => some 1
  | "10^14 cm-1 s-1" => some (10 ^ 14 * 100)
  | _ => none

end Momlevel.Spec
