import Verif.Model.Rounding
import Verif.Model.Spice

/-!
# Spiciness with the operations of any number type

As in `Model/Rounding.lean`: the numbers may round.
-/

namespace Momlevel

section
variable {α : Type*} [Add α] [Sub α] [Mul α] [Neg α] [OfScientific α]

/-- Entry `(i, j)` of the table, /repo/src/momlevel/spice/flament.py:7-40. -/
def spiceCoef (p : Nat × Nat) : α := (Spice.B_IJ.getD p.1 []).getD p.2 0.0

/-- flament.py:82-90 at one point: `so[j] * thetao[i] * B_IJ[i, j]`, with `so[j] = (so - 35.0) ** j` and
`thetao[i] = thetao ** i`.  `pw` is numpy's `**` with a whole-number exponent. -/
def spiceTerm (pw : α → Nat → α) (t s : α) (p : Nat × Nat) : α :=
  pw (s - 35.0) p.2 * pw t p.1 * spiceCoef p

/-- flament.py:86-90 at one point: the sum of the table, in the order `order`. -/
def spicePoint (pw : α → Nat → α) (order : SumTree (Nat × Nat)) (t s : α) : α :=
  order.sum (spiceTerm pw t s)

end

end Momlevel
