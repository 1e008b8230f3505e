import Verif.Model.Rounding

/-!
# Vorticity with the operations of any number type

As in `Model/Rounding.lean`: the numbers may round.
-/

namespace Momlevel

section
variable {α : Type*} [Add α] [Sub α] [Mul α] [Div α] [Neg α]

/-- /repo/src/momlevel/derived.py:232-239 `calc_rel_vort` at one corner: `south`, `north`, `west` and `east`
are the products of velocity and length at the four edges (zero outside the grid). -/
def vortPoint (south north west east area : α) : α := (-(north - south) + (east - west)) / area

/-- derived.py:547 `(zeta + coriolis) * (n2 / gravity)` at one point. -/
def pvPoint (zeta coriolis n2 gravity : α) : α := (zeta + coriolis) * (n2 / gravity)

end

end Momlevel
