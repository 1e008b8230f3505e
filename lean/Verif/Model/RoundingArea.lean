import Verif.Model.Rounding

/-!
# Cell areas with the operations of any number type

As in `Model/Rounding.lean`: the numbers may round.
-/

namespace Momlevel

section
variable {α : Type*} [Add α] [Sub α] [Mul α] [Div α] [OfScientific α]

/-- /repo/src/momlevel/util.py:595-597: `(np.pi / 180.0) * r_earth * r_earth`, computed with Python scalars. -/
def areaFactor (pi r_earth : α) : α := pi / 180.0 * r_earth * r_earth

/-- /repo/src/momlevel/util.py:584-600 `standard_grid_cell_area` for one cell: `la0`, `la1`, `lo0`, `lo1` are the
first two entries of the axes, `la` and `lo` the centre of the cell, `factor` the result of lines 595-597.
`absf`, `sinf` and `radf` are `np.abs`, `np.sin` and `np.radians`. -/
def cellAreaPoint (absf sinf radf : α → α) (factor la0 la1 lo0 lo1 la lo : α) : α :=
  -- 584-585
  let d_lat := la1 - la0
  let d_lon := lo1 - lo0
  -- 588-591
  let lat0 := la - d_lat / 2.0
  let lat1 := la + d_lat / 2.0
  let lon0 := lo - d_lon / 2.0
  let lon1 := lo + d_lon / 2.0
  -- 594-600
  factor * absf (sinf (radf lat0) - sinf (radf lat1)) * absf (lon0 - lon1)

end

end Momlevel
