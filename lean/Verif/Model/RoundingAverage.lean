import Verif.Model.Rounding

/-!
# Averages with the operations of any number type

As in `Model/Rounding.lean`: the numbers may round.
-/

namespace Momlevel

section
variable {α β : Type*} [Add α] [Mul α] [Div α]

/-- /repo/src/momlevel/util.py:87-89 `groups[grp].weighted(days_in_month).mean(tcoord)` in one column:
xarray's `_weighted_mean` divides the sum of the products (missing samples filled with zero) by the sum
of the weights of the samples present.  `x` are the filled samples, `w` the weights, zero where the
sample is missing; `order` and `orderW` are the orders of the two sums.  Simplification: every product
is rounded before it is added (no fused multiply-add). -/
def avgWeighted (x w : β → α) (order orderW : SumTree β) : α :=
  order.sum (fun b => x b * w b) / orderW.sum w

/-- `mean(tcoord)` (skipna) in one column, util.py:183 `annual_cycle` and util.py:490 `monthly_average`:
the sum of the samples, missing ones filled with zero, divided by the number `n` of those present. -/
def avgPlain (x : β → α) (n : α) (order : SumTree β) : α := order.sum x / n

end

end Momlevel
