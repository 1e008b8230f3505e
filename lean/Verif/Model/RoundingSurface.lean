import Verif.Model.Rounding

/-!
# Inverse barometer and potential density with the operations of any number type

As in `Model/Rounding.lean`: the numbers may round.
-/

namespace Momlevel

section
variable {α : Type*} [Add α] [Mul α] [Div α] [Neg α] [OfScientific α]

/-- /repo/src/momlevel/dynamic.py:34-36 at one point: `pso * (-1.0 / (rho_conv * gravity))`. -/
def barometerPoint (eos : Eos.EosFn α) (T S p g : α) : α := p * (-1.0 / (eos T S p * g))

/-- /repo/src/momlevel/derived.py:477 at one point: the density at the pressure `(level * 1.0e4) + patm`. -/
def pdensPoint (eos : Eos.EosFn α) (patm T S level : α) : α := eos T S (level * 1.0e4 + patm)

end

end Momlevel
