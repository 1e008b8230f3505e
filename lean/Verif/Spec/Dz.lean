import Mathlib.Algebra.Order.Field.Basic

/-! # Lengths of overlaps (specification) -/

namespace Momlevel.Spec

/-- Length of `[a, b] ∩ [c, d]` (0 if empty). -/
def overlap {K : Type*} [Field K] [LinearOrder K] (a b c d : K) : K :=
  max 0 (min b d - max a c)

end Momlevel.Spec
