import Verif.Model.Fl

/-!
# Superposition of two fields with gaps in the same places
-/

namespace Momlevel.Spec
open Momlevel.Fl

variable {K : Type} [Field K] [LinearOrder K]

/-- `w` is `a u + b v`; all three values are missing or none of them is. -/
def Superposed (a b : K) (u v w : Fl K) : Prop :=
  (u = nan ∧ v = nan ∧ w = nan) ∨ ∃ p q : K, u = fin p ∧ v = fin q ∧ w = fin (a * p + b * q)

end Momlevel.Spec
