import Verif.Model.Fl

/-! # One value exceeding another by a bounded amount -/

namespace Momlevel.Spec
open Momlevel.Fl

variable {K : Type} [Field K] [LinearOrder K]

/-- Both are missing, or both are numbers and `u` exceeds `v` by at most `d`. -/
def NoMore (d : K) (u v : Fl K) : Prop :=
  (u = nan ∧ v = nan) ∨ ∃ p q : K, u = fin p ∧ v = fin q ∧ p ≤ q + d

end Momlevel.Spec
