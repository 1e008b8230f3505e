import Mathlib.Data.Real.Basic
import Mathlib.Data.Int.Log
import Mathlib.Algebra.Order.Round
import Mathlib.Algebra.Order.Archimedean.Real.Basic

/-!
# What is assumed of the floating point format (specification)
-/

namespace Momlevel.Spec

/-- The standard model of rounding with unit roundoff `u` and smallest normal number `w`: the error
is at most `u` times the larger of the number's magnitude and `w`. -/
def Rounds (u w : ℝ) (ρ : ℝ → ℝ) : Prop := ∀ x, |ρ x - x| ≤ u * max |x| w

/-- Rounding to the nearest number with `p` binary digits (no limit on the exponent). -/
noncomputable def nearest (p : ℕ) (x : ℝ) : ℝ :=
  round (x / 2 ^ (Int.log 2 |x| + 1 - p)) * 2 ^ (Int.log 2 |x| + 1 - p)

end Momlevel.Spec
