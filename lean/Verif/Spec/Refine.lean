import Mathlib.Data.Real.Basic

/-!
# Refinement of a vertical grid
-/

namespace Momlevel.Spec

/-- The grid with the `n'` layers between the interfaces `ifc'` arises from the one with the `n` layers
between `ifc` by cutting layers: layer `k` consists of the finer layers `b k, …, b (k+1) - 1`. -/
structure Refines (ifc ifc' : Nat → ℝ) (n n' : Nat) (b : Nat → Nat) : Prop where
  first : b 0 = 0
  last : b n = n'
  parts : ∀ k < n, b k < b (k + 1)
  same : ∀ k ≤ n, ifc' (b k) = ifc k

end Momlevel.Spec
