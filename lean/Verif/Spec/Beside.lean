import Mathlib.Algebra.Field.Defs

/-! Cells beside a corner of a staggered grid. -/

namespace Momlevel.Spec

/-- Cell `c` is one of the two cells beside corner `k` of an axis. -/
def Beside (symmetric : Bool) (k : Nat) (c : Nat) : Prop :=
  if symmetric then c + 1 = k ∨ c = k else c = k ∨ c = k + 1

instance (s : Bool) (k c : Nat) : Decidable (Beside s k c) := by unfold Beside; infer_instance

/-- The share of `N²` that reaches a corner: one within the grid, one half on an edge. -/
def edgeShare (K : Type) [Field K] (symmetric : Bool) (n k : Nat) : K :=
  if symmetric then (if k = 0 ∨ k = n then 1 / 2 else 1) else (if k + 1 = n then 1 / 2 else 1)

end Momlevel.Spec
