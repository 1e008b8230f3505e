import Verif.Model.DA

/-!
# Corner points of a staggered grid (specification)

Cell centres along an axis have indices `0 … n-1`; outside the grid a quantity is taken as zero.
Corner `i` lies between the centres `i - s` and `i + 1 - s`, where `s = 1` on a symmetric grid
(corners surround the cells, `n + 1` of them) and `s = 0` on a non-symmetric grid (corner to the
right of each cell).
-/

namespace Momlevel.Spec

/-- Offset between corner and centre numbering. -/
def shift (symmetric : Bool) : ℤ := if symmetric then 1 else 0

/-- Number of corners along an axis with `n` centres. -/
def corners (symmetric : Bool) (n : Nat) : Nat := if symmetric then n + 1 else n

/-- Extension by zero outside `0 … n-1`. -/
def pad {V : Type} (zero : V) (n : Nat) (f : Nat → V) (k : ℤ) : V :=
  if 0 ≤ k ∧ k < n then f k.toNat else zero

end Momlevel.Spec
