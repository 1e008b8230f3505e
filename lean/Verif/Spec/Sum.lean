import Verif.Model.DA
import Mathlib.Algebra.BigOperators.Group.Finset.Basic

/-! Independent notion of a sum over named dimensions. -/

namespace Momlevel.Spec

/-- Sum of `f` over all index combinations of the dimensions `D`; the other indices are taken from
`e`. -/
def sumOver {M : Type*} [AddCommMonoid M] : List (String × Nat) → (Env → M) → Env → M
  | [], f, e => f e
  | (d, n) :: D, f, e => ∑ i ∈ Finset.range n, sumOver D f (Function.update e d i)

end Momlevel.Spec
