import Verif.Model.Fl

/-! # Statements about one water column (specification)

A column is a function from level index (0 = top) to values. -/

namespace Momlevel.Spec
open Momlevel

variable {K : Type*} [Field K] [LinearOrder K]

/-- The value is a positive number. -/
def Positive (v : Fl K) : Prop := ∃ y, 0 < y ∧ v = .fin y

/-- `v` is the nearest positive value of the column strictly above level `k`. -/
def NearestPositiveAbove (col : Nat → Fl K) (k : Nat) (v : Fl K) : Prop :=
  ∃ j < k, Positive (col j) ∧ v = col j ∧ ∀ i, j < i → i < k → ¬ Positive (col i)

/-- No level strictly above `k` is positive. -/
def NonePositiveAbove (col : Nat → Fl K) (k : Nat) : Prop := ∀ j < k, ¬ Positive (col j)

end Momlevel.Spec
