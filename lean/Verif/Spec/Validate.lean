import Mathlib.Data.List.Basic

/-! What a valid dataset is, in terms of the rank (number of dimensions) of each variable. -/

namespace Momlevel.Spec

/-- `rank v` is `none` when the variable is absent. -/
def ValidDataset (rank : String → Option Nat) (areaInRange : Prop) (reference strict : Bool)
    (extra : List String) : Prop :=
  (∀ v ∈ ["thetao", "so", "volcello"], rank v = some (if reference then 3 else 4)) ∧
  rank "areacello" = some 2 ∧
  (∀ r, rank "deptho" = some r → r = 2) ∧
  (∀ v ∈ extra, rank v ≠ none) ∧
  (strict = true → areaInRange) ∧
  (reference = true → rank "rho" = some 3 ∧ ∀ v ∈ ["masso", "volo", "rhoga"], rank v = some 0)

end Momlevel.Spec
