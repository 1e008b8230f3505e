import Verif.Model.DA
import Mathlib.Data.Real.Basic

/-!
# Stably stratified columns
-/

namespace Momlevel.Spec
open Momlevel Momlevel.Fl

/-- The column of `n2` through `e` holds the positive numbers `N` on its first `m` of `n` levels and is
missing below; the thicknesses of these levels are `D`. -/
structure StableColumn (n2 dz : DA (Fl ℝ)) (e : Env) (n m : Nat) (N D : Nat → ℝ) : Prop where
  wet : 0 < m
  levels : m ≤ n
  strat : ∀ k < m, n2.get (Function.update e "z_l" k) = fin (N k)
  pos : ∀ k < m, 0 < N k
  thick : ∀ k < m, dz.get (Function.update e "z_l" k) = fin (D k)
  below : ∀ k, m ≤ k → k < n → n2.get (Function.update e "z_l" k) = nan

/-- An array of `N²` with the vertical first and finite or missing entries. -/
structure StratInput (n2 : DA (Fl ℝ)) (n : Nat) (rest : List (String × Nat)) : Prop where
  dims : n2.dims = ("z_l", n) :: rest
  nodup : n2.dimNames.Nodup
  ordinary : ∀ e, n2.InBounds e → n2.get e = nan ∨ ∃ x, n2.get e = fin x

/-- `e` is a horizontal point of `n2`. -/
def IsPoint (n2 : DA (Fl ℝ)) (e : Env) : Prop := ∀ p ∈ n2.dims, p.1 ≠ "z_l" → e p.1 < p.2

end Momlevel.Spec
