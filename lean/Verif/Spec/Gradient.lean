import Mathlib.Algebra.Field.Basic

/-!
# Second-order discrete derivative (specification)

The derivative, at a node, of the parabola through three neighbouring nodes: the node and its two
neighbours in the interior, the three outermost nodes at either end.
-/

namespace Momlevel.Spec

variable {K : Type*} [Field K]

/-- Derivative at `t` of the (Lagrange) parabola through `(x₀,f₀)`, `(x₁,f₁)`, `(x₂,f₂)`. -/
def parabolaDeriv (x0 x1 x2 f0 f1 f2 t : K) : K :=
  f0 * ((t - x1) + (t - x2)) / ((x0 - x1) * (x0 - x2))
  + f1 * ((t - x0) + (t - x2)) / ((x1 - x0) * (x1 - x2))
  + f2 * ((t - x0) + (t - x1)) / ((x2 - x0) * (x2 - x1))

/-- First node of the three used at node `i` of `n`. -/
def stencil (n i : Nat) : Nat := if i = 0 then 0 else if i + 1 = n then n - 3 else i - 1

/-- The discrete derivative of `f` at node `i` of the grid `x 0, …, x (n-1)`. -/
def derivAt (n : Nat) (x f : Nat → K) (i : Nat) : K :=
  let s := stencil n i
  parabolaDeriv (x s) (x (s + 1)) (x (s + 2)) (f s) (f (s + 1)) (f (s + 2)) (x i)

end Momlevel.Spec

namespace Momlevel.Spec

variable {K : Type*} [Field K] [LE K]

/-- `y` is the value at `w` of the piecewise linear function through the nodes
`(x 0, f 0), …, (x (n-1), f (n-1))`. -/
def InterpAt (n : Nat) (x f : Nat → K) (w y : K) : Prop :=
  ∃ k, k + 1 < n ∧ x k ≤ w ∧ w ≤ x (k + 1) ∧
    y = ((x (k + 1) - w) * f k + (w - x k) * f (k + 1)) / (x (k + 1) - x k)

end Momlevel.Spec
