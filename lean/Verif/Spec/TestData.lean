import Verif.Model.Dataset
import Mathlib.Algebra.BigOperators.Group.Finset.Basic

/-! Independent description of the generated test grids. -/

namespace Momlevel.Spec

variable {K : Type} [Field K] [LinearOrder K]

/-- Random area of the cell in row `j` and column `i` before scaling: mean 100, standard deviation
10, draws in row-major order. -/
def rawArea (z : Nat → K) (j i : Nat) : K := 100 + 10 * z (5 * j + i)

/-- The sum of the 25 random areas. -/
def rawTotal (z : Nat → K) : K := ∑ j ∈ Finset.range 5, ∑ i ∈ Finset.range 5, rawArea z j i

/-- The scaled area: the cell's share of 361 110 920 km². -/
def cellArea (z : Nat → K) (j i : Nat) : K := 361110920000000 * (rawArea z j i / rawTotal z)

/-- The dataset has a variable `name` on the dimensions `dims` with the values `f` inside. -/
def HasVar (d : DS (Fl K)) (name : String) (dims : List (String × Nat)) (f : Env → Fl K) : Prop :=
  ∃ a, d.vars.lookup name = some a ∧ a.dims = dims ∧ ∀ e, (∀ p ∈ dims, e p.1 < p.2) → a.get e = f e

/-- A five by five grid of cells covering the globe, with cell areas from the draws `z`. -/
structure HGrid (d : DS (Fl K)) (x y lon lat area : String) (z : Nat → K) : Prop where
  hx : HasVar d x [(x, 5)] (fun e => .fin ((e x : K) + 1))
  hy : HasVar d y [(y, 5)] (fun e => .fin ((e y : K) + 1))
  hlon : HasVar d lon [(y, 5), (x, 5)] (fun e => .fin (36 + 72 * (e x : K)))
  hlat : HasVar d lat [(y, 5), (x, 5)] (fun e => .fin (-72 + 36 * (e y : K)))
  harea : rawTotal z ≠ 0 → HasVar d area [(y, 5), (x, 5)] (fun e => .fin (cellArea z (e y) (e x)))

/-- The four staggered points: name, x and y dimension, longitude, latitude, area. -/
inductive Point : String → String → String → String → String → String → Prop
  | tracer : Point "h" "xh" "yh" "geolon" "geolat" "areacello"
  | zonal : Point "u" "xq" "yh" "geolon_u" "geolat_u" "areacello_cu"
  | meridional : Point "v" "xh" "yq" "geolon_v" "geolat_v" "areacello_cv"
  | corner : Point "c" "xq" "yq" "geolon_c" "geolat_c" "areacello_bu"

/-- The interface depths of the test grid. -/
def ifcDepth : Nat → K
  | 0 => 0
  | 1 => 5
  | 2 => 15
  | 3 => 185
  | 4 => 1815
  | _ => 6185

/-- The interface depths of the shallow test grid. -/
def shallowIfc : Nat → K
  | 0 => 0
  | 1 => 5
  | 2 => 10
  | 3 => 20
  | 4 => 50
  | _ => 100

end Momlevel.Spec
