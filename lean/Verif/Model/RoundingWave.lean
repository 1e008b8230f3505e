import Verif.Model.Rounding

/-!
# Wave speed and Rossby radius with the operations of any number type

As in `Model/Rounding.lean`: the numbers may round.  The square root and `np.pi` are parameters; for
rounded numbers the square root is the exact one, rounded (IEEE requires this), and `np.pi` is the rounded
number.  The absolute value is exact.
-/

namespace Momlevel

section
variable {α β : Type*} [Add α] [Mul α] [Div α]

/-- /repo/src/momlevel/derived.py:820 `(np.sqrt(adjust_negative_n2(n2)) * dz).sum(zcoord) / np.pi` in one
column: `N` is the adjusted field and `D` the thickness, zero where the product is missing; `order` is
the order in which the levels are added up.  The adjustment itself only selects values and multiplies by
1.0, which is exact. -/
def waveColumn (sqrt : α → α) (pi : α) (N D : β → α) (order : SumTree β) : α :=
  order.sum (fun k => sqrt (N k) * D k) / pi

/-- derived.py:588 `wave_speed / np.abs(coriolis)` at one point. -/
def rossbyPoint (abs : α → α) (c f : α) : α := c / abs f

end

namespace Rd
variable {ρ : ℝ → ℝ}

/-- `np.sqrt` of a floating point number, as used in /repo/src/momlevel/derived.py:820. -/
noncomputable def sqrt (sq : ℝ → ℝ) (a : Rd ρ) : Rd ρ := ⟨ρ (sq a.val)⟩

/-- `np.abs`, as used in /repo/src/momlevel/derived.py:588. -/
def absolute (a : Rd ρ) : Rd ρ := ⟨|a.val|⟩

end Rd

end Momlevel
