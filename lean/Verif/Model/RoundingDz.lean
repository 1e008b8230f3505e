import Verif.Model.Rounding

/-!
# The thickness of one cell with the operations of any number type

As in `Model/Rounding.lean`: the numbers may round.  Comparisons, and with them minimum and maximum, are
exact.
-/

namespace Momlevel

noncomputable instance {ρ : ℝ → ℝ} : Min (Rd ρ) := ⟨fun a b => ⟨min a.val b.val⟩⟩
noncomputable instance {ρ : ℝ → ℝ} : Max (Rd ρ) := ⟨fun a b => ⟨max a.val b.val⟩⟩

section
variable {α : Type*} [Sub α] [Div α] [Min α] [Max α] [OfScientific α]

/-- derived.py:295-298: the depth of the water down to which cells are counted. -/
def dzFloor (depth : α) : Option α → α
  | some b => min depth b
  | none => depth

/-- /repo/src/momlevel/derived.py:308-318 `calc_dz` in one cell: `ztop` and `zbot` are the depths of its two
interfaces, `top` the upper boundary, `floor` the value of `dzFloor`. -/
def dzCell (ztop zbot top floor : α) : α :=
  min (max (zbot - top) 0.0) (min (max (floor - ztop) 0.0) (zbot - ztop))

/-- derived.py:320-323 with `fraction=True`, where neither number is zero. -/
def dzFraction (ztop zbot top floor : α) : α := dzCell ztop zbot top floor / (zbot - ztop)

end

end Momlevel
