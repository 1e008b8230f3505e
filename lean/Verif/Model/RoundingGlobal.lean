import Verif.Model.Rounding

/-!
# The global steric height with the operations of any number type

As in `Model/Rounding.lean`: the numbers may round, and the sums are added up in any order.
-/

namespace Momlevel

/-- One wet cell of the ocean: its volume in the reference state, the depth of its level, temperature
and salinity at the time considered and in the reference state (the inputs of
/repo/src/momlevel/steric.py:134-142). -/
structure VolCell (α : Type*) where
  vol : α
  z : α
  T : α
  S : α
  Tref : α
  Sref : α

section
variable {α : Type*} [Add α] [Sub α] [Mul α] [Div α] [Neg α] [OfScientific α] {β γ : Type*}

/-- derived.py:414-444 `calc_masso` at the time considered: `(rho * volcello).sum()`, added up in the
order `t` over the cells that are not missing. -/
def cellsMass (eos : Eos.EosFn α) (patm : α) (cell : β → VolCell α) (t : SumTree β) : α :=
  t.sum (fun b => eos (cell b).T (cell b).S (colPressure patm (cell b).z) * (cell b).vol)

/-- The same for the reference state (reference.py:71-77). -/
def cellsMassRef (eos : Eos.EosFn α) (patm : α) (cell : β → VolCell α) (t : SumTree β) : α :=
  t.sum (fun b => eos (cell b).Tref (cell b).Sref (colPressure patm (cell b).z) * (cell b).vol)

/-- derived.py:769-795 `calc_volo`. -/
def cellsVolume (cell : β → VolCell α) (t : SumTree β) : α := t.sum (fun b => (cell b).vol)

/-- steric.py:134-147: `(volo / areacello.sum()) * log(rhoga / (masso / volo))`, with `rhoga` from
derived.py:661.  `om`, `or`, `ov`, `oa` are the orders in which the mass, the mass of the reference, the
volume and the area are added up; `log` is `np.log` in the number type. -/
def globalHeight (eos : Eos.EosFn α) (log : α → α) (patm : α) (cell : β → VolCell α) (area : γ → α)
    (om or ov : SumTree β) (oa : SumTree γ) : α :=
  cellsVolume cell ov / oa.sum area *
    log (cellsMassRef eos patm cell or / cellsVolume cell ov
      / (cellsMass eos patm cell om / cellsVolume cell ov))

end

end Momlevel
