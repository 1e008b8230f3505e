import Verif.Model.Rounding

/-!
# The vertical gradient and N² with the operations of any number type

As in `Model/Rounding.lean`: the numbers may round.
-/

namespace Momlevel

section
variable {α : Type*} [Add α] [Sub α] [Mul α] [Div α] [Neg α] [OfScientific α]

/-- `np.gradient(f, x, edge_order=2)` at position `i` of `n`, as called by `differentiate` in
/repo/src/momlevel/derived.py:400-401; `same` is the comparison of two numbers (numpy takes the formulas for
equal spacing if all the *computed* spacings are equal). -/
def gradientPoint (same : α → α → Bool) (n : Nat) (x f : Nat → α) (i : Nat) : α :=
  let dx : Nat → α := fun k => x (k + 1) - x k
  if (List.range (n - 1)).all (fun k => same (dx k) (dx 0)) then
    let h := dx 0
    if i = 0 then
      (-1.5 : α) / h * f 0 + (2.0 : α) / h * f 1 + (-0.5 : α) / h * f 2
    else if i + 1 = n then
      (0.5 : α) / h * f (n - 3) + (-2.0 : α) / h * f (n - 2) + (1.5 : α) / h * f (n - 1)
    else (f (i + 1) - f (i - 1)) / ((2.0 : α) * h)
  else
    if i = 0 then
      let dx1 := dx 0
      let dx2 := dx 1
      let a := -((2.0 : α) * dx1 + dx2) / (dx1 * (dx1 + dx2))
      let b := (dx1 + dx2) / (dx1 * dx2)
      let c := -dx1 / (dx2 * (dx1 + dx2))
      a * f 0 + b * f 1 + c * f 2
    else if i + 1 = n then
      let dx1 := dx (n - 3)
      let dx2 := dx (n - 2)
      let a := dx2 / (dx1 * (dx1 + dx2))
      let b := -(dx2 + dx1) / (dx1 * dx2)
      let c := ((2.0 : α) * dx2 + dx1) / (dx2 * (dx1 + dx2))
      a * f (n - 3) + b * f (n - 2) + c * f (n - 1)
    else
      let dx1 := dx (i - 1)
      let dx2 := dx i
      let a := -dx2 / (dx1 * (dx1 + dx2))
      let b := (dx2 - dx1) / (dx1 * dx2)
      let c := dx1 / (dx2 * (dx1 + dx2))
      a * f (i - 1) + b * f i + c * f (i + 1)

/-- /repo/src/momlevel/derived.py:397-402 in one column, at level `i` of `n`: `alpha` and `beta` are the
coefficients of the equation of state, `x` the depths. -/
def n2Column (alpha beta : Eos.EosFn α) (same : α → α → Bool) (gravity patm : α) (n : Nat)
    (x T S : Nat → α) (i : Nat) : α :=
  gravity * (alpha (T i) (S i) (colPressure patm (x i)) * gradientPoint same n x T i
    - beta (T i) (S i) (colPressure patm (x i)) * gradientPoint same n x S i)

end

/-- Comparison of two floating point numbers (`==` in numpy's test for equal spacing, reached from
/repo/src/momlevel/derived.py:400-401). -/
noncomputable def Rd.same {ρ : ℝ → ℝ} (a b : Rd ρ) : Bool :=
  open Classical in decide (a.val = b.val)

end Momlevel
