import Verif.Model.Eos
import Mathlib.Data.Real.Basic

/-!
# Rounded arithmetic

The equations of state of `Model/Eos.lean` (`/repo/src/momlevel/eos/wright.py`,
`/repo/src/momlevel/eos/linear.py`) are polymorphic in the number type.  Here they are given
numbers whose operations round: every literal and every result of `+ - * /` is passed through a
function `ρ`, in the order in which the code performs the operations.  Negation is exact, as in
IEEE arithmetic.  Simplifications: one rounding function for all operations (operands of one
dtype), no overflow and no NaN.
-/

namespace Momlevel

/-- A finite floating point number: a real number whose operations round by `ρ`.  Number type of
the arrays in /repo/src/momlevel/eos/wright.py:23-165 and /repo/src/momlevel/eos/linear.py:26-162. -/
@[ext] structure Rd (ρ : ℝ → ℝ) where
  val : ℝ

namespace Rd
variable {ρ : ℝ → ℝ}

noncomputable instance : Add (Rd ρ) := ⟨fun a b => ⟨ρ (a.val + b.val)⟩⟩
noncomputable instance : Sub (Rd ρ) := ⟨fun a b => ⟨ρ (a.val - b.val)⟩⟩
noncomputable instance : Mul (Rd ρ) := ⟨fun a b => ⟨ρ (a.val * b.val)⟩⟩
noncomputable instance : Div (Rd ρ) := ⟨fun a b => ⟨ρ (a.val / b.val)⟩⟩
noncomputable instance : Neg (Rd ρ) := ⟨fun a => ⟨-a.val⟩⟩
noncomputable instance : OfScientific (Rd ρ) :=
  ⟨fun m s e => ⟨ρ (OfScientific.ofScientific m s e : ℝ)⟩⟩

end Rd

/-- An order of summation: numpy adds the entries of an array in an order that depends on its
layout (pairwise blocks); a tree stands for any such order.  Used for the sums over levels and
cells, /repo/src/momlevel/steric.py:163, /repo/src/momlevel/derived.py (`.sum`). -/
inductive SumTree (β : Type*)
  | leaf (b : β)
  | node (l r : SumTree β)

namespace SumTree
variable {β : Type*} {α : Type*}

/-- The entries, from left to right. -/
def leaves : SumTree β → List β
  | leaf b => [b]
  | node l r => l.leaves ++ r.leaves

/-- The sum of `f b` over the entries, added up in the order of the tree. -/
def sum [Add α] (f : β → α) : SumTree β → α
  | leaf b => f b
  | node l r => l.sum f + r.sum f

end SumTree

/-- One cell of a water column: thickness, depth of the level, temperature and salinity at the time
considered and in the reference state (the inputs of /repo/src/momlevel/steric.py:96-163). -/
structure ColCell (α : Type*) where
  dz : α
  z : α
  T : α
  S : α
  Tref : α
  Sref : α

section
variable {α : Type*} [Add α] [Sub α] [Mul α] [Div α] [Neg α] [OfScientific α]

/-- steric.py:96 `pres = (dset[zcoord] * 1.0e4) + patm` at one level. -/
def colPressure (patm z : α) : α := z * 1.0e4 + patm

/-- steric.py:151-153: the change of density in one cell. -/
def colDelta (eos : Eos.EosFn α) (patm : α) (c : ColCell α) : α :=
  eos c.T c.S (colPressure patm c.z) - eos c.Tref c.Sref (colPressure patm c.z)

/-- steric.py:163: the height of one wet column, `(-1.0 / rhozero) * (dz * delta_rho).sum()`.
`cell k` is the cell at level `k`, `order` the levels that enter (those that are not missing) and
the order in which they are added up. -/
def colHeight (eos : Eos.EosFn α) (patm rhozero : α) (cell : ℕ → ColCell α) (order : SumTree ℕ) : α :=
  (-1.0 / rhozero) * order.sum (fun k => (cell k).dz * colDelta eos patm (cell k))

end

end Momlevel
