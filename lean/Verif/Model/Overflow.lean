import Verif.Model.Rounding
import Verif.Model.Fl

/-!
# Numbers that round and overflow

As in `Model/Rounding.lean`, but with NaN and the infinities: a result beyond the largest number becomes infinite,
and a division by zero gives an infinity or NaN.  Number type of the arrays in
/repo/src/momlevel/eos/wright.py:23-165, /repo/src/momlevel/eos/linear.py:26-162,
/repo/src/momlevel/dynamic.py:34-36 and /repo/src/momlevel/steric.py:96-163.  Simplification: no signed zero, as in
`Model/Fl.lean`.
-/

namespace Momlevel

/-- A floating point number of a format with rounding `ρ` and largest number `M`. -/
@[ext] structure Fp (ρ : ℝ → ℝ) (M : ℝ) where
  val : Fl ℝ

namespace Fp
variable {ρ : ℝ → ℝ} {M : ℝ}

/-- Rounding of an exact result: beyond `M` it is infinite. -/
noncomputable def lim (ρ : ℝ → ℝ) (M : ℝ) : Fl ℝ → Fl ℝ
  | .fin x => if |ρ x| ≤ M then .fin (ρ x) else Fl.infOfSign x
  | v => v

noncomputable instance : Add (Fp ρ M) := ⟨fun a b => ⟨lim ρ M (a.val + b.val)⟩⟩
noncomputable instance : Sub (Fp ρ M) := ⟨fun a b => ⟨lim ρ M (a.val - b.val)⟩⟩
noncomputable instance : Mul (Fp ρ M) := ⟨fun a b => ⟨lim ρ M (a.val * b.val)⟩⟩
noncomputable instance : Div (Fp ρ M) := ⟨fun a b => ⟨lim ρ M (a.val / b.val)⟩⟩
noncomputable instance : Neg (Fp ρ M) := ⟨fun a => ⟨-a.val⟩⟩
noncomputable instance : OfScientific (Fp ρ M) :=
  ⟨fun m s e => ⟨lim ρ M (.fin (OfScientific.ofScientific m s e))⟩⟩

end Fp

end Momlevel
