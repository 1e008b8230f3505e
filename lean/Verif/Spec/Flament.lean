import Mathlib.Data.Real.Basic
import Mathlib.Algebra.BigOperators.Group.Finset.Basic
import Mathlib.Data.List.ProdSigma

/-!
# Flament (2002) spiciness polynomial (specification)
-/

namespace Momlevel.Spec.Flament

/-- The published coefficients `b_ij` in units of `10⁻¹³` (rows: powers of temperature, columns:
powers of `S - 35`). -/
def b : List (List ℤ) :=
  [[0, 7744200000000, -58500000000, -9840000000, -2060000000],
    [516550000000, 20340000000, -2742000000, -85000000, 136000000],
    [66478300000, -2468100000, -142800000, 333700000, 78940000],
    [-540230000, 73260000, 70036000, -30412000, -10853000],
    [3949000, -302900, -3820900, 1001200, 471330],
    [-6360, -13090, 60480, -11409, -6676]]

/-- `∑ b_ij θⁱ (S - 35)ʲ`, `i < 6`, `j < 5` -/
noncomputable def poly (t s : ℝ) : ℝ :=
  ∑ i ∈ Finset.range 6, ∑ j ∈ Finset.range 5,
    (((b.getD i []).getD j 0 : ℤ) : ℝ) / 10 ^ 13 * t ^ i * (s - 35) ^ j

/-- `∑ |b_ij| |θ|ⁱ |S - 35|ʲ`: the size of the terms of the polynomial. -/
noncomputable def size (t s : ℝ) : ℝ :=
  ∑ i ∈ Finset.range 6, ∑ j ∈ Finset.range 5,
    |(((b.getD i []).getD j 0 : ℤ) : ℝ)| / 10 ^ 13 * |t| ^ i * |s - 35| ^ j

/-- The 30 pairs of exponents. -/
def exponents : List (ℕ × ℕ) := List.range 6 ×ˢ List.range 5

end Momlevel.Spec.Flament
