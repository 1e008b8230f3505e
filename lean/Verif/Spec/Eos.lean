import Mathlib.Data.Real.Basic

/-!
# Textbook equations of state (specification)

Wright (1997), J. Atmos. Ocean. Tech. 14, 735-740: `ρ = (p + p₀) / (λ + α₀ (p + p₀))` with
`α₀`, `p₀`, `λ` polynomials in temperature and salinity, written out independently of the code.
-/

namespace Momlevel.Spec

namespace Wright
noncomputable section

/-- `α₀(T, S)` -/
def al0 (T S : ℝ) : ℝ :=
  7057924 / 10 ^ 10 + 3480336 / 10 ^ 13 * T - 1112733 / 10 ^ 13 * S

/-- `p₀(T, S)` -/
def p0 (T S : ℝ) : ℝ :=
  579074900 + 3516535 * T - 4002714 / 100 * T ^ 2 + 2084372 / 10 ^ 4 * T ^ 3
    + 5944068 / 10 * S - 9643486 / 1000 * S * T

/-- `λ(T, S)` -/
def lam (T S : ℝ) : ℝ :=
  1704853 / 10 + 7904722 / 10 ^ 4 * T - 7984422 / 10 ^ 6 * T ^ 2 + 5140652 / 10 ^ 8 * T ^ 3
    - 2302158 / 10 ^ 4 * S - 3079464 / 10 ^ 6 * S * T

/-- The denominator of the density. -/
def denom (T S p : ℝ) : ℝ := lam T S + al0 T S * (p + p0 T S)

/-- The density. -/
def rho (T S p : ℝ) : ℝ := (p + p0 T S) / denom T S p

/-- The oceanographic range: -2 to 40 degC, 0 to 42 psu, 0 to 10⁸ Pa. -/
def Ocean (T S p : ℝ) : Prop := -2 ≤ T ∧ T ≤ 40 ∧ 0 ≤ S ∧ S ≤ 42 ∧ 0 ≤ p ∧ p ≤ 10 ^ 8

end
end Wright

end Momlevel.Spec
