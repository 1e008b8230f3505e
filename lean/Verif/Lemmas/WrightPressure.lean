import Verif.Lemmas.WrightDiff

/-!
# Wright's density and pressure

Mixed differences of temperature (salinity) and pressure on the oceanographic range.
-/

set_option linter.unusedSectionVars false

namespace Momlevel.Eos.Wright
open Spec.Wright

section
variable {α : Type*} [Add α] [Sub α] [Mul α] [Div α] [Neg α] [OfScientific α]

/-- Numerators of `∂²ρ/∂T∂p` and `∂²ρ/∂S∂p` over `D³`. -/
def wKTP (T S p : α) : α :=
  -(2.0 * (wP T S p * A1) + wLT T S) * wD T S p - 2.0 * wNT T S p * wAl T S
def wKSP (T S p : α) : α :=
  -(2.0 * (wP T S p * A2) + (C4 + C5 * T)) * wD T S p - 2.0 * wNS T S p * wAl T S

end

theorem hasDerivAt_wP_p (T S p : ℝ) : HasDerivAt (fun q => wP T S q) 1 p := by
  simp only [wP_eq]
  exact (hasDerivAt_id p).add_const _

theorem hasDerivAt_wD_p (T S p : ℝ) : HasDerivAt (fun q => wD T S q) (wAl T S) p := by
  have h := ((hasDerivAt_wP_p T S p).const_mul (wAl T S)).const_add (wL T S)
  refine h.congr_deriv ?_
  ring

theorem hasDerivAt_wNT_p (T S p : ℝ) :
    HasDerivAt (fun q => wNT T S q) (-(2.0 * (wP T S p * A1) + wLT T S)) p := by
  have hP := hasDerivAt_wP_p T S p
  have h := (hP.mul ((hP.mul_const A1).add_const (wLT T S))).const_sub (wL T S * wPT T S)
  refine h.congr_deriv ?_
  norm_num
  ring

theorem hasDerivAt_wNS_p (T S p : ℝ) :
    HasDerivAt (fun q => wNS T S q) (-(2.0 * (wP T S p * A2) + (C4 + C5 * T))) p := by
  have hP := hasDerivAt_wP_p T S p
  have h := (hP.mul ((hP.mul_const A2).add_const (C4 + C5 * T))).const_sub (wL T S * (B4 + B5 * T))
  refine h.congr_deriv ?_
  norm_num
  ring

theorem hasDerivAt_dT_p (T S p : ℝ) (h : wD T S p ≠ 0) :
    HasDerivAt (fun q => drho_dtemp T S q) (wKTP T S p / wD T S p ^ 3) p := by
  simp only [drho_dtemp_eq']
  exact hasDerivAt_quot (hasDerivAt_wNT_p T S p) (hasDerivAt_wD_p T S p) h

theorem hasDerivAt_dS_p (T S p : ℝ) (h : wD T S p ≠ 0) :
    HasDerivAt (fun q => drho_dsal T S q) (wKSP T S p / wD T S p ^ 3) p := by
  simp only [drho_dsal_eq']
  exact hasDerivAt_quot (hasDerivAt_wNS_p T S p) (hasDerivAt_wD_p T S p) h

/-- The derivative of the density with respect to pressure. -/
theorem hasDerivAt_rho_p (T S p : ℝ) (h : wD T S p ≠ 0) :
    HasDerivAt (fun q => rho T S q) (wL T S / wD T S p ^ 2) p := by
  have e : (fun q => rho T S q) = fun q => wP T S q / wD T S q := by
    funext q; rw [wP_eq, wD_eq]; rfl
  rw [e]
  refine ((hasDerivAt_wP_p T S p).div (hasDerivAt_wD_p T S p) h).congr_deriv ?_
  congr 1
  unfold wD
  ring

theorem o_TP_hi {T S p : ℝ} (h : Ocean T S p) :
    0 ≤ -wKTP T S p - 0.0000000005 * (wD T S p * wD T S p * wD T S p) := by
  have h1 := o_nonneg h (-wKTP eT eS eP - 0.0000000005 * (wD eT eS eP * wD eT eS eP * wD eT eS eP)) (by decide +kernel)
  exact h1

theorem o_TP_lo {T S p : ℝ} (h : Ocean T S p) :
    0 ≤ wKTP T S p + 0.0000000045 * (wD T S p * wD T S p * wD T S p) := by
  have h1 := o_nonneg h (wKTP eT eS eP + 0.0000000045 * (wD eT eS eP * wD eT eS eP * wD eT eS eP)) (by decide +kernel)
  exact h1

theorem o_SP_hi {T S p : ℝ} (h : Ocean T S p) :
    0 ≤ -wKSP T S p - 0.0000000003 * (wD T S p * wD T S p * wD T S p) := by
  have h1 := o_nonneg h (-wKSP eT eS eP - 0.0000000003 * (wD eT eS eP * wD eT eS eP * wD eT eS eP)) (by decide +kernel)
  exact h1

theorem o_SP_lo {T S p : ℝ} (h : Ocean T S p) :
    0 ≤ wKSP T S p + 0.000000001 * (wD T S p * wD T S p * wD T S p) := by
  have h1 := o_nonneg h (wKSP eT eS eP + 0.000000001 * (wD eT eS eP * wD eT eS eP * wD eT eS eP)) (by decide +kernel)
  exact h1

theorem o_P_hi {T S p : ℝ} (h : Ocean T S p) : 0 ≤ 0.00000053 * (wD T S p * wD T S p) - wL T S := by
  have h1 := o_nonneg h (0.00000053 * (wD eT eS eP * wD eT eS eP) - wL eT eS) (by decide +kernel)
  exact h1

theorem o_P_lo {T S p : ℝ} (h : Ocean T S p) : 0 ≤ wL T S - 0.0000003 * (wD T S p * wD T S p) := by
  have h1 := o_nonneg h (wL eT eS - 0.0000003 * (wD eT eS eP * wD eT eS eP)) (by decide +kernel)
  exact h1

theorem o_rho_lo {T S p : ℝ} (h : Ocean T S p) : 0 ≤ wP T S p - 980.0 * wD T S p := by
  have h1 := o_nonneg h (wP eT eS eP - 980.0 * wD eT eS eP) (by decide +kernel)
  exact h1

end Momlevel.Eos.Wright
