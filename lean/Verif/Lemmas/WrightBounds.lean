import Verif.Lemmas.Bernstein
import Verif.Lemmas.Wright

/-!
# Bounds on the derivatives of Wright's density

First and second derivatives on the oceanographic range, as quotients of polynomials whose signs are
checked by `Ex.nonneg`.
-/

set_option linter.unusedSectionVars false

namespace Momlevel.Eos.Wright

section
variable {α : Type*} [Add α] [Sub α] [Mul α] [Div α] [Neg α] [OfScientific α]

def wAl (T S : α) : α := A0 + A1 * T + A2 * S
def wP (T S p : α) : α := p + (B0 + B4 * S + T * (B1 + T * (B2 + B3 * T) + B5 * S))
def wL (T S : α) : α := C0 + C4 * S + T * (C1 + T * (C2 + C3 * T) + C5 * S)
def wD (T S p : α) : α := wL T S + wAl T S * wP T S p
def wPT (T S : α) : α := B1 + T * (2.0 * B2 + 3.0 * B3 * T) + B5 * S
def wLT (T S : α) : α := C1 + T * (C2 * 2.0 + C3 * 3.0 * T) + C5 * S
def wPTT (T : α) : α := 2.0 * B2 + 6.0 * B3 * T
def wLTT (T : α) : α := 2.0 * C2 + 6.0 * C3 * T
def wDT (T S p : α) : α := wLT T S + A1 * wP T S p + wAl T S * wPT T S
/-- Numerators of `∂ρ/∂T` and `∂ρ/∂S` over `D²`. -/
def wNT (T S p : α) : α := wL T S * wPT T S - wP T S p * (wP T S p * A1 + wLT T S)
def wNS (T S p : α) : α := wL T S * (B4 + B5 * T) - wP T S p * (wP T S p * A2 + (C4 + C5 * T))
def wNTT (T S p : α) : α := wLT T S * wPT T S + wL T S * wPTT T
  - (wPT T S * (wP T S p * A1 + wLT T S) + wP T S p * (wPT T S * A1 + wLTT T))
def wNST (T S p : α) : α := wLT T S * (B4 + B5 * T) + wL T S * B5
  - (wPT T S * (wP T S p * A2 + (C4 + C5 * T)) + wP T S p * (wPT T S * A2 + C5))
/-- Numerators of `∂²ρ/∂T²` and `∂²ρ/∂T∂S` over `D³`. -/
def wKTT (T S p : α) : α := wNTT T S p * wD T S p - 2.0 * wNT T S p * wDT T S p
def wKST (T S p : α) : α := wNST T S p * wD T S p - 2.0 * wNS T S p * wDT T S p

end

theorem wP_eq (T S p : ℝ) : wP T S p = p + Spec.Wright.p0 T S := by unfold wP; rw [p0_eq]
theorem wL_eq (T S : ℝ) : wL T S = Spec.Wright.lam T S := lam_eq T S
theorem wD_eq (T S p : ℝ) : wD T S p = Spec.Wright.denom T S p := by
  unfold wD Spec.Wright.denom; rw [wL_eq, wP_eq]; unfold wAl; rw [al0_eq]

theorem drho_dtemp_eq' (T S p : ℝ) : drho_dtemp T S p = wNT T S p / wD T S p ^ 2 := by
  rw [drho_dtemp_eq, wNT, wD_eq, wP_eq, wL_eq]; rfl
theorem drho_dsal_eq' (T S p : ℝ) : drho_dsal T S p = wNS T S p / wD T S p ^ 2 := by
  rw [drho_dsal_eq, wNS, wD_eq, wP_eq, wL_eq]

/-! ### Second derivatives -/

theorem hasDerivAt_poly {a b c : ℝ} (T : ℝ) :
    HasDerivAt (fun t : ℝ => a + t * (b + c * t)) (b + 2 * c * T) T := by
  have h := ((hasDerivAt_id T).mul (((hasDerivAt_id T).const_mul c).const_add b)).const_add a
  refine h.congr_deriv ?_
  simp only [id]
  ring

theorem hasDerivAt_wPT (T S : ℝ) : HasDerivAt (fun t => wPT t S) (wPTT T) T := by
  have h := (hasDerivAt_poly (a := (B1 : ℝ)) (b := 2.0 * B2) (c := 3.0 * B3) T).add_const (B5 * S)
  refine h.congr_deriv ?_
  unfold wPTT
  have e1 : (2.0 : ℝ) = 2 := by norm_num
  have e2 : (3.0 : ℝ) = 3 := by norm_num
  have e3 : (6.0 : ℝ) = 6 := by norm_num
  rw [e1, e2, e3]; ring

theorem hasDerivAt_wLT (T S : ℝ) : HasDerivAt (fun t => wLT t S) (wLTT T) T := by
  have h := (hasDerivAt_poly (a := (C1 : ℝ)) (b := C2 * 2.0) (c := C3 * 3.0) T).add_const (C5 * S)
  refine h.congr_deriv ?_
  unfold wLTT
  have e1 : (2.0 : ℝ) = 2 := by norm_num
  have e2 : (3.0 : ℝ) = 3 := by norm_num
  have e3 : (6.0 : ℝ) = 6 := by norm_num
  rw [e1, e2, e3]; ring

theorem hasDerivAt_wP (T S p : ℝ) : HasDerivAt (fun t => wP t S p) (wPT T S) T := by
  have h := (hasDerivAt_p0_T T S).const_add p
  simp only [wP_eq]
  exact h

theorem hasDerivAt_wL (T S : ℝ) : HasDerivAt (fun t => wL t S) (wLT T S) T := by
  simp only [wL_eq]
  exact hasDerivAt_lam_T T S

theorem hasDerivAt_wAl (T S : ℝ) : HasDerivAt (fun t : ℝ => wAl t S) A1 T := by
  have : (fun t : ℝ => wAl t S) = fun t => Spec.Wright.al0 t S := funext fun t => al0_eq t S
  rw [this]
  exact hasDerivAt_al0_T T S

theorem hasDerivAt_wD (T S p : ℝ) : HasDerivAt (fun t => wD t S p) (wDT T S p) T := by
  have h := (hasDerivAt_wL T S).add ((hasDerivAt_wAl T S).mul (hasDerivAt_wP T S p))
  refine h.congr_deriv ?_
  unfold wDT; ring

theorem hasDerivAt_wNT (T S p : ℝ) : HasDerivAt (fun t => wNT t S p) (wNTT T S p) T := by
  have h := ((hasDerivAt_wL T S).mul (hasDerivAt_wPT T S)).sub ((hasDerivAt_wP T S p).mul
    (((hasDerivAt_wP T S p).mul_const A1).add (hasDerivAt_wLT T S)))
  exact h

theorem hasDerivAt_wNS (T S p : ℝ) : HasDerivAt (fun t => wNS t S p) (wNST T S p) T := by
  have e1 : HasDerivAt (fun t : ℝ => B4 + B5 * t) B5 T := by
    have := ((hasDerivAt_id T).const_mul (B5 : ℝ)).const_add B4
    simpa using this
  have e2 : HasDerivAt (fun t : ℝ => C4 + C5 * t) C5 T := by
    have := ((hasDerivAt_id T).const_mul (C5 : ℝ)).const_add C4
    simpa using this
  have h := ((hasDerivAt_wL T S).mul e1).sub ((hasDerivAt_wP T S p).mul
    (((hasDerivAt_wP T S p).mul_const A2).add e2))
  exact h

theorem hasDerivAt_quot {n d : ℝ → ℝ} {n' d' x : ℝ} (hn : HasDerivAt n n' x) (hd : HasDerivAt d d' x)
    (h0 : d x ≠ 0) : HasDerivAt (fun t => n t / d t ^ 2) ((n' * d x - 2.0 * n x * d') / d x ^ 3) x := by
  have h := hn.div (hd.pow 2) (pow_ne_zero 2 h0)
  refine h.congr_deriv ?_
  norm_num
  field_simp

theorem hasDerivAt_dT (T S p : ℝ) (h : wD T S p ≠ 0) :
    HasDerivAt (fun t => drho_dtemp t S p) (wKTT T S p / wD T S p ^ 3) T := by
  simp only [drho_dtemp_eq']
  exact hasDerivAt_quot (hasDerivAt_wNT T S p) (hasDerivAt_wD T S p) h

theorem hasDerivAt_dS (T S p : ℝ) (h : wD T S p ≠ 0) :
    HasDerivAt (fun t => drho_dsal t S p) (wKST T S p / wD T S p ^ 3) T := by
  simp only [drho_dsal_eq']
  exact hasDerivAt_quot (hasDerivAt_wNS T S p) (hasDerivAt_wD T S p) h

/-! ### Signs on the oceanographic range -/

def oBox : ℕ → ℚ × ℚ
  | 0 => (-2, 40)
  | 1 => (0, 42)
  | _ => (0, 10 ^ 8)

def oVars (T S p : ℝ) : ℕ → ℝ
  | 0 => T
  | 1 => S
  | _ => p

theorem oBox_lt (i : ℕ) : (oBox i).1 < (oBox i).2 := by
  match i with
  | 0 => norm_num [oBox]
  | 1 => norm_num [oBox]
  | (n + 2) => show (0 : ℚ) < 10 ^ 8; norm_num

theorem oBox_mem {T S p : ℝ} (h : Spec.Wright.Ocean T S p) (i : ℕ) :
    ((oBox i).1 : ℝ) ≤ oVars T S p i ∧ oVars T S p i ≤ (oBox i).2 := by
  obtain ⟨h1, h2, h3, h4, h5, h6⟩ := h
  match i with
  | 0 => simp only [oBox, oVars]; push_cast; exact ⟨h1, h2⟩
  | 1 => simp only [oBox, oVars]; push_cast; exact ⟨h3, h4⟩
  | (n + 2) =>
    show ((0 : ℚ) : ℝ) ≤ p ∧ p ≤ ((10 ^ 8 : ℚ) : ℝ)
    push_cast; exact ⟨h5, h6⟩

theorem o_nonneg {T S p : ℝ} (h : Spec.Wright.Ocean T S p) (e : Ex) (hc : e.nonneg oBox = true) :
    0 ≤ e.eval (oVars T S p) := Ex.nonneg_sound oBox_lt (oBox_mem h) e hc

abbrev eT : Ex := .var 0
abbrev eS : Ex := .var 1
abbrev eP : Ex := .var 2

theorem o_dS_lo {T S p : ℝ} (h : Spec.Wright.Ocean T S p) : 0 ≤ wNS T S p - 0.676 * (wD T S p * wD T S p) := by
  have h1 := o_nonneg h (wNS eT eS eP - 0.676 * (wD eT eS eP * wD eT eS eP)) (by decide +kernel)
  exact h1

theorem o_dS_hi {T S p : ℝ} (h : Spec.Wright.Ocean T S p) :
    0 ≤ 0.82 * (wD T S p * wD T S p) - wNS T S p := by
  have h1 := o_nonneg h (0.82 * (wD eT eS eP * wD eT eS eP) - wNS eT eS eP) (by decide +kernel)
  exact h1

theorem o_dT_lo {T S p : ℝ} (h : Spec.Wright.Ocean T S p) :
    0 ≤ wNT T S p + 0.48 * (wD T S p * wD T S p) := by
  have h1 := o_nonneg h (wNT eT eS eP + 0.48 * (wD eT eS eP * wD eT eS eP)) (by decide +kernel)
  exact h1

theorem o_dT_hi {T S p : ℝ} (h : Spec.Wright.Ocean T S p) :
    0 ≤ 0.113 * (wD T S p * wD T S p) - wNT T S p := by
  have h1 := o_nonneg h (0.113 * (wD eT eS eP * wD eT eS eP) - wNT eT eS eP) (by decide +kernel)
  exact h1

theorem o_ST_hi {T S p : ℝ} (h : Spec.Wright.Ocean T S p) :
    0 ≤ -wKST T S p - 1000000000000.0 := by
  have h1 := o_nonneg h (-wKST eT eS eP - 1000000000000.0) (by decide +kernel)
  exact h1

theorem o_ST_lo {T S p : ℝ} (h : Spec.Wright.Ocean T S p) :
    0 ≤ wKST T S p + 0.0045 * (wD T S p * wD T S p * wD T S p) := by
  have h1 := o_nonneg h (wKST eT eS eP + 0.0045 * (wD eT eS eP * wD eT eS eP * wD eT eS eP)) (by decide +kernel)
  exact h1

theorem o_TT_hi {T S p : ℝ} (h : Spec.Wright.Ocean T S p) :
    0 ≤ -wKTT T S p - 0.003 * (wD T S p * wD T S p * wD T S p) := by
  have h1 := o_nonneg h (-wKTT eT eS eP - 0.003 * (wD eT eS eP * wD eT eS eP * wD eT eS eP)) (by decide +kernel)
  exact h1

theorem o_TT_lo {T S p : ℝ} (h : Spec.Wright.Ocean T S p) :
    0 ≤ wKTT T S p + 0.02 * (wD T S p * wD T S p * wD T S p) := by
  have h1 := o_nonneg h (wKTT eT eS eP + 0.02 * (wD eT eS eP * wD eT eS eP * wD eT eS eP)) (by decide +kernel)
  exact h1

theorem wD_pos {T S p : ℝ} (h : Spec.Wright.Ocean T S p) : 0 < wD T S p := by
  rw [wD_eq]; exact denom_pos h

/-- `0.676 ≤ ∂ρ/∂S ≤ 0.82` -/
theorem dS_bounds {T S p : ℝ} (h : Spec.Wright.Ocean T S p) :
    0.676 ≤ drho_dsal T S p ∧ drho_dsal T S p ≤ 0.82 := by
  have hd := wD_pos h
  have h1 := o_dS_lo h
  have h2 := o_dS_hi h
  rw [drho_dsal_eq', le_div_iff₀ (pow_pos hd 2), div_le_iff₀ (pow_pos hd 2), sq]
  exact ⟨by linarith, by linarith⟩

/-- `-0.48 ≤ ∂ρ/∂T ≤ 0.113` -/
theorem dT_bounds {T S p : ℝ} (h : Spec.Wright.Ocean T S p) :
    -0.48 ≤ drho_dtemp T S p ∧ drho_dtemp T S p ≤ 0.113 := by
  have hd := wD_pos h
  have h1 := o_dT_lo h
  have h2 := o_dT_hi h
  rw [drho_dtemp_eq', le_div_iff₀ (pow_pos hd 2), div_le_iff₀ (pow_pos hd 2), sq]
  exact ⟨by linarith, by linarith⟩

/-- `-0.0045 ≤ ∂²ρ/∂S∂T < 0` -/
theorem ST_bounds {T S p : ℝ} (h : Spec.Wright.Ocean T S p) :
    -0.0045 ≤ wKST T S p / wD T S p ^ 3 ∧ wKST T S p / wD T S p ^ 3 < 0 := by
  have hd := wD_pos h
  have h1 := o_ST_lo h
  have h2 := o_ST_hi h
  have e : wD T S p ^ 3 = wD T S p * wD T S p * wD T S p := by ring
  refine ⟨?_, div_neg_of_neg_of_pos ?_ (pow_pos hd 3)⟩
  · rw [le_div_iff₀ (pow_pos hd 3), e]; linarith
  · norm_num at h2 ⊢; linarith

/-- `-0.02 ≤ ∂²ρ/∂T² ≤ -0.003` -/
theorem TT_bounds {T S p : ℝ} (h : Spec.Wright.Ocean T S p) :
    -0.02 ≤ wKTT T S p / wD T S p ^ 3 ∧ wKTT T S p / wD T S p ^ 3 ≤ -0.003 := by
  have hd := wD_pos h
  have h1 := o_TT_lo h
  have h2 := o_TT_hi h
  have e : wD T S p ^ 3 = wD T S p * wD T S p * wD T S p := by ring
  rw [le_div_iff₀ (pow_pos hd 3), div_le_iff₀ (pow_pos hd 3), e]
  exact ⟨by linarith, by linarith⟩

end Momlevel.Eos.Wright
