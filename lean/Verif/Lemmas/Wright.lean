import Verif.Model.Eos
import Verif.Spec.Eos
import Mathlib.Analysis.Calculus.Deriv.Inv
import Mathlib.Analysis.Calculus.Deriv.Pow
import Mathlib.Analysis.Calculus.Deriv.Mul
import Mathlib.Analysis.Calculus.Deriv.Add
import Mathlib.Tactic.Ring
import Mathlib.Tactic.NormNum
import Mathlib.Tactic.NormNum.OfScientific
import Mathlib.Tactic.Linarith
import Mathlib.Tactic.Positivity
import Mathlib.Tactic.FieldSimp

/-! Helper lemmas about the Wright equation of state. -/

namespace Momlevel.Eos.Wright
open Momlevel.Spec

theorem p0_eq (T S : ℝ) :
    (B0 + B4 * S + T * (B1 + T * (B2 + B3 * T) + B5 * S) : ℝ) = Spec.Wright.p0 T S := by
  simp only [B0, B1, B2, B3, B4, B5, Spec.Wright.p0]; norm_num; ring

theorem lam_eq (T S : ℝ) :
    (C0 + C4 * S + T * (C1 + T * (C2 + C3 * T) + C5 * S) : ℝ) = Spec.Wright.lam T S := by
  simp only [C0, C1, C2, C3, C4, C5, Spec.Wright.lam]; norm_num; ring

theorem al0_eq (T S : ℝ) : (A0 + A1 * T + A2 * S : ℝ) = Spec.Wright.al0 T S := by
  simp only [A0, A1, A2, Spec.Wright.al0]; norm_num; ring

theorem density_eq (T S p : ℝ) : density T S p = Spec.Wright.rho T S p := by
  unfold density Spec.Wright.rho Spec.Wright.denom
  simp only [p0_eq, lam_eq, al0_eq]
  norm_num
  rw [div_eq_mul_inv]

/-- `∂p₀/∂T` -/
noncomputable def p0T (T S : ℝ) : ℝ := B1 + T * (2.0 * B2 + 3.0 * B3 * T) + B5 * S
/-- `∂λ/∂T` -/
noncomputable def lamT (T S : ℝ) : ℝ := C1 + T * (C2 * 2.0 + C3 * 3.0 * T) + C5 * S

theorem hasDerivAt_p0_T (T S : ℝ) : HasDerivAt (fun t => Spec.Wright.p0 t S) (p0T T S) T := by
  unfold Spec.Wright.p0
  have h := ((((((hasDerivAt_const T (579074900:ℝ)).add ((hasDerivAt_id T).const_mul 3516535)).sub
    ((hasDerivAt_pow 2 T).const_mul (4002714 / 100))).add
    ((hasDerivAt_pow 3 T).const_mul (2084372 / 10 ^ 4))).add
    (hasDerivAt_const T (5944068 / 10 * S))).sub ((hasDerivAt_id T).const_mul (9643486 / 1000 * S)))
  refine h.congr_deriv ?_
  simp only [p0T, B1, B2, B3, B5]; norm_num; ring

theorem hasDerivAt_lam_T (T S : ℝ) : HasDerivAt (fun t => Spec.Wright.lam t S) (lamT T S) T := by
  unfold Spec.Wright.lam
  have h := ((((((hasDerivAt_const T (1704853 / 10:ℝ)).add
    ((hasDerivAt_id T).const_mul (7904722 / 10 ^ 4))).sub
    ((hasDerivAt_pow 2 T).const_mul (7984422 / 10 ^ 6))).add
    ((hasDerivAt_pow 3 T).const_mul (5140652 / 10 ^ 8))).sub
    (hasDerivAt_const T (2302158 / 10 ^ 4 * S))).sub
    ((hasDerivAt_id T).const_mul (3079464 / 10 ^ 6 * S)))
  refine h.congr_deriv ?_
  simp only [lamT, C1, C2, C3, C5]; norm_num; ring

theorem hasDerivAt_al0_T (T S : ℝ) : HasDerivAt (fun t => Spec.Wright.al0 t S) A1 T := by
  unfold Spec.Wright.al0
  have h := (((hasDerivAt_const T (7057924 / 10 ^ 10:ℝ)).add
    ((hasDerivAt_id T).const_mul (3480336 / 10 ^ 13))).sub
    (hasDerivAt_const T (1112733 / 10 ^ 13 * S)))
  refine h.congr_deriv ?_
  simp only [A1]; norm_num

theorem hasDerivAt_p0_S (T S : ℝ) :
    HasDerivAt (fun s => Spec.Wright.p0 T s) (B4 + B5 * T) S := by
  unfold Spec.Wright.p0
  have h := ((hasDerivAt_const S (579074900 + 3516535 * T - 4002714 / 100 * T ^ 2
    + 2084372 / 10 ^ 4 * T ^ 3:ℝ)).add ((hasDerivAt_id S).const_mul (5944068 / 10))).sub
    (((hasDerivAt_id S).const_mul (9643486 / 1000)).mul_const T)
  refine h.congr_deriv ?_
  simp only [B4, B5]; norm_num; ring

theorem hasDerivAt_lam_S (T S : ℝ) :
    HasDerivAt (fun s => Spec.Wright.lam T s) (C4 + C5 * T) S := by
  unfold Spec.Wright.lam
  have h := ((hasDerivAt_const S (1704853 / 10 + 7904722 / 10 ^ 4 * T - 7984422 / 10 ^ 6 * T ^ 2
    + 5140652 / 10 ^ 8 * T ^ 3:ℝ)).sub ((hasDerivAt_id S).const_mul (2302158 / 10 ^ 4))).sub
    (((hasDerivAt_id S).const_mul (3079464 / 10 ^ 6)).mul_const T)
  refine h.congr_deriv ?_
  simp only [C4, C5]; norm_num; ring

theorem hasDerivAt_al0_S (T S : ℝ) : HasDerivAt (fun s => Spec.Wright.al0 T s) A2 S := by
  unfold Spec.Wright.al0
  have h := ((hasDerivAt_const S (7057924 / 10 ^ 10 + 3480336 / 10 ^ 13 * T:ℝ)).sub
    ((hasDerivAt_id S).const_mul (1112733 / 10 ^ 13)))
  refine h.congr_deriv ?_
  simp only [A2]; norm_num

/-- Derivative of `P / (L + a P)` along any curve. -/
theorem hasDerivAt_ratio {P L a : ℝ → ℝ} {P' L' a' x : ℝ} (hP : HasDerivAt P P' x)
    (hL : HasDerivAt L L' x) (ha : HasDerivAt a a' x) (h0 : L x + a x * P x ≠ 0) :
    HasDerivAt (fun t => P t / (L t + a t * P t))
      ((L x * P' - P x * (P x * a' + L')) / (L x + a x * P x) ^ 2) x := by
  have h := hP.div (hL.add (ha.mul hP)) h0
  refine h.congr_deriv ?_
  simp only [Pi.add_apply, Pi.mul_apply]
  field_simp
  ring

theorem drho_dtemp_eq (T S p : ℝ) : drho_dtemp T S p =
    (Spec.Wright.lam T S * p0T T S
      - (p + Spec.Wright.p0 T S) * ((p + Spec.Wright.p0 T S) * A1 + lamT T S))
      / (Spec.Wright.denom T S p) ^ 2 := by
  unfold drho_dtemp Spec.Wright.denom
  simp only [p0_eq, lam_eq, al0_eq, p0T, lamT]
  norm_num
  rw [div_eq_mul_inv, pow_two, mul_inv]
  ring

theorem drho_dsal_eq (T S p : ℝ) : drho_dsal T S p =
    (Spec.Wright.lam T S * (B4 + B5 * T)
      - (p + Spec.Wright.p0 T S) * ((p + Spec.Wright.p0 T S) * A2 + (C4 + C5 * T)))
      / (Spec.Wright.denom T S p) ^ 2 := by
  unfold drho_dsal Spec.Wright.denom
  simp only [p0_eq, lam_eq, al0_eq]
  norm_num
  rw [div_eq_mul_inv, pow_two, mul_inv]
  ring

theorem hasDerivAt_rho_T (T S p : ℝ) (h : Spec.Wright.denom T S p ≠ 0) :
    HasDerivAt (fun t => Spec.Wright.rho t S p) (drho_dtemp T S p) T := by
  rw [drho_dtemp_eq]
  exact hasDerivAt_ratio ((hasDerivAt_p0_T T S).const_add p) (hasDerivAt_lam_T T S)
    (hasDerivAt_al0_T T S) h

theorem hasDerivAt_rho_S (T S p : ℝ) (h : Spec.Wright.denom T S p ≠ 0) :
    HasDerivAt (fun s => Spec.Wright.rho T s p) (drho_dsal T S p) S := by
  rw [drho_dsal_eq]
  exact hasDerivAt_ratio ((hasDerivAt_p0_S T S).const_add p) (hasDerivAt_lam_S T S)
    (hasDerivAt_al0_S T S) h

/-! ### Signs on the oceanographic range -/

theorem al0_pos {T S : ℝ} (h1 : -2 ≤ T) (h2 : S ≤ 42) : 0 < Spec.Wright.al0 T S := by
  unfold Spec.Wright.al0; norm_num; nlinarith

theorem p0_pos {T S : ℝ} (h1 : -2 ≤ T) (h2 : T ≤ 40) (h3 : 0 ≤ S) (h4 : S ≤ 42) :
    0 < Spec.Wright.p0 T S := by
  unfold Spec.Wright.p0
  have hST : S * T ≤ 42 * 40 := by nlinarith
  nlinarith [sq_nonneg T, mul_nonneg (sub_nonneg.2 h1) (sq_nonneg T), mul_nonneg h3 (sub_nonneg.2 h2)]

theorem lam_pos {T S : ℝ} (h1 : -2 ≤ T) (h2 : T ≤ 40) (h3 : 0 ≤ S) (h4 : S ≤ 42) :
    0 < Spec.Wright.lam T S := by
  unfold Spec.Wright.lam
  nlinarith [sq_nonneg T, mul_nonneg (sub_nonneg.2 h1) (sq_nonneg T), mul_nonneg h3 (sub_nonneg.2 h2),
    mul_nonneg (sub_nonneg.2 h1) (sub_nonneg.2 h2)]

theorem denom_pos {T S p : ℝ} (h : Spec.Wright.Ocean T S p) : 0 < Spec.Wright.denom T S p := by
  obtain ⟨h1, h2, h3, h4, h5, _⟩ := h
  have a := al0_pos h1 h4
  have b := p0_pos h1 h2 h3 h4
  have c := lam_pos h1 h2 h3 h4
  unfold Spec.Wright.denom
  positivity

theorem drho_dsal_pos {T S p : ℝ} (h : Spec.Wright.Ocean T S p) : 0 < drho_dsal T S p := by
  have hd := denom_pos h
  obtain ⟨h1, h2, h3, h4, h5, _⟩ := h
  have b := p0_pos h1 h2 h3 h4
  have c := lam_pos h1 h2 h3 h4
  rw [drho_dsal_eq]
  refine div_pos ?_ (by positivity)
  have e1 : (0:ℝ) < B4 + B5 * T := by simp only [B4, B5]; norm_num; linarith
  have e2 : (C4 + C5 * T : ℝ) < 0 := by simp only [C4, C5]; norm_num; linarith
  have e3 : (A2 : ℝ) < 0 := by simp only [A2]; norm_num
  have hP : 0 < p + Spec.Wright.p0 T S := by positivity
  have := mul_pos c e1
  have h6 : (p + Spec.Wright.p0 T S) * A2 < 0 := mul_neg_of_pos_of_neg hP e3
  have := mul_neg_of_pos_of_neg hP (add_neg h6 e2)
  linarith

theorem c04_aux1 {T S : ℝ} (h2 : T ≤ 40) (h3 : 0 ≤ S) (h4 : S ≤ 42) (h5 : 4.5 - 0.23 * S ≤ T) :
    0 < -25070.1 + 1379.8 * S - 3.93 * S ^ 2 + 5818 * T - 30.53 * T * S - 25.57 * T ^ 2
      + 0.149 * T ^ 2 * S := by
  have u : 0 ≤ T - (4.5 - 0.23 * S) := by linarith
  nlinarith [mul_nonneg u (sub_nonneg.2 h2), mul_nonneg u h3,
    mul_nonneg (mul_nonneg u (sub_nonneg.2 h2)) h3, mul_nonneg h3 (sub_nonneg.2 h4),
    mul_nonneg u (sub_nonneg.2 h4)]

theorem c04_aux2 {T S : ℝ} (h2 : T ≤ 0) (h4 : S ≤ 42) (h5 : 4.5 - 0.23 * S ≤ T) :
    0 < -25070.5 + 1379.8 * S - 3.93 * S ^ 2 + 5818 * T - 30.36 * T * S - 25.57 * T ^ 2 := by
  have u : 0 ≤ T - (4.5 - 0.23 * S) := by linarith
  nlinarith [mul_nonneg u (sub_nonneg.2 h2), mul_nonneg u (sub_nonneg.2 h4),
    mul_nonneg u (sub_nonneg.2 h4)]

/-- The surface value of `-(d rho/dT) * denom²` is positive above the line of maximum density. -/
theorem c04_surface {T S : ℝ} (h1 : -2 ≤ T) (h2 : T ≤ 40) (h3 : 0 ≤ S) (h4 : S ≤ 42)
    (h5 : 4.5 - 0.23 * S ≤ T) :
    Spec.Wright.lam T S * p0T T S
      < Spec.Wright.p0 T S * (Spec.Wright.p0 T S * A1 + lamT T S) := by
  rw [← sub_pos]
  unfold Spec.Wright.lam Spec.Wright.p0 p0T lamT
  simp only [A1, B1, B2, B3, B5, C1, C2, C3, C5]
  norm_num
  have hS2 : S ^ 2 ≤ 42 * S := by nlinarith
  have hT2 := sq_nonneg T
  have hT4S : T ^ 4 * S ≤ T ^ 4 * 42 := mul_le_mul_of_nonneg_left h4 (by positivity)
  have hT5 : T ^ 5 ≤ T ^ 4 * 40 := by
    have : T ^ 5 = T ^ 4 * T := by ring
    rw [this]; exact mul_le_mul_of_nonneg_left h2 (by positivity)
  have hT4 : 0 ≤ T ^ 4 := by positivity
  have hT6 : 0 ≤ T ^ 6 := by positivity
  have hT2S2 : 0 ≤ T ^ 2 * S ^ 2 := by positivity
  have hT2S : 0 ≤ T ^ 2 * S := by positivity
  rcases le_total 0 T with h0 | h0
  · have hT3 : 0 ≤ T ^ 3 := by positivity
    have hT3S : 0 ≤ T ^ 3 * S := by positivity
    have hTS2 : T * S ^ 2 ≤ T * (42 * S) := mul_le_mul_of_nonneg_left hS2 h0
    have hTS : 0 ≤ T * S := by positivity
    have := c04_aux1 h2 h3 h4 h5
    norm_num at this
    nlinarith
  · have hT3 : -8 ≤ T ^ 3 := by nlinarith
    have hT3' : T ^ 3 ≤ 0 := by nlinarith
    have hT3S : -8 * 42 ≤ T ^ 3 * S := by nlinarith
    have hTS2 : T * S ^ 2 ≤ 0 := mul_nonpos_of_nonpos_of_nonneg h0 (by positivity)
    have hTS : T * S ≤ 0 := mul_nonpos_of_nonpos_of_nonneg h0 h3
    have := c04_aux2 h0 h4 h5
    norm_num at this
    nlinarith

theorem lamT_pos {T S : ℝ} (h2 : T ≤ 40) (h4 : S ≤ 42) :
    0 < lamT T S := by
  unfold lamT
  simp only [C1, C2, C3, C5]
  norm_num
  nlinarith [sq_nonneg T]

theorem drho_dtemp_neg {T S p : ℝ} (h : Spec.Wright.Ocean T S p) (h5 : 4.5 - 0.23 * S ≤ T) :
    drho_dtemp T S p < 0 := by
  have hd := denom_pos h
  obtain ⟨h1, h2, h3, h4, h0, _⟩ := h
  have b := p0_pos h1 h2 h3 h4
  have c := lam_pos h1 h2 h3 h4
  have l := lamT_pos h2 h4
  have m := c04_surface h1 h2 h3 h4 h5
  rw [drho_dtemp_eq]
  refine div_neg_of_neg_of_pos ?_ (by positivity)
  have ha : (0:ℝ) < A1 := by simp only [A1]; norm_num
  have : Spec.Wright.p0 T S * (Spec.Wright.p0 T S * A1 + lamT T S)
      ≤ (p + Spec.Wright.p0 T S) * ((p + Spec.Wright.p0 T S) * A1 + lamT T S) := by
    have e1 : Spec.Wright.p0 T S ≤ p + Spec.Wright.p0 T S := by linarith
    have e2 : Spec.Wright.p0 T S * A1 ≤ (p + Spec.Wright.p0 T S) * A1 :=
      mul_le_mul_of_nonneg_right e1 ha.le
    apply mul_le_mul e1 (by linarith) (by positivity) (by positivity)
  linarith

end Momlevel.Eos.Wright
