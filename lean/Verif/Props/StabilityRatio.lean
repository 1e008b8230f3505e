import Verif.Props.StabilityFloor
import Mathlib.Analysis.SpecialFunctions.Trigonometric.ArctanDeriv
import Mathlib.Analysis.Calculus.Deriv.MeanValue

/-! # C151: the stability angle as a function of the density ratio -/

set_option linter.unusedSectionVars false

namespace Momlevel.Props
open Momlevel Momlevel.Fl Momlevel.Eos

/-- The arctangent grows no faster than its argument. -/
theorem arctan_sub_le {x y : ℝ} (h : x ≤ y) : Real.arctan y - Real.arctan x ≤ y - x := by
  have := image_sub_le_mul_sub_of_deriv_le Real.differentiable_arctan (C := 1) (fun x => by
    rw [Real.deriv_arctan]
    simp only
    rw [div_le_one (by positivity)]
    nlinarith [sq_nonneg x]) h
  linarith

/-- Below one: 45° plus the arctangent of the ratio. -/
theorem turner_low {R : ℝ} (h : R < 1) : turner R = 45 + Real.arctan R * (180 / Real.pi) := by
  have := Real.arctan_add (x := 1) (y := R) (by linarith)
  rw [one_mul] at this
  rw [turner, ← this, add_mul, deg_one]

/-- Above one: half a turn less. -/
theorem turner_high {R : ℝ} (h : 1 < R) : turner R = Real.arctan R * (180 / Real.pi) - 135 := by
  have := Real.arctan_add_eq_add_pi (x := 1) (y := R) (by linarith) one_pos
  rw [one_mul] at this
  have hp := Real.pi_pos
  have h2 : Real.arctan ((1 + R) / (1 - R)) = Real.arctan 1 + Real.arctan R - Real.pi := by linarith
  rw [turner, h2, sub_mul, add_mul, deg_one]
  have : Real.pi * (180 / Real.pi) = 180 := by field_simp
  linarith

/-- The column of C149 at a level where both gradients are defined and the temperature gradient does not vanish: the
density ratio is `R`. -/
structure RatioAt (th so pres : DA (Fl ℝ)) (z : Nat → Fl ℝ) (eos zc : String) (e : Env) (R : ℝ) : Prop where
  col : ∃ (n m : Nat) (x T S : Nat → ℝ) (fa fb : EosFn (Fl ℝ)) (a b : ℝ), OverFloor th so z zc e n m x T S ∧
    eosFuncFromStr eos "alpha" = .ok fa ∧ eosFuncFromStr eos "beta" = .ok fb ∧
    (∀ p ∈ pres.dims, p.1 ∈ th.dimNames) ∧
    fa (fin (T (e zc))) (fin (S (e zc))) (pres.get e) = fin a ∧
    fb (fin (T (e zc))) (fin (S (e zc))) (pres.get e) = fin b ∧
    (m = n ∨ (e zc + 1 < m ∧ 3 ≤ m)) ∧ a * Spec.derivAt n x T (e zc) ≠ 0 ∧
    R = b * Spec.derivAt n x S (e zc) / (a * Spec.derivAt n x T (e zc))

/-- C151: the angle is 45° plus the arctangent of the density ratio below one, 90° at one, and the arctangent minus 135°
above one. -/
theorem C151_closed {th so pres : DA (Fl ℝ)} {z : Nat → Fl ℝ} {eos zc : String} {e : Env} {R : ℝ}
    (h : RatioAt th so pres z eos zc e R) : ∃ r, calcStabilityAngle th so pres z eos zc = .ok r ∧
      (R < 1 → r.get e = fin (45 + Real.arctan R * (180 / Real.pi))) ∧
      (R = 1 → r.get e = fin 90) ∧
      (1 < R → r.get e = fin (Real.arctan R * (180 / Real.pi) - 135)) := by
  obtain ⟨n, m, x, T, S, fa, fb, a, b, c, ha, hb, hpd, hfa, hfb, hk, h0, rfl⟩ := h.col
  obtain ⟨r, hr, -, h2⟩ := C149_floor c ha hb pres hpd (fun _ => hfa) (fun _ => hfb)
  obtain ⟨-, h3, h4⟩ := h2 hk
  refine ⟨r, hr, fun h => ?_, fun h => h3 h0 h, fun h => ?_⟩
  · rw [h4 h0 h.ne, turner_low h]
  · rw [h4 h0 h.ne', turner_high h]

/-- C151: on either side of one the angle grows with the ratio, by at most `180°/π` per unit. -/
theorem C151_sensitivity {th so pres th' so' pres' r r' : DA (Fl ℝ)} {z z' : Nat → Fl ℝ} {eos eos' zc zc' : String}
    {e e' : Env} {R R' : ℝ} (h : RatioAt th so pres z eos zc e R) (h' : RatioAt th' so' pres' z' eos' zc' e' R')
    (hr : calcStabilityAngle th so pres z eos zc = .ok r) (hr' : calcStabilityAngle th' so' pres' z' eos' zc' = .ok r')
    (hs : R' < 1 ∨ 1 < R) (hlt : R < R') :
    ∃ A A', r.get e = fin A ∧ r'.get e' = fin A' ∧ A < A' ∧ A' - A ≤ (R' - R) * (180 / Real.pi) := by
  obtain ⟨_, k, k1, -, k3⟩ := C151_closed h
  obtain ⟨_, k', k1', -, k3'⟩ := C151_closed h'
  cases k.symm.trans hr
  cases k'.symm.trans hr'
  have hp : 0 < 180 / Real.pi := div_pos (by norm_num) Real.pi_pos
  have m1 := mul_lt_mul_of_pos_right (Real.arctan_strictMono hlt) hp
  have m2 := mul_le_mul_of_nonneg_right (arctan_sub_le hlt.le) hp.le
  rw [sub_mul] at m2
  rcases hs with h | h
  · exact ⟨_, _, k1 (hlt.trans h), k1' h, by linarith, by linarith⟩
  · exact ⟨_, _, k3 h, k3' (h.trans hlt), by linarith, by linarith⟩

/-- C151: at neutral stratification the angle jumps by half a turn: just below one it is close to 90°, just above one
close to -90°. -/
theorem C151_jump {th so pres r : DA (Fl ℝ)} {z : Nat → Fl ℝ} {eos zc : String} {e : Env} {R : ℝ}
    (h : RatioAt th so pres z eos zc e R) (hr : calcStabilityAngle th so pres z eos zc = .ok r) :
    (R < 1 → ∃ A, r.get e = fin A ∧ A < 90 ∧ 90 - (1 - R) * (180 / Real.pi) ≤ A) ∧
    (1 < R → ∃ A, r.get e = fin A ∧ -90 < A ∧ A ≤ -90 + (R - 1) * (180 / Real.pi)) := by
  obtain ⟨_, k, k1, -, k3⟩ := C151_closed h
  cases k.symm.trans hr
  have hp : 0 < 180 / Real.pi := div_pos (by norm_num) Real.pi_pos
  refine ⟨fun h => ⟨_, k1 h, ?_, ?_⟩, fun h => ⟨_, k3 h, ?_, ?_⟩⟩
  · have := mul_lt_mul_of_pos_right (Real.arctan_strictMono h) hp
    rw [deg_one] at this
    linarith
  · have := mul_le_mul_of_nonneg_right (arctan_sub_le h.le) hp.le
    rw [sub_mul, deg_one] at this
    linarith
  · have := mul_lt_mul_of_pos_right (Real.arctan_strictMono h) hp
    rw [deg_one] at this
    linarith
  · have := mul_le_mul_of_nonneg_right (arctan_sub_le h.le) hp.le
    rw [sub_mul, deg_one] at this
    linarith

/-! ## Two columns with the linear equation of state -/

noncomputable section

/-- Three levels one metre apart, temperature falling by one degree and salinity changing by `d` per metre. -/
def rtT : DA (Fl ℝ) := ⟨[("z_l", 3)], fun e => fin (12 - (e "z_l" : ℝ))⟩
def rtS (d : ℝ) : DA (Fl ℝ) := ⟨[("z_l", 3)], fun e => fin (35 + d * (e "z_l" : ℝ))⟩

/-- The density ratio at the middle level is `-4 d`. -/
theorem rtRatio {d : ℝ} (hd : -1 ≤ d) : RatioAt rtT (rtS d) (DA.scalar (fin 0)) (fun k => fin (k : ℝ)) "linear" "z_l"
    (fun _ => 1) (-4 * d) := by
  have hl : pyLower "linear" = "linear".toList := rfl
  have hρ : linRho ((12 : ℝ) - ((1 : ℕ) : ℝ)) (35 + d * ((1 : ℕ) : ℝ)) ≠ 0 := by
    simp only [linRho, Nat.cast_one]
    linarith
  have hc := linear_coeffs ((12 : ℝ) - ((1 : ℕ) : ℝ)) (35 + d * ((1 : ℕ) : ℝ)) 0 hρ
  have dT : Spec.derivAt 3 (fun k => (k : ℝ)) (fun k => 12 - (k : ℝ)) 1 = -1 := by
    norm_num [Spec.derivAt, Spec.stencil, Spec.parabolaDeriv]
  have dS : Spec.derivAt 3 (fun k => (k : ℝ)) (fun k => 35 + d * (k : ℝ)) 1 = d := by
    norm_num [Spec.derivAt, Spec.stencil, Spec.parabolaDeriv]
    ring
  refine ⟨3, 3, fun k => (k : ℝ), fun k => 12 - (k : ℝ), fun k => 35 + d * (k : ℝ),
    fun T S p => Linear.alpha T S p, fun T S p => Linear.beta T S p, _, _, ?_, ?_, ?_, by simp, hc.1, hc.2,
    Or.inl rfl, ?_, ?_⟩
  · exact ⟨le_rfl, le_rfl, fun a _ b _ h => Nat.cast_injective h, rfl, by simp [rtT, DA.dimNames],
      by simp [rtS, DA.dimNames], rfl, rfl, fun k hk => by simp [rtT, hk], fun k hk => by simp [rtS, hk], by norm_num⟩
  · simp only [eosFuncFromStr, hl, if_true]; rfl
  · simp only [eosFuncFromStr, hl, if_true]; rfl
  · rw [dT]
    exact mul_ne_zero (div_ne_zero (by norm_num) hρ) (by norm_num)
  · rw [dT, dS]
    field_simp

/-- Salinity falling by 1/8 per metre (ratio 1/2): between 45° and 90°, and larger than without salinity gradient. -/
example : ∃ r r' A, calcStabilityAngle rtT (rtS (-(1 / 8))) (DA.scalar (fin 0)) (fun k => fin (k : ℝ)) "linear" = .ok r ∧
    calcStabilityAngle rtT (rtS 0) (DA.scalar (fin 0)) (fun k => fin (k : ℝ)) "linear" = .ok r' ∧
    r'.get (fun _ => 1) = fin 45 ∧ r.get (fun _ => 1) = fin A ∧ 45 < A ∧ A < 90 ∧ A - 45 ≤ 1 / 2 * (180 / Real.pi) := by
  have h := rtRatio (d := -(1 / 8)) (by norm_num)
  have h' := rtRatio (d := 0) (by norm_num)
  obtain ⟨r, k, -⟩ := C151_closed h
  obtain ⟨r', k', k1', -⟩ := C151_closed h'
  have e0 := k1' (by norm_num)
  norm_num at e0
  obtain ⟨B, A, q1, q2, q3, q4⟩ := C151_sensitivity h' h k' k (Or.inl (by norm_num)) (by norm_num)
  rw [e0] at q1
  injection q1 with q1
  subst q1
  obtain ⟨A', q5, q6, -⟩ := (C151_jump h k).1 (by norm_num)
  rw [q2] at q5
  injection q5 with q5
  subst q5
  refine ⟨r, r', A, k, k', e0, q2, q3, q6, ?_⟩
  norm_num at q4 ⊢
  exact q4

end

end Momlevel.Props
