import Verif.Lemmas.Season
import Mathlib.Tactic.LinearCombination

/-!
# Sampled oscillations and the origin of the regressors
-/

set_option linter.unusedSectionVars false

namespace Momlevel
open Momlevel

/-- A sequence that advances by the angle `θ` per sample (a straight line for `θ = 0`). -/
def Osc (θ : ℝ) (f : Nat → ℝ) : Prop := ∀ k, f (k + 2) + f k = 2 * Real.cos θ * f (k + 1)

theorem osc_line (p q : ℝ) : Osc 0 (fun k => p + q * k) := by
  intro k
  rw [Real.cos_zero]
  push_cast
  ring

theorem osc_wave (θ p q : ℝ) :
    Osc θ (fun k => p * Real.sin (θ * k) + q * Real.cos (θ * k)) := by
  intro k
  have e2 : θ * ((k + 2 : Nat) : ℝ) = θ * ((k + 1 : Nat) : ℝ) + θ := by push_cast; ring
  have e0 : θ * (k : ℝ) = θ * ((k + 1 : Nat) : ℝ) - θ := by push_cast; ring
  simp only [e2, e0, Real.sin_add, Real.cos_add, Real.sin_sub, Real.cos_sub]
  ring

theorem osc_cos (θ A φ : ℝ) : Osc θ (fun k => A * Real.cos (θ * k + φ)) := by
  intro k
  have e2 : θ * ((k + 2 : Nat) : ℝ) + φ = (θ * ((k + 1 : Nat) : ℝ) + φ) + θ := by push_cast; ring
  have e0 : θ * (k : ℝ) + φ = (θ * ((k + 1 : Nat) : ℝ) + φ) - θ := by push_cast; ring
  simp only [e2, e0, Real.cos_add _ θ, Real.cos_sub _ θ]
  ring

theorem Osc.next {θ : ℝ} {f : Nat → ℝ} (h : Osc θ f) (c : ℝ) : Osc θ (fun k => c * f (k + 1)) := by
  intro k
  have := h (k + 1)
  simp only
  rw [show k + 2 + 1 = k + 1 + 2 by ring]
  linear_combination c * this

/-- A sum of two oscillations is not an oscillation with a third angle. -/
theorem osc_two {θ a b : ℝ} {f A B : Nat → ℝ} (hf : Osc θ f) (hA : Osc a A) (hB : Osc b B) {k : Nat}
    (h : ∀ i, i ≤ 4 → f (k + i) = A (k + i) + B (k + i)) :
    (Real.cos θ - Real.cos a) * (Real.cos θ - Real.cos b) * f (k + 2) = 0 := by
  have f0 := hf k
  have f1 := hf (k + 1)
  have f2 := hf (k + 2)
  have A0 := hA k
  have A1 := hA (k + 1)
  have A2 := hA (k + 2)
  have B0 := hB k
  have B1 := hB (k + 1)
  have B2 := hB (k + 2)
  have g0 := h 0 (by norm_num)
  have g1 := h 1 (by norm_num)
  have g2 := h 2 (by norm_num)
  have g3 := h 3 (by norm_num)
  have g4 := h 4 (by norm_num)
  simp only [Nat.add_zero, show k + 1 + 2 = k + 3 by ring, show k + 2 + 2 = k + 4 by ring,
    show k + 1 + 1 = k + 2 by ring] at *
  generalize f k = x0 at *
  generalize f (k + 1) = x1 at *
  generalize f (k + 2) = x2 at *
  generalize f (k + 3) = x3 at *
  generalize f (k + 4) = x4 at *
  generalize Real.cos θ = ct at *
  generalize Real.cos a = ca at *
  generalize Real.cos b = cb at *
  have s0 : x2 + x0 - 2 * ca * x1 = 2 * (cb - ca) * B (k + 1) := by
    linear_combination g2 + g0 - 2 * ca * g1 + A0 + B0
  have s1 : x3 + x1 - 2 * ca * x2 = 2 * (cb - ca) * B (k + 2) := by
    linear_combination g3 + g1 - 2 * ca * g2 + A1 + B1
  have s2 : x4 + x2 - 2 * ca * x3 = 2 * (cb - ca) * B (k + 3) := by
    linear_combination g4 + g2 - 2 * ca * g3 + A2 + B2
  have r0 : 2 * (ct - ca) * x1 = 2 * (cb - ca) * B (k + 1) := by linear_combination s0 - f0
  have r1 : 2 * (ct - ca) * x2 = 2 * (cb - ca) * B (k + 2) := by linear_combination s1 - f1
  have r2 : 2 * (ct - ca) * x3 = 2 * (cb - ca) * B (k + 3) := by linear_combination s2 - f2
  linear_combination (1 / 4) * (r2 + r0 - 2 * cb * r1) - (1 / 2) * (ct - ca) * f1 +
    (1 / 2) * (cb - ca) * B1

/-- Nor is it one after adding a straight line. -/
theorem osc_three {θ a b : ℝ} {f L A B : Nat → ℝ} (hf : Osc θ f) (hL : Osc 0 L) (hA : Osc a A)
    (hB : Osc b B) {k : Nat}
    (h : ∀ i, i ≤ 6 → f (k + i) = L (k + i) + A (k + i) + B (k + i)) :
    (Real.cos θ - 1) * ((Real.cos θ - Real.cos a) * (Real.cos θ - Real.cos b)) * f (k + 3) = 0 := by
  have key := osc_two (hf.next (2 * (Real.cos θ - 1))) (hA.next (2 * (Real.cos a - 1)))
    (hB.next (2 * (Real.cos b - 1))) (k := k) (fun i hi => by
      have h0 := h i (by omega)
      have h1 := h (i + 1) (by omega)
      have h2 := h (i + 2) (by omega)
      have f0 := hf (k + i)
      have l0 := hL (k + i)
      have a0 := hA (k + i)
      have b0 := hB (k + i)
      rw [Real.cos_zero] at l0
      simp only [← Nat.add_assoc] at h0 h1 h2 ⊢
      linear_combination h0 + h2 - 2 * h1 - f0 + l0 + a0 + b0)
  rw [show k + 2 + 1 = k + 3 by ring] at key
  linear_combination (1 / 2) * key

/-! ### The origin of the decimal years -/

theorem mean_shift {n : Nat} (t : Fin n → ℝ) (c : ℝ) (k : Fin n) :
    (∑ j, (t j + c)) / n = (∑ j, t j) / n + c := by
  have hn : (n : ℝ) ≠ 0 := by
    have := k.pos
    exact_mod_cast this.ne'
  rw [Finset.sum_add_distrib, Finset.sum_const, Finset.card_univ, Fintype.card_fin, nsmul_eq_mul,
    add_div, mul_div_cancel_left₀ _ hn]

/-- Moving the origin of the decimal years turns the regressors among themselves. -/
theorem regressor_shift {n : Nat} (t : Fin n → ℝ) (c : ℝ) (k : Fin n) :
    Spec.regressor (fun j => t j + c) k 0 = Spec.regressor t k 0 ∧
    Spec.regressor (fun j => t j + c) k 1 = Spec.regressor t k 1 ∧
    Spec.regressor (fun j => t j + c) k 2 = Real.cos (2 * Real.pi * c) * Spec.regressor t k 2 +
      Real.sin (2 * Real.pi * c) * Spec.regressor t k 3 ∧
    Spec.regressor (fun j => t j + c) k 3 = Real.cos (2 * Real.pi * c) * Spec.regressor t k 3 -
      Real.sin (2 * Real.pi * c) * Spec.regressor t k 2 ∧
    Spec.regressor (fun j => t j + c) k 4 = Real.cos (4 * Real.pi * c) * Spec.regressor t k 4 +
      Real.sin (4 * Real.pi * c) * Spec.regressor t k 5 ∧
    Spec.regressor (fun j => t j + c) k 5 = Real.cos (4 * Real.pi * c) * Spec.regressor t k 5 -
      Real.sin (4 * Real.pi * c) * Spec.regressor t k 4 := by
  refine ⟨rfl, ?_, ?_, ?_, ?_, ?_⟩
  · change t k + c - (∑ j, (t j + c)) / n = t k - (∑ j, t j) / n
    rw [mean_shift t c k]
    ring
  all_goals
    simp only [Spec.regressor, mul_add, Real.sin_add, Real.cos_add]
    ring

/-- A fit does not depend on the origin of the decimal years. -/
theorem isFit_shift {n : Nat} {t y m : Fin n → ℝ} (h : Spec.IsFit t y m) (c : ℝ) :
    Spec.IsFit (fun k => t k + c) y m := by
  constructor
  · obtain ⟨d, hd⟩ := h.combination
    refine ⟨![d 0, d 1, Real.cos (2 * Real.pi * c) * d 2 + Real.sin (2 * Real.pi * c) * d 3,
      Real.cos (2 * Real.pi * c) * d 3 - Real.sin (2 * Real.pi * c) * d 2,
      Real.cos (4 * Real.pi * c) * d 4 + Real.sin (4 * Real.pi * c) * d 5,
      Real.cos (4 * Real.pi * c) * d 5 - Real.sin (4 * Real.pi * c) * d 4], fun k => ?_⟩
    obtain ⟨h0, h1, h2, h3, h4, h5⟩ := regressor_shift t c k
    have s2 := Real.sin_sq_add_cos_sq (2 * Real.pi * c)
    have s4 := Real.sin_sq_add_cos_sq (4 * Real.pi * c)
    rw [hd k, Fin.sum_univ_six, Fin.sum_univ_six, h0, h1, h2, h3, h4, h5]
    simp only [Matrix.cons_val]
    linear_combination -(d 2 * Spec.regressor t k 2 + d 3 * Spec.regressor t k 3) * s2 -
      (d 4 * Spec.regressor t k 4 + d 5 * Spec.regressor t k 5) * s4
  · have hl : ∀ (a b : ℝ) (i j : Fin 6),
        ∑ k, (y k - m k) * (a * Spec.regressor t k i + b * Spec.regressor t k j) = 0 := by
      intro a b i j
      have : ∀ k, (y k - m k) * (a * Spec.regressor t k i + b * Spec.regressor t k j) =
          a * ((y k - m k) * Spec.regressor t k i) + b * ((y k - m k) * Spec.regressor t k j) :=
        fun k => by ring
      simp only [this]
      rw [Finset.sum_add_distrib, ← Finset.mul_sum, ← Finset.mul_sum, h.orthogonal, h.orthogonal]
      simp
    have hp : ∀ (g : Fin n → ℝ) (a b : ℝ) (i j : Fin 6),
        (∀ k, g k = a * Spec.regressor t k i + b * Spec.regressor t k j) →
        ∑ k, (y k - m k) * g k = 0 := by
      intro g a b i j hg
      rw [← hl a b i j]
      exact Finset.sum_congr rfl (fun k _ => by rw [hg k])
    intro j
    match j with
    | 0 => exact hp _ 1 0 0 0 (fun k => by rw [(regressor_shift t c k).1]; ring)
    | 1 => exact hp _ 1 0 1 0 (fun k => by rw [(regressor_shift t c k).2.1]; ring)
    | 2 => exact hp _ _ _ 2 3 (fun k => (regressor_shift t c k).2.2.1)
    | 3 => exact hp _ (Real.cos (2 * Real.pi * c)) (-Real.sin (2 * Real.pi * c)) 3 2 (fun k => by
        rw [(regressor_shift t c k).2.2.2.1]; ring)
    | 4 => exact hp _ _ _ 4 5 (fun k => (regressor_shift t c k).2.2.2.2.1)
    | 5 => exact hp _ (Real.cos (4 * Real.pi * c)) (-Real.sin (4 * Real.pi * c)) 5 4 (fun k => by
        rw [(regressor_shift t c k).2.2.2.2.2]; ring)

theorem isFit_shift_iff {n : Nat} {t y m : Fin n → ℝ} (c : ℝ) :
    Spec.IsFit (fun k => t k + c) y m ↔ Spec.IsFit t y m := by
  refine ⟨fun h => ?_, fun h => isFit_shift h c⟩
  have := isFit_shift h (-c)
  simpa only [neg_add_cancel_right, add_neg_cancel_right] using this

end Momlevel
