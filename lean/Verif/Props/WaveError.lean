import Verif.Props.WaveColumn
import Verif.Model.Coriolis
import Verif.Lemmas.MidpointRule

/-! # C158: accuracy of the wave speed of a smoothly stratified column -/

set_option linter.unusedSectionVars false

namespace Momlevel.Props
open Momlevel Momlevel.Fl Momlevel.Spec

/-- C158 (error): with the levels in the middle of layers `x k … x (k+1)`, thicknesses those of the layers and `N² = B²`
at the levels, `B` smooth and non-negative with antiderivative `F`: the wave speed differs from `(1/π) ∫ B` by at most
`M/(24π)` times the sum of the cubed thicknesses. -/
theorem C158_error {n2 dz : DA (Fl ℝ)} {n : Nat} {rest : List (String × Nat)}
    (g : StratInput n2 n rest) (hn : n ≠ 0) :
    ∃ r, calcWaveSpeed n2 dz = .ok r ∧
      ∀ e m N D (x c : Nat → ℝ) (F B b1 b2 : ℝ → ℝ) (M : ℝ), IsPoint n2 e → StableColumn n2 dz e n m N D →
        (∀ k < m, x k ≤ x (k + 1)) → (∀ k < m, c k = (x k + x (k + 1)) / 2) → (∀ k < m, D k = x (k + 1) - x k) →
        (∀ k < m, 0 ≤ B (c k) ∧ N k = B (c k) ^ 2) → Smooth F B b1 b2 (x 0) (x m) M →
        ∃ v, r.get e = fin v ∧ |v - (F (x m) - F (x 0)) / Real.pi|
          ≤ M / (24 * Real.pi) * ∑ k ∈ Finset.range m, (x (k + 1) - x k) ^ 3 := by
  obtain ⟨r, hr, hv⟩ := C119_formula (dz := dz) g hn
  refine ⟨r, hr, fun e m N D x c F B b1 b2 M he hc hx hcm hD hB hF => ⟨_, hv e m N D he hc, ?_⟩⟩
  have e1 : ∑ k ∈ Finset.range m, Real.sqrt (N k) * D k = ∑ k ∈ Finset.range m, (x (k + 1) - x k) * B (c k) :=
    Finset.sum_congr rfl (fun k hk => by
      have hk := Finset.mem_range.1 hk
      rw [hD k hk, (hB k hk).2, Real.sqrt_sq (hB k hk).1, mul_comm])
  have e2 := midpoint_sum hx hcm hF
  rw [e1, ← sub_div, abs_div, abs_of_pos Real.pi_pos, div_le_iff₀ Real.pi_pos]
  refine e2.trans (le_of_eq ?_)
  have := Real.pi_pos.ne'
  field_simp

/-- C158 (second order): layers no thicker than `H`. -/
theorem C158_second_order {n2 dz : DA (Fl ℝ)} {n : Nat} {rest : List (String × Nat)}
    (g : StratInput n2 n rest) (hn : n ≠ 0) :
    ∃ r, calcWaveSpeed n2 dz = .ok r ∧
      ∀ e m N D (x c : Nat → ℝ) (F B b1 b2 : ℝ → ℝ) (M H : ℝ), IsPoint n2 e → StableColumn n2 dz e n m N D →
        (∀ k < m, x k ≤ x (k + 1)) → (∀ k < m, c k = (x k + x (k + 1)) / 2) → (∀ k < m, D k = x (k + 1) - x k) →
        (∀ k < m, 0 ≤ B (c k) ∧ N k = B (c k) ^ 2) → Smooth F B b1 b2 (x 0) (x m) M →
        (∀ k < m, x (k + 1) - x k ≤ H) →
        ∃ v, r.get e = fin v ∧ |v - (F (x m) - F (x 0)) / Real.pi| ≤ M * H ^ 2 * (x m - x 0) / (24 * Real.pi) := by
  obtain ⟨r, hr, hv⟩ := C158_error (dz := dz) g hn
  refine ⟨r, hr, fun e m N D x c F B b1 b2 M H he hc hx hcm hD hB hF hH => ?_⟩
  obtain ⟨v, v1, v2⟩ := hv e m N D x c F B b1 b2 M he hc hx hcm hD hB hF
  have lo : ∀ j ≤ m, x 0 ≤ x j := fun j => by
    induction j with
    | zero => intro _; exact le_rfl
    | succ j ih => intro hj; exact (ih (by omega)).trans (hx j (by omega))
  have hM : 0 ≤ M := (abs_nonneg _).trans (hF.bound (x 0) le_rfl (lo _ le_rfl))
  have e2 : ∑ k ∈ Finset.range m, (x (k + 1) - x k) ^ 3 ≤ H ^ 2 * (x m - x 0) := by
    rw [← Finset.sum_range_sub x m, Finset.mul_sum]
    refine Finset.sum_le_sum (fun k hk => ?_)
    have hk := Finset.mem_range.1 hk
    have q1 : 0 ≤ x (k + 1) - x k := sub_nonneg.2 (hx k hk)
    nlinarith [mul_le_mul (hH k hk) (hH k hk) q1 (q1.trans (hH k hk))]
  have := Real.pi_pos
  refine ⟨v, v1, v2.trans ((mul_le_mul_of_nonneg_left e2 (by positivity)).trans (le_of_eq ?_))⟩
  field_simp

/-- C158 (Rossby radius): at a point where the Coriolis parameter is `f ≠ 0`, the radius differs from
`(1/(π |f|)) ∫ B` by at most `M H²/(24 π |f|)` times the depth. -/
theorem C158_radius {n2 dz coriolis : DA (Fl ℝ)} {n : Nat} {rest : List (String × Nat)}
    (g : StratInput n2 n rest) (hn : n ≠ 0) :
    ∃ r, calcWaveSpeed n2 dz = .ok r ∧
      ∀ e m N D (x c : Nat → ℝ) (F B b1 b2 : ℝ → ℝ) (M H f : ℝ), IsPoint n2 e → StableColumn n2 dz e n m N D →
        (∀ k < m, x k ≤ x (k + 1)) → (∀ k < m, c k = (x k + x (k + 1)) / 2) → (∀ k < m, D k = x (k + 1) - x k) →
        (∀ k < m, 0 ≤ B (c k) ∧ N k = B (c k) ^ 2) → Smooth F B b1 b2 (x 0) (x m) M →
        (∀ k < m, x (k + 1) - x k ≤ H) → coriolis.get e = fin f → f ≠ 0 →
        ∃ R, (calcRossbyRd r coriolis).get e = fin R ∧
          |R - (F (x m) - F (x 0)) / (Real.pi * |f|)| ≤ M * H ^ 2 * (x m - x 0) / (24 * Real.pi * |f|) := by
  obtain ⟨r, hr, h⟩ := C158_second_order (dz := dz) g hn
  refine ⟨r, hr, fun e m N D x c F B b1 b2 M H f hp hs h1 h2 h3 h4 h5 h6 h7 h8 => ?_⟩
  obtain ⟨v, v1, v2⟩ := h e m N D x c F B b1 b2 M H hp hs h1 h2 h3 h4 h5 h6
  have hf : 0 < |f| := abs_pos.2 h8
  refine ⟨v / |f|, ?_, ?_⟩
  · show r.get e / (coriolis.get e).abs = _
    rw [v1, h7]
    exact fin_div_of_ne _ hf.ne'
  · rw [← div_div, ← sub_div, ← div_div (M * H ^ 2 * (x m - x 0)), abs_div, abs_abs]
    exact div_le_div_of_nonneg_right v2 hf.le

/-- Two layers of 100 m with `N = 1/100 - z/20000`, i.e. 0.0075 and 0.0025 per second at the levels: linear, hence exact. -/
noncomputable def decayN2 : DA (Fl ℝ) := ⟨[("z_l", 2)], fun e => if e "z_l" = 0 then fin (0.0075 ^ 2) else fin (0.0025 ^ 2)⟩

example : ∃ r, calcWaveSpeed decayN2 (DA.scalar (fin 100)) = .ok r ∧ r.get (fun _ => 0) = fin (1 / Real.pi) := by
  have g : StratInput decayN2 2 [] := ⟨rfl, by simp [decayN2, DA.dimNames], fun e _ => by
    simp only [decayN2]; split <;> exact Or.inr ⟨_, rfl⟩⟩
  obtain ⟨r, hr, h⟩ := C158_second_order (dz := DA.scalar (fin 100)) g (by norm_num)
  refine ⟨r, hr, ?_⟩
  have hp : IsPoint decayN2 (fun _ => 0) := by
    intro p hp h
    simp only [decayN2, List.mem_singleton] at hp
    subst hp
    exact absurd rfl h
  have hc : StableColumn decayN2 (DA.scalar (fin 100)) (fun _ => 0) 2 2
      (fun k => if k = 0 then 0.0075 ^ 2 else 0.0025 ^ 2) (fun _ => 100) := by
    refine ⟨by norm_num, le_rfl, fun k hk => ?_, fun k hk => ?_, fun k hk => rfl, fun k h1 h2 => by omega⟩
    · by_cases h : k = 0 <;> simp [decayN2, h]
    · by_cases h : k = 0 <;> simp [h] <;> norm_num
  obtain ⟨v, v1, v2⟩ := h (fun _ => 0) 2 _ _ (fun k => 100 * k) (fun k => 50 + 100 * k)
    (fun z => z / 100 - z ^ 2 / 40000) (fun z => 1 / 100 - z / 20000) (fun _ => -1 / 20000) (fun _ => 0) 0 100 hp hc
    (fun k _ => by push_cast; linarith) (fun k _ => by push_cast; ring) (fun k _ => by push_cast; ring)
    (fun k hk => by
      have : k = 0 ∨ k = 1 := by omega
      rcases this with rfl | rfl <;> norm_num)
    { d1 := fun t _ _ => (((hasDerivAt_id t).div_const 100).sub (((hasDerivAt_id t).pow 2).div_const 40000)).congr_deriv
        (by simp; ring)
      d2 := fun t _ _ => (((hasDerivAt_id t).div_const 20000).const_sub (1 / 100)).congr_deriv (by ring)
      d3 := fun t _ _ => hasDerivAt_const t _
      bound := fun t _ _ => by simp }
    (fun k _ => by push_cast; linarith)
  rw [v1]
  congr 1
  have : v - 1 / Real.pi = 0 := by
    rw [← abs_nonpos_iff]
    refine le_trans (le_of_eq ?_) (v2.trans (le_of_eq (by simp)))
    congr 2
    norm_num
  linarith

end Momlevel.Props
