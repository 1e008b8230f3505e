import Verif.Lemmas.Rounding
import Mathlib.Analysis.SpecialFunctions.Log.Basic

/-!
# Relative errors of positive numbers
-/

set_option linter.unusedSectionVars false

namespace Momlevel
open Spec

/-- `y` differs from the positive number `x` by a factor between `exp (-e)` and `exp e`. -/
structure Near (e x y : ℝ) : Prop where
  pos : 0 < x
  lo : x * Real.exp (-e) ≤ y
  hi : y ≤ x * Real.exp e

namespace Near
variable {e e' x y x' y' : ℝ}

theorem pos' (h : Near e x y) : 0 < y := lt_of_lt_of_le (mul_pos h.pos (Real.exp_pos _)) h.lo

theorem refl (hx : 0 < x) : Near 0 x x := ⟨hx, by simp, by simp⟩

theorem mono (h : Near e x y) (he : e ≤ e') : Near e' x y :=
  ⟨h.pos, (mul_le_mul_of_nonneg_left (Real.exp_le_exp.2 (by linarith)) h.pos.le).trans h.lo,
    h.hi.trans (mul_le_mul_of_nonneg_left (Real.exp_le_exp.2 he) h.pos.le)⟩

theorem trans {z : ℝ} (h : Near e x y) (h' : Near e' y z) : Near (e + e') x z := by
  refine ⟨h.pos, ?_, ?_⟩
  · rw [neg_add, Real.exp_add, ← mul_assoc]
    exact (mul_le_mul_of_nonneg_right h.lo (Real.exp_pos _).le).trans h'.lo
  · rw [Real.exp_add, ← mul_assoc]
    exact h'.hi.trans (mul_le_mul_of_nonneg_right h.hi (Real.exp_pos _).le)

theorem mul (h : Near e x y) (h' : Near e' x' y') : Near (e + e') (x * x') (y * y') := by
  refine ⟨mul_pos h.pos h'.pos, ?_, ?_⟩
  · rw [neg_add, Real.exp_add]
    calc x * x' * (Real.exp (-e) * Real.exp (-e')) = (x * Real.exp (-e)) * (x' * Real.exp (-e')) := by ring
      _ ≤ y * y' := mul_le_mul h.lo h'.lo (mul_pos h'.pos (Real.exp_pos _)).le h.pos'.le
  · rw [Real.exp_add]
    calc y * y' ≤ (x * Real.exp e) * (x' * Real.exp e') :=
          mul_le_mul h.hi h'.hi h'.pos'.le (mul_pos h.pos (Real.exp_pos _)).le
      _ = x * x' * (Real.exp e * Real.exp e') := by ring

theorem inv (h : Near e x y) : Near e x⁻¹ y⁻¹ := by
  refine ⟨inv_pos.2 h.pos, ?_, ?_⟩
  · rw [Real.exp_neg, ← mul_inv]
    exact inv_anti₀ h.pos' h.hi
  · have := inv_anti₀ (mul_pos h.pos (Real.exp_pos (-e))) h.lo
    rwa [mul_inv, Real.exp_neg, inv_inv] at this

theorem div (h : Near e x y) (h' : Near e' x' y') : Near (e + e') (x / x') (y / y') := by
  rw [div_eq_mul_inv, div_eq_mul_inv]
  exact h.mul h'.inv

theorem add (h : Near e x y) (h' : Near e x' y') : Near e (x + x') (y + y') := by
  refine ⟨add_pos h.pos h'.pos, ?_, ?_⟩
  · rw [add_mul]; exact add_le_add h.lo h'.lo
  · rw [add_mul]; exact add_le_add h.hi h'.hi

theorem log (h : Near e x y) : |Real.log y - Real.log x| ≤ e := by
  have h1 := Real.log_le_log (mul_pos h.pos (Real.exp_pos _)) h.lo
  have h2 := Real.log_le_log h.pos' h.hi
  rw [Real.log_mul h.pos.ne' (Real.exp_pos _).ne', Real.log_exp] at h1 h2
  rw [abs_le]
  constructor <;> linarith

theorem half (h : Near e x y) (he : e ≤ 1 / 2) : x / 2 ≤ y := by
  have h1 := Real.add_one_le_exp (-e)
  have h2 := h.lo
  have h3 : x * (1 / 2) ≤ x * Real.exp (-e) := mul_le_mul_of_nonneg_left (by linarith) h.pos.le
  linarith

/-- The absolute error. -/
theorem error (h : Near e x y) (he0 : 0 ≤ e) (he : e ≤ 1 / 100) : |y - x| ≤ 1.02 * e * x := by
  have h1 := Real.add_one_le_exp (-e)
  have h2 : Real.exp e ≤ 1 + 1.02 * e := by
    have h3 : Real.exp e * Real.exp (-e) = 1 := by rw [← Real.exp_add]; simp
    have h4 : Real.exp e * (1 - e) ≤ 1 := by
      rw [← h3]; exact mul_le_mul_of_nonneg_left (by linarith) (Real.exp_pos _).le
    have h5 : (1 : ℝ) ≤ (1 + 1.02 * e) * (1 - e) := by nlinarith
    have h6 : 0 < 1 - e := by linarith
    exact le_of_mul_le_mul_right (h4.trans h5) h6
  have h7 := h.lo
  have h8 := h.hi
  have h9 := mul_le_mul_of_nonneg_left h2 h.pos.le
  have h10 : x * (1 - e) ≤ x * Real.exp (-e) := mul_le_mul_of_nonneg_left (by linarith) h.pos.le
  have h11 : 0 ≤ e * x := mul_nonneg he0 h.pos.le
  rw [abs_le]
  constructor <;> nlinarith

theorem of_abs {δ : ℝ} (hx : 0 < x) (hδ : 0 ≤ δ) (hδ1 : δ ≤ 1 / 1000) (h : |y - x| ≤ δ * x) :
    Near (1.01 * δ) x y := by
  obtain ⟨h1, h2⟩ := abs_le.1 h
  refine ⟨hx, ?_, ?_⟩
  · have h3 : Real.exp (-(1.01 * δ)) ≤ 1 - δ := by
      rw [Real.exp_neg]
      have h4 := Real.add_one_le_exp (1.01 * δ)
      have h5 : (1 : ℝ) ≤ (1 - δ) * (1.01 * δ + 1) := by nlinarith
      have h6 : (1 : ℝ) ≤ (1 - δ) * Real.exp (1.01 * δ) :=
        h5.trans (mul_le_mul_of_nonneg_left h4 (by linarith))
      rw [inv_le_iff_one_le_mul₀ (Real.exp_pos _)]
      exact h6
    have := mul_le_mul_of_nonneg_left h3 hx.le
    linarith
  · have h4 := Real.add_one_le_exp (1.01 * δ)
    have := mul_le_mul_of_nonneg_left h4 hx.le
    nlinarith

variable {u w : ℝ} {ρ : ℝ → ℝ}

/-- Rounding a positive number that is not tiny. -/
theorem round (hρ : Rounds u w ρ) (hu : 0 ≤ u) (hU : u ≤ 1 / 10 ^ 6) (h : Near e x y) (he : e ≤ 1 / 2)
    (hw : 2 * w ≤ x) : Near (e + 1.01 * u) x (ρ y) := by
  refine h.trans (of_abs h.pos' hu (hU.trans (by norm_num)) ?_)
  have h1 := hρ y
  rw [abs_of_pos h.pos'] at h1
  have h2 := h.half he
  rwa [max_eq_left (by linarith)] at h1

/-- A sum of positive numbers in any order. -/
theorem sum (hρ : Rounds u w ρ) (hu : 0 ≤ u) (hU : u ≤ 1 / 10 ^ 6) {β : Type*} (f : β → ℝ) (f' : β → Rd ρ)
    (t : SumTree β) (h : ∀ b ∈ t.leaves, Near e (f b) (f' b).val) (hw : ∀ b ∈ t.leaves, 2 * w ≤ f b)
    (he : e + 1.01 * u * t.depth ≤ 1 / 2) :
    Near (e + 1.01 * u * t.depth) (t.sum f) (t.sum f').val ∧ 2 * w ≤ t.sum f := by
  induction t with
  | leaf b =>
    simp only [SumTree.leaves, List.mem_singleton, forall_eq] at h hw
    simp only [SumTree.depth, Nat.cast_zero, mul_zero, add_zero]
    exact ⟨h, hw⟩
  | node l r ihl ihr =>
    simp only [SumTree.leaves, List.mem_append] at h hw
    simp only [SumTree.depth, Nat.cast_add, Nat.cast_one] at he ⊢
    have hl : (l.depth : ℝ) ≤ (max l.depth r.depth : ℕ) := by exact_mod_cast le_max_left _ _
    have hr : (r.depth : ℝ) ≤ (max l.depth r.depth : ℕ) := by exact_mod_cast le_max_right _ _
    have ml : e + 1.01 * u * l.depth ≤ e + 1.01 * u * (max l.depth r.depth : ℕ) := by nlinarith
    have mr : e + 1.01 * u * r.depth ≤ e + 1.01 * u * (max l.depth r.depth : ℕ) := by nlinarith
    have m1 : e + 1.01 * u * (max l.depth r.depth : ℕ) ≤ 1 / 2 := by nlinarith
    obtain ⟨a1, a2⟩ := ihl (fun b hb => h b (Or.inl hb)) (fun b hb => hw b (Or.inl hb)) (ml.trans m1)
    obtain ⟨b1, b2⟩ := ihr (fun b hb => h b (Or.inr hb)) (fun b hb => hw b (Or.inr hb)) (mr.trans m1)
    have hw2 : 2 * w ≤ l.sum f + r.sum f := by have := b1.pos; linarith
    refine ⟨?_, hw2⟩
    have := ((a1.mono ml).add (b1.mono mr)).round hρ hu hU m1 hw2
    refine this.mono (le_of_eq ?_)
    ring

end Near

end Momlevel
