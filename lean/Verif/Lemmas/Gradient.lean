import Verif.Model.Derived
import Verif.Spec.Gradient
import Verif.Lemmas.DA
import Mathlib.Tactic.NormNum.OfScientific
import Mathlib.Tactic.FieldSimp
import Mathlib.Tactic.Ring
import Mathlib.Tactic.Linarith
import Mathlib.Tactic.LinearCombination

/-! Helper lemmas about `np.gradient`. -/

set_option linter.unusedSectionVars false

namespace Momlevel
open Fl

variable {K : Type} [Field K] [LinearOrder K] [IsStrictOrderedRing K]

theorem npGradient_eq {n : Nat} (hn : 3 ≤ n) {x : Nat → K} (hx : Set.InjOn x (Set.Iio n))
    (f : Nat → K) {i : Nat} (hi : i < n) :
    npGradient n (fun k => fin (x k)) (fun k => fin (f k)) i = fin (Spec.derivAt n x f i) := by
  have ne : ∀ {a b}, a < n → b < n → a ≠ b → x a - x b ≠ 0 := fun ha hb hab h =>
    hab (hx ha hb (sub_eq_zero.1 h))
  have h2 : (2.0 : Fl K) = fin 2 := by rw [ofSci]; norm_num
  have h15 : (1.5 : Fl K) = fin (3 / 2) := by rw [ofSci]; norm_num
  have h05 : (0.5 : Fl K) = fin (1 / 2) := by rw [ofSci]; norm_num
  unfold npGradient
  simp only [fin_sub, eqv_fin, h2, h15, h05, fin_neg]
  by_cases hu : (List.range (n - 1)).all (fun k => decide (x (k + 1) - x k = x (0 + 1) - x 0)) = true
  · rw [if_pos hu]
    rw [List.all_eq_true] at hu
    have hd : ∀ k, k + 1 < n → x (k + 1) = x k + (x 1 - x 0) := by
      intro k hk
      have := hu k (List.mem_range.2 (by omega))
      simp only [decide_eq_true_eq] at this
      linear_combination this
    have h0 : x 1 - x 0 ≠ 0 := ne (by omega) (by omega) (by omega)
    set h := x 1 - x 0 with hh
    by_cases c0 : i = 0
    · subst c0
      rw [if_pos rfl]
      rw [fin_div_of_ne _ h0, fin_div_of_ne _ h0, fin_div_of_ne _ h0]
      simp only [fin_mul, fin_add, Spec.derivAt, Spec.stencil, if_true, Spec.parabolaDeriv, zero_add]
      congr 1
      have e1 : x 1 = x 0 + h := hd 0 (by omega)
      have e2 : x 2 = x 1 + h := hd 1 (by omega)
      have a1 : x 0 - x 1 = -h := by rw [e1]; ring
      have a2 : x 0 - x 2 = -(2 * h) := by rw [e2, e1]; ring
      have a3 : x 1 - x 2 = -h := by rw [e2]; ring
      have a4 : x 1 - x 0 = h := by rw [e1]; ring
      have a5 : x 2 - x 0 = 2 * h := by rw [e2, e1]; ring
      have a6 : x 2 - x 1 = h := by rw [e2]; ring
      rw [a1, a2, a3, a4, a5, a6]
      field_simp
      ring
    · rw [if_neg c0]
      by_cases c1 : i + 1 = n
      · rw [if_pos c1]
        rw [fin_div_of_ne _ h0, fin_div_of_ne _ h0, fin_div_of_ne _ h0]
        obtain ⟨m, rfl⟩ : ∃ m, n = m + 3 := ⟨n - 3, by omega⟩
        obtain rfl : i = m + 2 := by omega
        simp only [fin_mul, fin_add, Spec.derivAt, Spec.stencil, if_neg c0, if_true,
          Spec.parabolaDeriv, show m + 3 - 3 = m by omega, show m + 3 - 2 = m + 1 by omega,
          show m + 3 - 1 = m + 2 by omega]
        congr 1
        have e1 : x (m + 1) = x m + h := hd m (by omega)
        have e2 : x (m + 2) = x (m + 1) + h := hd (m + 1) (by omega)
        have a1 : x m - x (m + 1) = -h := by rw [e1]; ring
        have a2 : x m - x (m + 2) = -(2 * h) := by rw [e2, e1]; ring
        have a3 : x (m + 1) - x (m + 2) = -h := by rw [e2]; ring
        have a4 : x (m + 1) - x m = h := by rw [e1]; ring
        have a5 : x (m + 2) - x m = 2 * h := by rw [e2, e1]; ring
        have a6 : x (m + 2) - x (m + 1) = h := by rw [e2]; ring
        rw [a1, a2, a3, a4, a5, a6]
        field_simp
        ring
      · rw [if_neg c1]
        have h20 : (2 : K) * h ≠ 0 := mul_ne_zero two_ne_zero h0
        rw [fin_mul, fin_div_of_ne _ h20]
        obtain ⟨m, rfl⟩ : ∃ m, i = m + 1 := ⟨i - 1, by omega⟩
        simp only [Spec.derivAt, Spec.stencil, if_neg c0, if_neg c1, Spec.parabolaDeriv,
          show m + 1 - 1 = m by omega, show m + 1 + 1 = m + 2 by omega]
        congr 1
        have e1 : x (m + 1) = x m + h := hd m (by omega)
        have e2 : x (m + 2) = x (m + 1) + h := hd (m + 1) (by omega)
        have a1 : x m - x (m + 1) = -h := by rw [e1]; ring
        have a2 : x m - x (m + 2) = -(2 * h) := by rw [e2, e1]; ring
        have a3 : x (m + 1) - x (m + 2) = -h := by rw [e2]; ring
        have a4 : x (m + 1) - x m = h := by rw [e1]; ring
        have a5 : x (m + 2) - x m = 2 * h := by rw [e2, e1]; ring
        have a6 : x (m + 2) - x (m + 1) = h := by rw [e2]; ring
        rw [a1, a2, a3, a4, a5, a6]
        field_simp
        ring
  · rw [if_neg hu]
    -- three neighbouring nodes `m, m+1, m+2`
    have key : ∀ m, m + 2 < n →
        x (m + 1) - x m ≠ 0 ∧ x (m + 2) - x (m + 1) ≠ 0 ∧
        x (m + 1) - x m + (x (m + 2) - x (m + 1)) ≠ 0 := by
      intro m hm
      refine ⟨ne (by omega) (by omega) (by omega), ne (by omega) (by omega) (by omega), ?_⟩
      have := ne (a := m + 2) (b := m) (by omega) (by omega) (by omega)
      intro h; apply this; linear_combination h
    have par : ∀ (m : Nat) (p q : K), p = x (m + 1) - x m → q = x (m + 2) - x (m + 1) →
        x m - x (m + 1) = -p ∧ x m - x (m + 2) = -(p + q) ∧ x (m + 1) - x m = p ∧
        x (m + 1) - x (m + 2) = -q ∧ x (m + 2) - x m = p + q ∧ x (m + 2) - x (m + 1) = q := by
      intro m p q hp hq
      subst hp hq
      refine ⟨?_, ?_, ?_, ?_, ?_, ?_⟩ <;> ring
    by_cases c0 : i = 0
    · subst c0
      rw [if_pos rfl]
      obtain ⟨k1, k2, k3⟩ := key 0 (by omega)
      obtain ⟨a1, a2, a3, a4, a5, a6⟩ := par 0 _ _ rfl rfl
      simp only [zero_add] at *
      simp only [Spec.derivAt, Spec.stencil, if_true, Spec.parabolaDeriv, zero_add,
        a1, a2, a4, a5]
      generalize x 1 - x 0 = p at *
      generalize x 2 - x 1 = q at *
      simp only [fin_mul, fin_add, fin_neg, fin_div_of_ne _ (mul_ne_zero k1 k3),
        fin_div_of_ne _ (mul_ne_zero k1 k2), fin_div_of_ne _ (mul_ne_zero k2 k3)]
      congr 1
      field_simp
      ring
    · rw [if_neg c0]
      by_cases c1 : i + 1 = n
      · rw [if_pos c1]
        obtain ⟨m, rfl⟩ : ∃ m, n = m + 3 := ⟨n - 3, by omega⟩
        obtain rfl : i = m + 2 := by omega
        obtain ⟨k1, k2, k3⟩ := key m (by omega)
        obtain ⟨a1, a2, a3, a4, a5, a6⟩ := par m _ _ rfl rfl
        simp only [Spec.derivAt, Spec.stencil, if_neg c0, show m + 2 + 1 = m + 3 by omega, if_true,
          Spec.parabolaDeriv, show m + 3 - 3 = m by omega, show m + 3 - 2 = m + 1 by omega,
          show m + 3 - 1 = m + 2 by omega, show m + 1 + 1 = m + 2 by omega, a1, a2, a4, a5]
        generalize x (m + 1) - x m = p at *
        generalize x (m + 2) - x (m + 1) = q at *
        simp only [fin_mul, fin_add, fin_neg, fin_div_of_ne _ (mul_ne_zero k1 k3),
          fin_div_of_ne _ (mul_ne_zero k1 k2), fin_div_of_ne _ (mul_ne_zero k2 k3)]
        congr 1
        field_simp
        ring
      · rw [if_neg c1]
        obtain ⟨m, rfl⟩ : ∃ m, i = m + 1 := ⟨i - 1, by omega⟩
        obtain ⟨k1, k2, k3⟩ := key m (by omega)
        obtain ⟨a1, a2, a3, a4, a5, a6⟩ := par m _ _ rfl rfl
        simp only [Spec.derivAt, Spec.stencil, if_neg c0, if_neg c1, Spec.parabolaDeriv,
          show m + 1 - 1 = m by omega, show m + 1 + 1 = m + 2 by omega, a1, a2, a4, a5]
        generalize x (m + 1) - x m = p at *
        generalize x (m + 2) - x (m + 1) = q at *
        simp only [fin_mul, fin_add, fin_div_of_ne _ (mul_ne_zero k1 k3),
          fin_div_of_ne _ (mul_ne_zero k1 k2), fin_div_of_ne _ (mul_ne_zero k2 k3)]
        congr 1
        field_simp
        ring

/-- Only the values inside the array matter. -/
theorem npGradient_congr {n : Nat} (hn : 3 ≤ n) (x : Nat → Fl K) {f g : Nat → Fl K}
    (h : ∀ k < n, f k = g k) {i : Nat} (hi : i < n) : npGradient n x f i = npGradient n x g i := by
  unfold npGradient
  have h0 := h 0 (by omega)
  have h1 := h 1 (by omega)
  have h2 := h 2 (by omega)
  have m1 := h (n - 1) (by omega)
  have m2 := h (n - 2) (by omega)
  have m3 := h (n - 3) (by omega)
  have a0 := h i hi
  have a1 := h (i - 1) (by omega)
  simp only [h0, h1, h2, m1, m2, m3, a0, a1]
  by_cases c : i + 1 = n
  · simp only [if_pos c]
  · rw [h (i + 1) (by omega)]

/-- The discrete derivative is linear in the data. -/
theorem derivAt_linear (n : Nat) (x f g : Nat → K) (a b : K) (i : Nat) :
    Spec.derivAt n x (fun k => a * f k + b * g k) i
      = a * Spec.derivAt n x f i + b * Spec.derivAt n x g i := by
  unfold Spec.derivAt Spec.parabolaDeriv
  ring

theorem stencil_lt {n i : Nat} (hn : 3 ≤ n) (hi : i < n) : Spec.stencil n i + 2 < n := by
  unfold Spec.stencil; split
  · omega
  · split <;> omega

/-- Exact for quadratics. -/
theorem derivAt_quadratic {n : Nat} (hn : 3 ≤ n) {x : Nat → K} (hx : Set.InjOn x (Set.Iio n))
    {i : Nat} (hi : i < n) (a b c : K) :
    Spec.derivAt n x (fun k => a + b * x k + c * x k ^ 2) i = b + 2 * c * x i := by
  have hs := stencil_lt hn hi
  have ne : ∀ {a b}, a < n → b < n → a ≠ b → x a - x b ≠ 0 := fun ha hb hab h =>
    hab (hx ha hb (sub_eq_zero.1 h))
  unfold Spec.derivAt Spec.parabolaDeriv
  set s := Spec.stencil n i
  have n1 := ne (a := s) (b := s + 1) (by omega) (by omega) (by omega)
  have n2 := ne (a := s) (b := s + 2) (by omega) (by omega) (by omega)
  have n3 := ne (a := s + 1) (b := s) (by omega) (by omega) (by omega)
  have n4 := ne (a := s + 1) (b := s + 2) (by omega) (by omega) (by omega)
  have n5 := ne (a := s + 2) (b := s) (by omega) (by omega) (by omega)
  have n6 := ne (a := s + 2) (b := s + 1) (by omega) (by omega) (by omega)
  simp only []
  generalize x s = p at *
  generalize x (s + 1) = q at *
  generalize x (s + 2) = r at *
  have e1 : q - p = -(p - q) := by ring
  have e2 : r - p = -(p - r) := by ring
  have e3 : r - q = -(q - r) := by ring
  rw [e1, e2, e3]
  field_simp
  ring

theorem derivAt_const {n : Nat} (hn : 3 ≤ n) {x : Nat → K} (hx : Set.InjOn x (Set.Iio n))
    {i : Nat} (hi : i < n) (a : K) : Spec.derivAt n x (fun _ => a) i = 0 := by
  have := derivAt_quadratic hn hx hi a 0 0
  simpa using this

end Momlevel
