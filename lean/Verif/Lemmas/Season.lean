import Verif.Spec.Season
import Mathlib.Tactic.Ring
import Mathlib.Tactic.LinearCombination
import Mathlib.Tactic.Linarith
import Mathlib.Algebra.BigOperators.Ring.Finset
import Mathlib.Algebra.BigOperators.Fin
import Mathlib.Algebra.Order.BigOperators.Ring.Finset

/-! Facts about the least-squares fit of the seasonal regressors. -/

set_option linter.unusedSectionVars false

namespace Momlevel
open Matrix

theorem npDot_fin {n : Nat} (f : Fin n → ℝ) : npDot (fun k => Fl.fin (f k)) = .fin (∑ k, f k) := by
  unfold npDot
  induction n with
  | zero => simp
  | succ n ih =>
    rw [List.ofFn_succ, List.foldr_cons, ih (fun k => f k.succ), Fl.fin_add, Fin.sum_univ_succ]

theorem foldr_nan {l : List (Fl ℝ)} (h : Fl.nan ∈ l) : l.foldr (· + ·) (.fin 0) = Fl.nan := by
  induction l with
  | nil => simp at h
  | cons a l ih =>
    rw [List.foldr_cons]
    rcases List.mem_cons.1 h with h | h
    · rw [← h]; exact Fl.nan_add _
    · rw [ih h]; exact Fl.add_nan _

theorem npDot_nan {n : Nat} {f : Fin n → Fl ℝ} {k : Fin n} (h : f k = .nan) : npDot f = .nan := by
  unfold npDot
  apply foldr_nan
  rw [List.mem_ofFn]
  exact ⟨k, h⟩

theorem seasonDesign_eq {n : Nat} (t : Fin n → ℝ) (j : Fin 6) (k : Fin n) :
    seasonDesign t j k = Spec.regressor t k j := by
  unfold seasonDesign
  rw [Matrix.of_apply]
  fin_cases j <;> rfl

/-- The fit of a finite series. -/
noncomputable def realModel {n : Nat} (t y : Fin n → ℝ) : Fin n → ℝ :=
  (y ᵥ* pinv (seasonDesign t)) ᵥ* seasonDesign t

/-- The coefficients of a finite series. -/
noncomputable def realCoeff {n : Nat} (t y : Fin n → ℝ) : Fin 6 → ℝ := y ᵥ* pinv (seasonDesign t)

theorem fit_coeff {n : Nat} (t y : Fin n → ℝ) (j : Fin 6) :
    (seasonalFit t (fun k => .fin (y k))).coeff j = .fin (realCoeff t y j) := by
  change npDot (fun k => Fl.fin (y k) * Fl.fin (pinv (seasonDesign t) k j)) = _
  simp only [Fl.fin_mul]
  rw [npDot_fin (fun k => y k * pinv (seasonDesign t) k j)]
  rfl

theorem fit_smodel {n : Nat} (t y : Fin n → ℝ) (k : Fin n) :
    (seasonalFit t (fun k => .fin (y k))).smodel k = .fin (realModel t y k) := by
  change npDot (fun r => (seasonalFit t (fun k => .fin (y k))).coeff r *
    Fl.fin (seasonDesign t r k)) = _
  simp only [fit_coeff, Fl.fin_mul]
  rw [npDot_fin (fun r => realCoeff t y r * seasonDesign t r k)]
  rfl

theorem fit_residuals {n : Nat} (t y : Fin n → ℝ) (k : Fin n) :
    (seasonalFit t (fun k => .fin (y k))).residuals k = .fin (y k - realModel t y k) := by
  change Fl.fin (y k) - (seasonalFit t (fun k => .fin (y k))).smodel k = _
  rw [fit_smodel, Fl.fin_sub]

theorem realModel_sum {n : Nat} (t y : Fin n → ℝ) (k : Fin n) :
    realModel t y k = ∑ j, realCoeff t y j * Spec.regressor t k j := by
  simp only [← seasonDesign_eq]
  rfl

theorem isFit_real {n : Nat} (t y : Fin n → ℝ) : Spec.IsFit t y (realModel t y) := by
  refine ⟨⟨realCoeff t y, realModel_sum t y⟩, fun j => ?_⟩
  have hp := pinv_spec (seasonDesign t)
  have hz : seasonDesign t *ᵥ (y - realModel t y) = 0 := by
    unfold realModel
    rw [Matrix.vecMul_vecMul, Matrix.mulVec_sub]
    rw [← Matrix.mulVec_transpose, hp.right_symm, Matrix.mulVec_mulVec, ← Matrix.mul_assoc,
      hp.mul_mul, sub_self]
  have := congrFun hz j
  rw [Matrix.mulVec, dotProduct] at this
  simp only [Pi.sub_apply, Pi.zero_apply, seasonDesign_eq] at this
  rw [← this]
  exact Finset.sum_congr rfl (fun k _ => mul_comm _ _)

/-- The difference of two fits of `y` is orthogonal to all combinations. -/
theorem orth_comb {n : Nat} {t y m : Fin n → ℝ} (h : Spec.IsFit t y m) (c : Fin 6 → ℝ) :
    ∑ k, (y k - m k) * (∑ j, c j * Spec.regressor t k j) = 0 := by
  have : ∀ k, (y k - m k) * (∑ j, c j * Spec.regressor t k j) =
      ∑ j, c j * ((y k - m k) * Spec.regressor t k j) := by
    intro k
    rw [Finset.mul_sum]
    exact Finset.sum_congr rfl (fun j _ => by ring)
  simp only [this]
  rw [Finset.sum_comm]
  apply Finset.sum_eq_zero
  intro j _
  rw [← Finset.mul_sum, h.orthogonal j, mul_zero]

theorem isFit_split {n : Nat} {t y m : Fin n → ℝ} (h : Spec.IsFit t y m) (c : Fin 6 → ℝ) :
    Spec.squares y (fun k => ∑ j, c j * Spec.regressor t k j) =
      Spec.squares y m + Spec.squares m (fun k => ∑ j, c j * Spec.regressor t k j) := by
  obtain ⟨d, hd⟩ := h.combination
  have h1 := orth_comb h (fun j => d j - c j)
  have h2 : ∀ k, ∑ j, (d j - c j) * Spec.regressor t k j =
      m k - ∑ j, c j * Spec.regressor t k j := by
    intro k
    rw [hd k, ← Finset.sum_sub_distrib]
    exact Finset.sum_congr rfl (fun j _ => by ring)
  simp only [h2] at h1
  unfold Spec.squares
  rw [← Finset.sum_add_distrib]
  have h3 : ∑ k, 2 * ((y k - m k) * (m k - ∑ j, c j * Spec.regressor t k j)) = 0 := by
    rw [← Finset.mul_sum, h1, mul_zero]
  refine Eq.trans ?_ (add_zero _)
  rw [← h3, ← Finset.sum_add_distrib]
  exact Finset.sum_congr rfl (fun k _ => by ring)

theorem squares_nonneg {n : Nat} (y m : Fin n → ℝ) : 0 ≤ Spec.squares y m :=
  Finset.sum_nonneg (fun _ _ => sq_nonneg _)

theorem squares_eq_zero {n : Nat} {y m : Fin n → ℝ} (h : Spec.squares y m = 0) : y = m := by
  funext k
  have := (Finset.sum_eq_zero_iff_of_nonneg (fun k _ => sq_nonneg (y k - m k))).1 h k
    (Finset.mem_univ k)
  have := pow_eq_zero_iff (two_ne_zero) |>.1 this
  linarith

theorem isFit_unique {n : Nat} {t y m m' : Fin n → ℝ} (h : Spec.IsFit t y m)
    (h' : Spec.IsFit t y m') : m = m' := by
  obtain ⟨c, hc⟩ := h.combination
  obtain ⟨c', hc'⟩ := h'.combination
  have e1 := isFit_split h c'
  have e2 := isFit_split h' c
  rw [← (funext hc : m = _)] at e2
  rw [← (funext hc' : m' = _)] at e1
  have n1 := squares_nonneg m m'
  have n2 := squares_nonneg m' m
  exact squares_eq_zero (by linarith)

theorem realModel_eq {n : Nat} {t y m : Fin n → ℝ} (h : Spec.IsFit t y m) : realModel t y = m :=
  isFit_unique (isFit_real t y) h

theorem fit_nan {n : Nat} (t : Fin n → ℝ) {ts : Fin n → Fl ℝ} {i : Fin n} (h : ts i = .nan) :
    (∀ j, (seasonalFit t ts).coeff j = .nan) ∧ (∀ k, (seasonalFit t ts).smodel k = .nan) ∧
      ∀ k, (seasonalFit t ts).residuals k = .nan := by
  have h1 : ∀ j, (seasonalFit t ts).coeff j = .nan := fun j => by
    change npDot (fun k => ts k * Fl.fin (pinv (seasonDesign t) k j)) = _
    apply npDot_nan (k := i)
    rw [h]; exact Fl.nan_mul _
  have h2 : ∀ k, (seasonalFit t ts).smodel k = .nan := fun k => by
    change npDot (fun r => (seasonalFit t ts).coeff r * Fl.fin (seasonDesign t r k)) = _
    apply npDot_nan (k := 0)
    rw [h1]; exact Fl.nan_mul _
  refine ⟨h1, h2, fun k => ?_⟩
  change ts k - (seasonalFit t ts).smodel k = _
  rw [h2]; exact Fl.sub_nan _

/-! ### Time axes -/

theorem range_map_sum (n : Nat) (f : Nat → Nat) :
    ((List.range n).map f).sum = ∑ i ∈ Finset.range n, f i := Fl.sum_map_range n f

end Momlevel
