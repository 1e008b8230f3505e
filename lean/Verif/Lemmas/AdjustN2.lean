import Verif.Model.AdjustN2
import Verif.Spec.Column
import Verif.Lemmas.DA
import Mathlib.Tactic.Linarith
import Mathlib.Tactic.NormNum
import Mathlib.Tactic.NormNum.OfScientific

/-! Helper lemmas about `adjust_negative_n2`. -/

set_option linter.unusedSectionVars false

namespace Momlevel
open Fl

variable {K : Type} [Field K] [LinearOrder K] [IsStrictOrderedRing K]

theorem ffillAt_spec (a : Nat → Fl K) (k : Nat) :
    (∃ j ≤ k, a j ≠ nan ∧ ffillAt a k = a j ∧ ∀ i, j < i → i ≤ k → a i = nan)
    ∨ (ffillAt a k = nan ∧ ∀ j ≤ k, a j = nan) := by
  induction k with
  | zero =>
    by_cases h : a 0 = nan
    · right; exact ⟨h, fun j hj => by have : j = 0 := by omega
                                      rw [this, h]⟩
    · left; exact ⟨0, le_rfl, h, rfl, fun i h1 h2 => by omega⟩
  | succ k ih =>
    unfold ffillAt
    by_cases h : a (k + 1) = nan
    · rw [if_pos (by rw [h]; rfl)]
      rcases ih with ⟨j, h1, h2, h3, h4⟩ | ⟨h1, h2⟩
      · left
        refine ⟨j, by omega, h2, h3, fun i hi1 hi2 => ?_⟩
        rcases Nat.lt_or_ge k i with h5 | h5
        · have : i = k + 1 := by omega
          rw [this, h]
        · exact h4 i hi1 h5
      · right
        refine ⟨h1, fun j hj => ?_⟩
        rcases Nat.lt_or_ge k j with h5 | h5
        · have : j = k + 1 := by omega
          rw [this, h]
        · exact h2 j h5
    · rw [if_neg (by rw [isnull_iff]; exact h)]
      left
      exact ⟨k + 1, le_rfl, h, rfl, fun i h1 h2 => by omega⟩

/-- The value after masking non-positive values. -/
def pos1 (v : Fl K) : Fl K := sel (Fl.le v (0.0 : Fl K)) nan v

theorem pos1_fin (x : K) : pos1 (fin x) = if 0 < x then fin x else nan := by
  have h0 : (0.0 : Fl K) = fin 0 := by rw [ofSci]; norm_num
  unfold pos1
  rw [h0, le_fin]
  by_cases h : x ≤ 0
  · simp [h, not_lt.2 h]
  · simp [h, not_le.1 h]

theorem pos1_nan : pos1 (nan : Fl K) = nan := by
  unfold pos1; simp

theorem pos1_ne_nan {v : Fl K} (h : FN v) : pos1 v ≠ nan ↔ Spec.Positive v := by
  rcases h with rfl | ⟨x, rfl⟩
  · rw [pos1_nan]; simp [Spec.Positive]
  · rw [pos1_fin]
    by_cases hx : 0 < x
    · simp only [hx, if_true, Spec.Positive]; simp [hx]
    · simp only [hx, if_false, Spec.Positive]; simp [hx]

theorem pos1_of_positive {v : Fl K} (h : Spec.Positive v) : pos1 v = v := by
  obtain ⟨y, hy, rfl⟩ := h
  rw [pos1_fin, if_pos hy]

theorem one_mask (v : Fl K) (h : FN v) (w : K) :
    fin w * sel (isnull v) nan (1.0 : Fl K) = if v = nan then nan else fin w := by
  have h1 : (1.0 : Fl K) = fin 1 := by rw [ofSci]; norm_num
  rcases h with rfl | ⟨x, rfl⟩
  · simp
  · simp [h1]

/-- Evaluation of `adjust_negative_n2`: the column of prepared values `A`, forward filled and
masked. -/
theorem adjust_eval {n2 : DA (Fl K)} {z d0 : String} {n0 : Nat} {rest : List (String × Nat)}
    (hd : n2.dims = (d0, n0) :: rest) (hn0 : n0 ≠ 0) (hz : z ∈ n2.dimNames) :
    ∃ r, adjustNegativeN2 n2 z = .ok r ∧ r.dims = n2.dims ∧ ∀ e,
      r.get e = ffillAt (fun k =>
          let e' := Function.update e z k
          if e' d0 = 0 then fillna (1.0e-8 : Fl K) (pos1 (n2.get e')) else pos1 (n2.get e')) (e z)
        * sel (isnull (n2.get e)) nan (1.0 : Fl K) := by
  have hff : fillFirst (n2.map (fun v => Fl.sel (Fl.le v (0.0 : Fl K)) .nan v)) (1.0e-8 : Fl K)
      = .ok ⟨n2.dims, fun e => if e d0 = 0 then fillna (1.0e-8 : Fl K) (pos1 (n2.get e))
          else pos1 (n2.get e)⟩ := by
    unfold fillFirst
    simp only [DA.dims_map, hd, if_neg hn0]
    rfl
  have hz2 : z ∈ (⟨n2.dims, fun e => if e d0 = 0 then fillna (1.0e-8 : Fl K) (pos1 (n2.get e))
          else pos1 (n2.get e)⟩ : DA (Fl K)).dimNames := hz
  refine ⟨_, by
    simp only [adjustNegativeN2, hff, ok_bind, ffill, if_pos hz2]; rfl, ?_, fun e => rfl⟩
  rw [DA.dims_mul]
  apply DA.bdims_eq_left
  intro p hp; exact hp

end Momlevel
