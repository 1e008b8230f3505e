import Verif.Model.N2Interfaces
import Verif.Lemmas.Gradient
import Verif.Lemmas.DA

/-! # Linear interpolation (lemmas) -/

set_option linter.unusedSectionVars false

namespace Momlevel
open Fl

variable {K : Type} [Field K] [LinearOrder K] [IsStrictOrderedRing K]

/-- The number of elements of an initial segment. -/
theorem count_range (n c : Nat) (p : Nat → Bool) (hc : c ≤ n) (h1 : ∀ k < c, p k = true)
    (h2 : ∀ k, c ≤ k → k < n → p k = false) : ((List.range n).filter p).length = c := by
  have : (List.range n).filter p = List.range c := by
    have e : List.range n = List.range c ++ (List.range (n - c)).map (c + ·) := by
      rw [← List.range_add]; congr 1; omega
    rw [e, List.filter_append, List.filter_eq_self.2, List.filter_eq_nil_iff.2, List.append_nil]
    · intro a ha
      simp only [List.mem_map, List.mem_range] at ha
      obtain ⟨b, hb, rfl⟩ := ha
      rw [h2 _ (by omega) (by omega)]; simp
    · intro a ha
      exact h1 a (List.mem_range.1 ha)
  rw [this, List.length_range]

theorem interp_inside {n : Nat} {x f : Nat → K} (hx : ∀ a b, a < b → b < n → x a < x b) {w y : K}
    (h : Spec.InterpAt n x f w y) :
    interpMasked n (fun k => fin (x k)) (fun k => fin (f k)) (fin w) = fin y := by
  obtain ⟨k, hk, h1, h2, rfl⟩ := h
  have mono : ∀ a b, a ≤ b → b < n → x a ≤ x b := fun a b hab hb => by
    rcases hab.lt_or_eq with h | rfl
    · exact (hx a b h hb).le
    · exact le_rfl
  have m0 : Fl.lt (fin w) (fin (x 0)) = false := by
    simp only [Fl.lt, decide_eq_false_iff_not, not_lt]
    exact (mono 0 k (by omega) (by omega)).trans h1
  have mn : Fl.lt (fin (x (n - 1))) (fin w) = false := by
    simp only [Fl.lt, decide_eq_false_iff_not, not_lt]
    exact h2.trans (mono (k + 1) (n - 1) (by omega) (by omega))
  simp only [interpMasked, m0, mn, Bool.or_self, Fl.sel, Bool.false_eq_true, if_false]
  have hd : x (k + 1) - x k ≠ 0 := (sub_pos.2 (hx k (k + 1) (by omega) hk)).ne'
  rcases h2.lt_or_eq with hlt | heq
  · have hc : ((List.range n).filter (fun i => Fl.le (fin (x i)) (fin w))).length = k + 1 := by
      refine count_range n (k + 1) _ (by omega) (fun i hi => ?_) (fun i hi hin => ?_)
      · simp only [Fl.le, decide_eq_true_eq]
        exact (mono i k (by omega) (by omega)).trans h1
      · simp only [Fl.le, decide_eq_false_iff_not, not_le]
        exact hlt.trans_le (mono (k + 1) i hi hin)
    have hn : k + 1 ≠ n := by omega
    simp only [npInterp, Fl.isnull_fin, Bool.false_eq_true, hc, Nat.add_eq_zero_iff, one_ne_zero, and_false, if_false, hn,
      Nat.add_sub_cancel, Fl.eqv, decide_eq_true_eq]
    split_ifs with he
    · rw [he]; congr 1; rw [← he]; field_simp; ring
    · simp only [fin_sub, fin_div_of_ne _ hd, fin_mul, fin_add, Fl.isnull_fin, Fl.sel,
        Bool.false_eq_true, if_false, Bool.false_and]
      congr 1
      field_simp
      ring
  · have hc : ((List.range n).filter (fun i => Fl.le (fin (x i)) (fin w))).length = k + 2 := by
      refine count_range n (k + 2) _ (by omega) (fun i hi => ?_) (fun i hi hin => ?_)
      · simp only [Fl.le, decide_eq_true_eq]
        rw [heq]; exact mono i (k + 1) (by omega) (by omega)
      · simp only [Fl.le, decide_eq_false_iff_not, not_le]
        rw [heq]; exact hx (k + 1) i (by omega) hin
    have key : (fin (f (k + 1)) : Fl K)
        = fin (((x (k + 1) - w) * f k + (w - x k) * f (k + 1)) / (x (k + 1) - x k)) := by
      rw [heq]; congr 1; field_simp; ring
    simp only [npInterp, Fl.isnull_fin, Bool.false_eq_true, if_false, hc]
    rw [if_neg (by omega)]
    by_cases hn : k + 2 = n
    · rw [if_pos hn, ← hn, ← key]
      rfl
    · rw [if_neg hn]
      have : k + 2 - 1 = k + 1 := by omega
      simp only [this, Fl.eqv, heq, decide_true, if_true]
      rw [key, heq]

theorem interp_outside {n : Nat} (x : Nat → K) (f : Nat → Fl K) {w : K}
    (h : w < x 0 ∨ x (n - 1) < w) : interpMasked n (fun k => fin (x k)) f (fin w) = nan := by
  have : (Fl.lt (fin w) (fin (x 0)) || Fl.lt (fin (x (n - 1))) (fin w)) = true := by
    simpa [Fl.lt] using h
  simp only [interpMasked, this, Fl.sel, if_true]

theorem interpMasked_congr {n : Nat} (hn : 0 < n) (x : Nat → Fl K) {f g : Nat → Fl K}
    (h : ∀ k < n, f k = g k) (w : Fl K) : interpMasked n x f w = interpMasked n x g w := by
  have hc : ((List.range n).filter (fun k => Fl.le (x k) w)).length ≤ n := by
    refine (List.length_filter_le _ _).trans ?_
    simp
  simp only [interpMasked, npInterp]
  generalize ((List.range n).filter (fun k => Fl.le (x k) w)).length = c at hc ⊢
  by_cases h0 : c = 0
  · simp only [h0, if_true, h 0 hn]
  · by_cases h1 : c = n
    · simp only [if_neg h0, if_pos h1, h (n - 1) (by omega)]
    · simp only [if_neg h0, if_neg h1, h (c - 1) (by omega), h (c - 1 + 1) (by omega)]

/-- A missing value among the three that are used makes the discrete derivative missing; the middle
one of an interior stencil is not used on a uniform grid. -/
theorem npGradient_nan {n : Nat} (hn : 3 ≤ n) (x : Nat → Fl K) {f : Nat → Fl K} {i j : Nat}
    (hi : i < n) (hj : Spec.stencil n i ≤ j ∧ j ≤ Spec.stencil n i + 2)
    (hij : j ≠ i ∨ i = 0 ∨ i + 1 = n) (hf : f j = nan) : npGradient n x f i = nan := by
  unfold Spec.stencil at hj
  unfold npGradient
  by_cases h0 : i = 0
  · simp only [h0, if_true] at hj ⊢
    obtain rfl | rfl | rfl : j = 0 ∨ j = 1 ∨ j = 2 := by omega
    all_goals simp [hf]
  · simp only [if_neg h0] at hj ⊢
    by_cases h1 : i + 1 = n
    · simp only [if_pos h1] at hj ⊢
      obtain rfl | rfl | rfl : j = n - 3 ∨ j = n - 2 ∨ j = n - 1 := by omega
      all_goals simp [hf]
    · simp only [if_neg h1] at hj ⊢
      obtain rfl | rfl : j = i - 1 ∨ j = i + 1 := by omega
      all_goals simp [hf]

/-- Only the three values of the stencil matter. -/
theorem npGradient_local {n : Nat} (hn : 3 ≤ n) (x : Nat → Fl K) {f g : Nat → Fl K} {i : Nat}
    (h : ∀ k, Spec.stencil n i ≤ k → k ≤ Spec.stencil n i + 2 → f k = g k) :
    npGradient n x f i = npGradient n x g i := by
  unfold Spec.stencil at h
  unfold npGradient
  by_cases h0 : i = 0
  · simp only [h0, if_true] at h ⊢
    simp only [h 0 (by omega) (by omega), h 1 (by omega) (by omega), h 2 (by omega) (by omega)]
  · simp only [if_neg h0] at h ⊢
    by_cases h1 : i + 1 = n
    · simp only [if_pos h1] at h ⊢
      simp only [h (n - 3) (by omega) (by omega), h (n - 2) (by omega) (by omega),
        h (n - 1) (by omega) (by omega)]
    · simp only [if_neg h1] at h ⊢
      simp only [h (i - 1) (by omega) (by omega), h i (by omega) (by omega),
        h (i + 1) (by omega) (by omega)]

theorem mem_dimNames_transform {a : DA (Fl K)} {zc name : String} {z w : Nat → Fl K} {m : Nat}
    {d : String} : d ∈ (gridTransform a zc z name m w).dimNames ↔
      (d ∈ a.dimNames ∧ d ≠ zc) ∨ d = name := by
  simp only [DA.dimNames, gridTransform, List.map_append, List.mem_append, List.mem_map,
    List.mem_filter, bne_iff_ne, ne_eq, Prod.exists, exists_and_right, exists_eq_right,
    List.map_cons, List.map_nil, List.mem_singleton]

theorem size_transform {a : DA (Fl K)} {zc name : String} {z w : Nat → Fl K} {m : Nat}
    (h : name ∉ a.dimNames) : (gridTransform a zc z name m w).size name = m := by
  have : (a.dims.filter (fun p => p.1 != zc)).find? (fun p => p.1 == name) = none := by
    rw [List.find?_eq_none]
    intro p hp hpe
    simp only [beq_iff_eq] at hpe
    exact h (hpe ▸ List.mem_map_of_mem (List.mem_filter.1 hp).1)
  simp [DA.size, gridTransform, List.find?_append, this]

end Momlevel
