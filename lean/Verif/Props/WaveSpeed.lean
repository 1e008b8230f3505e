import Verif.Props.AdjustN2
import Mathlib.Algebra.Order.BigOperators.Group.Finset

/-! # C14: gravity wave speed -/

namespace Momlevel.Props
open Momlevel Momlevel.Fl

theorem npSqrt_pos {y : ℝ} (h : 0 < y) : npSqrt (fin y) = fin (Real.sqrt y) := by
  simp [npSqrt, not_lt.2 h.le]

/-- Contribution of one cell to the wave speed: `sqrt(adjusted N²) * dz`, nothing if either is
missing. -/
noncomputable def waveTerm (a d : Fl ℝ) : ℝ :=
  match a, d with
  | fin x, fin y => Real.sqrt x * y
  | _, _ => 0

/-- z-first input (vertical dimension called `z_l`), finite or missing values, non-negative `dz`:
the result has the dimensions of one layer of `n2` (then any further ones of `dz`), is missing
exactly where the first layer of `n2` is missing, and is otherwise `(1/π) Σ_k sqrt(N²adj) dz` over
the cells where both are present — where `N²adj` is what `adjust_negative_n2` returns. -/
theorem C14_formula {n2 dz : DA (Fl ℝ)} {n : Nat} {rest : List (String × Nat)}
    (hd : n2.dims = ("z_l", n) :: rest) (hn : n ≠ 0) (hnd : n2.dimNames.Nodup)
    (hv : ∀ e, n2.InBounds e → FN (n2.get e)) :
    ∃ r adj, calcWaveSpeed n2 dz = .ok r ∧ adjustNegativeN2 n2 = .ok adj ∧
      ∀ e, (n2.isel "z_l" 0).InBounds e →
        (∀ k < n, column n2 "z_l" e k ≠ nan → FN (column dz "z_l" e k)) →
        (n2.get (Function.update e "z_l" 0) = nan → r.get e = nan) ∧
        (n2.get (Function.update e "z_l" 0) ≠ nan → r.get e = fin ((∑ k ∈ Finset.range n,
          waveTerm (column adj "z_l" e k) (column dz "z_l" e k)) / Real.pi)) := by
  obtain ⟨adj, a1, a2, a3⟩ := C12_positive hd hn hv
  have hz : "z_l" ∈ (adj.map npSqrt * dz).dimNames := by
    unfold DA.dimNames
    rw [DA.dims_mul, DA.dims_map, a2, hd]
    simp [DA.bdims]
  have hsize : (adj.map npSqrt * dz).size "z_l" = n := by
    unfold DA.size
    rw [DA.dims_mul, DA.dims_map, a2, hd]
    simp [DA.bdims]
  have hf : first n2 = .ok (n2.isel "z_l" 0) := by
    unfold first; rw [hd]; simp [hn]
  refine ⟨_, adj, by
    simp only [calcWaveSpeed, a1, ok_bind, if_neg (not_not.2 hz), hf]; rfl, a1, fun e he hdz => ?_⟩
  have hbounds : ∀ k < n, n2.InBounds (Function.update e "z_l" k) := by
    intro k hk p hp
    by_cases h : p.1 = "z_l"
    · have : p.2 = n := by
        have h1 := DA.size_of_mem hnd hp
        have h2 := DA.size_of_mem hnd (p := ("z_l", n)) (by rw [hd]; simp)
        rw [← h1, h, h2]
      rw [h, Function.update_self, this]; exact hk
    · rw [Function.update_of_ne h]
      exact he p (by
        show p ∈ n2.dims.filter _
        rw [List.mem_filter]
        exact ⟨hp, by simpa using h⟩)
  have hterm : ∀ k < n, (adj.map npSqrt * dz).get (Function.update e "z_l" k)
      = nan ∧ waveTerm (column adj "z_l" e k) (column dz "z_l" e k) = 0 ∨
      (adj.map npSqrt * dz).get (Function.update e "z_l" k)
      = fin (waveTerm (column adj "z_l" e k) (column dz "z_l" e k)) := by
    intro k hk
    obtain ⟨b1, b2⟩ := a3 _ (hbounds k hk)
    simp only [DA.get_mul, DA.get_map, column]
    by_cases h : n2.get (Function.update e "z_l" k) = nan
    · left
      rw [b1.2 h]
      simp [npSqrt, waveTerm]
    · obtain ⟨y, hy, e1⟩ := b2 h
      rw [e1]
      rcases hdz k hk h with h2 | ⟨w, h2⟩
      · left; unfold column at h2; rw [h2]; simp [waveTerm]
      · right; unfold column at h2; rw [h2, npSqrt_pos hy]; simp [waveTerm]
  have hsum : ((adj.map npSqrt * dz).sumDim "z_l").get e = fin (∑ k ∈ Finset.range n,
      waveTerm (column adj "z_l" e k) (column dz "z_l" e k)) := by
    show nansumN _ _ = _
    rw [hsize, nansumN_eq]
    · congr 1
      apply Finset.sum_congr rfl
      intro k hk
      rcases hterm k (Finset.mem_range.1 hk) with ⟨h1, h2⟩ | h1
      · rw [h1, h2]; rfl
      · rw [h1]; rfl
    · intro k hk
      rcases hterm k hk with ⟨h1, _⟩ | h1
      · rw [h1]; exact FN_nan
      · rw [h1]; exact FN_fin _
  simp only [DA.get_zip3, DA.get_map, DA.get_isel, DA.get_scalar, DA.get_div, hsum, npPi]
  constructor
  · intro h; rw [h]; simp
  · intro h
    rw [(isnull_false_iff _).2 h, sel_false, fin_div_of_ne _ Real.pi_ne_zero]

/-- Non-negative for non-negative `dz`; positive as soon as one cell with non-missing `N²` has a
positive thickness. -/
theorem C14_sign {n2 dz : DA (Fl ℝ)} {n : Nat} {rest : List (String × Nat)}
    (hd : n2.dims = ("z_l", n) :: rest) (hn : n ≠ 0) (hnd : n2.dimNames.Nodup)
    (hv : ∀ e, n2.InBounds e → FN (n2.get e)) :
    ∃ r, calcWaveSpeed n2 dz = .ok r ∧
      ∀ e, (n2.isel "z_l" 0).InBounds e →
        (∀ k < n, column n2 "z_l" e k ≠ nan →
          column dz "z_l" e k = nan ∨ ∃ h, 0 ≤ h ∧ column dz "z_l" e k = fin h) →
        (r.get e = nan ↔ n2.get (Function.update e "z_l" 0) = nan) ∧
        (r.get e ≠ nan → ∃ c, r.get e = fin c ∧ 0 ≤ c ∧
          ((∃ k < n, column n2 "z_l" e k ≠ nan ∧ ∃ h, 0 < h ∧ column dz "z_l" e k = fin h) →
            0 < c)) := by
  obtain ⟨r, adj, h1, h2, h3⟩ := C14_formula (dz := dz) hd hn hnd hv
  obtain ⟨adj', a1, a2, a3⟩ := C12_positive hd hn hv
  have haa : adj' = adj := by
    have := a1.symm.trans h2; exact Except.ok.inj this
  subst haa
  refine ⟨r, h1, fun e he hdz => ?_⟩
  have hbd : ∀ k < n, n2.InBounds (Function.update e "z_l" k) := by
    intro k hk p hp
    by_cases h : p.1 = "z_l"
    · have : p.2 = n := by
        have h1 := DA.size_of_mem hnd hp
        have h2 := DA.size_of_mem hnd (p := ("z_l", n)) (by rw [hd]; simp)
        rw [← h1, h, h2]
      rw [h, Function.update_self, this]; exact hk
    · rw [Function.update_of_ne h]
      exact he p (by
        show p ∈ n2.dims.filter _
        rw [List.mem_filter]
        exact ⟨hp, by simpa using h⟩)
  have hterm : ∀ k < n, 0 ≤ waveTerm (column adj' "z_l" e k) (column dz "z_l" e k) := by
    intro k hk
    unfold waveTerm
    split
    · rename_i x y e1 e2
      have hne : column n2 "z_l" e k ≠ nan := by
        intro h
        have := (a3 _ (hbd k hk)).1.2 h
        unfold column at e1
        rw [this] at e1; cases e1
      rcases hdz k hk hne with h | ⟨w, hw, h⟩
      · rw [h] at e2; cases e2
      · rw [h] at e2
        have : w = y := Fl.fin.inj e2
        exact mul_nonneg (Real.sqrt_nonneg _) (this ▸ hw)
    · exact le_rfl
  obtain ⟨b1, b2⟩ := h3 e he (fun k hk h => (hdz k hk h).imp id (fun ⟨h, _, e1⟩ => ⟨h, e1⟩))
  refine ⟨⟨fun h => ?_, b1⟩, fun h => ?_⟩
  · by_contra hne
    rw [b2 hne] at h; cases h
  · have hne : n2.get (Function.update e "z_l" 0) ≠ nan := fun h' => h (b1 h')
    refine ⟨_, b2 hne, ?_, ?_⟩
    · exact div_nonneg (Finset.sum_nonneg (fun k hk => hterm k (Finset.mem_range.1 hk)))
        Real.pi_pos.le
    · rintro ⟨k, hk, hnk, w, hw, hwz⟩
      refine div_pos (Finset.sum_pos' (fun k hk => hterm k (Finset.mem_range.1 hk))
        ⟨k, Finset.mem_range.2 hk, ?_⟩) Real.pi_pos
      obtain ⟨y, hy, e1⟩ := (a3 _ (hbd k hk)).2 hnk
      have e1' : column adj' "z_l" e k = fin y := e1
      rw [e1', hwz]
      exact mul_pos (Real.sqrt_pos.2 hy) hw

/-- Non-vacuity. -/
example :
    let n2 : DA (Fl ℝ) := ⟨[("z_l", 2), ("x", 1)], fun e => if e "z_l" = 0 then fin (-1) else nan⟩
    let dz : DA (Fl ℝ) := ⟨[("z_l", 2)], fun e => fin (e "z_l" + 1)⟩
    n2.dims = ("z_l", 2) :: [("x", 1)] ∧ n2.dimNames.Nodup ∧ (∀ e, n2.InBounds e → FN (n2.get e))
      ∧ (∀ e, dz.get e = nan ∨ ∃ h, 0 ≤ h ∧ dz.get e = fin h)
      ∧ (n2.isel "z_l" 0).InBounds (fun _ => 0) := by
  refine ⟨rfl, by simp [DA.dimNames], fun e _ => ?_, fun e => Or.inr ⟨_, ?_, rfl⟩, ?_⟩
  · show FN (if e "z_l" = 0 then fin (-1) else nan)
    split
    · exact FN_fin _
    · exact FN_nan
  · positivity
  · intro p hp
    have : p = ("x", 1) := by simpa [DA.isel] using hp
    subst this; decide

/-- A vertical coordinate that is not called `z_l` cannot be handled, although `zcoord` is a
parameter: the inner `adjust_negative_n2` call always uses `z_l`. -/
theorem C14_zcoord_ignored (n2 dz : DA (Fl ℝ)) (zcoord : String) (h : "z_l" ∉ n2.dimNames) :
    calcWaveSpeed n2 dz zcoord = .error .valueError
      ∨ calcWaveSpeed n2 dz zcoord = .error .indexError := by
  cases hd : n2.dims with
  | nil =>
    right
    have : adjustNegativeN2 n2 = .error .indexError := by
      simp only [adjustNegativeN2, fillFirst, DA.dims_map, hd, error_bind]
    simp only [calcWaveSpeed, this, error_bind]
  | cons p l =>
    obtain ⟨d, n⟩ := p
    by_cases hn : n = 0
    · right
      have : adjustNegativeN2 n2 = .error .indexError := by
        simp only [adjustNegativeN2, fillFirst, DA.dims_map, hd, if_pos hn, error_bind]
      simp only [calcWaveSpeed, this, error_bind]
    · left
      have : adjustNegativeN2 n2 = .error .valueError := by
        have h' : ∀ g, "z_l" ∉ (⟨(d, n) :: l, g⟩ : DA (Fl ℝ)).dimNames := by
          intro g
          unfold DA.dimNames at h ⊢; rw [hd] at h; exact h
        simp only [adjustNegativeN2, fillFirst, DA.dims_map, hd, if_neg hn, ok_bind, ffill,
          if_neg (h' _), error_bind]
      simp only [calcWaveSpeed, this, error_bind]

/-- `C14_zcoord_ignored`: levels called `z`, passed as such, are refused. -/
example : calcWaveSpeed (⟨[("z", 2)], fun _ => fin 1⟩ : DA (Fl ℝ)) (DA.scalar (fin 100)) "z" = .error .valueError ∨
    calcWaveSpeed (⟨[("z", 2)], fun _ => fin 1⟩ : DA (Fl ℝ)) (DA.scalar (fin 100)) "z" = .error .indexError :=
  C14_zcoord_ignored _ _ _ (by simp [DA.dimNames])

end Momlevel.Props
