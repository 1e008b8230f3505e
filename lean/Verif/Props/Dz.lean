import Verif.Lemmas.Dz
import Mathlib.Algebra.BigOperators.Group.Finset.Basic

/-! # C08–C11: partial-cell thicknesses -/

set_option linter.unusedSectionVars false

namespace Momlevel.Props
open Momlevel Momlevel.Fl

variable {K : Type} [Field K] [LinearOrder K] [IsStrictOrderedRing K]
variable {levels interfaces depth : DA (Fl K)} {z zi : String} {n : Nat} {lev ifc : Nat → K}

/-! ## C08 -/

/-- Default arguments: the result has the dimensions of the bathymetry plus the vertical one, each
cell's value is the part of the cell above the sea floor, hence between 0 and the layer thickness.
A missing depth counts as 0 (land). -/
theorem C08_cell (g : DzGrid levels interfaces z zi n lev ifc) (hb : Bathy depth)
    (hz : z ∉ depth.dimNames) :
    ∃ r, calcDz levels interfaces depth = .ok r ∧ r.dims = depth.dims ++ [(z, n)] ∧
      ∀ e, depth.InBounds e → e z < n → ∃ v, r.get e = fin v
        ∧ v = Spec.overlap (ifc (e z)) (ifc (e z + 1)) (ifc 0) (val0 (depth.get e))
        ∧ 0 ≤ v ∧ v ≤ ifc (e z + 1) - ifc (e z) := by
  obtain ⟨r, h1, h2, h3⟩ := calcDz_ok g hb 0 none false hz
  refine ⟨r, h1, h2, fun e he hk => ?_⟩
  have := h3 e he
  simp only [Bool.false_eq_true, if_false, floorAt] at this
  have hm := g.imono _ hk
  have h0 := g.ifc_nonneg (e z) hk.le
  have hi : ifc 0 ≤ ifc (e z) := by
    have : ∀ k ≤ n, ifc 0 ≤ ifc k := by
      intro k hk
      induction k with
      | zero => exact le_rfl
      | succ k ih => exact le_trans (ih (by omega)) (g.imono k (by omega))
    exact this _ hk.le
  refine ⟨_, this, ?_, cellDz_nonneg hm, cellDz_le⟩
  rw [(cellDz_eq_overlap_iff hm).2]
  · unfold Spec.overlap
    rw [max_eq_left h0, max_eq_left hi]
  · rintro ⟨h, -⟩
    exact absurd h0 (not_le.2 h)

theorem overlap_telescope (ifc : Nat → K) (D : K) (n : Nat) (h : ∀ k < n, ifc k ≤ ifc (k + 1)) :
    ∑ k ∈ Finset.range n, Spec.overlap (ifc k) (ifc (k + 1)) (ifc 0) D
      = Spec.overlap (ifc 0) (ifc n) (ifc 0) D := by
  have mono : ∀ k ≤ n, ifc 0 ≤ ifc k := by
    intro k hk
    induction k with
    | zero => exact le_rfl
    | succ k ih => exact le_trans (ih (by omega)) (h k (by omega))
  have key : ∀ m ≤ n, ∑ k ∈ Finset.range m, Spec.overlap (ifc k) (ifc (k + 1)) (ifc 0) D
      = Spec.overlap (ifc 0) (ifc m) (ifc 0) D := by
    intro m hm
    induction m with
    | zero =>
      simp only [Finset.range_zero, Finset.sum_empty, Spec.overlap, max_self]
      rw [max_eq_left]
      have := min_le_left (ifc 0) D
      linarith
    | succ m ih =>
      rw [Finset.sum_range_succ, ih (by omega)]
      unfold Spec.overlap
      have h0 := mono m (by omega)
      have h1 := h m (by omega)
      rw [max_self, max_eq_left h0]
      rcases le_total D (ifc m) with hD | hD
      · rw [min_eq_right hD, min_eq_right (hD.trans h1), max_eq_left (by linarith : D - ifc m ≤ 0),
          add_zero]
      · rw [min_eq_left hD, max_eq_right (by linarith : (0 : K) ≤ ifc m - ifc 0)]
        have hm : ifc m ≤ min (ifc (m + 1)) D := le_min h1 hD
        rw [max_eq_right (by linarith), max_eq_right (by linarith)]
        ring
  exact key n le_rfl

/-- Default arguments: the thicknesses of a column (added up by the same skip-missing sum the
library uses) equal the length of the part of the grid `[ifc 0, ifc n]` above the sea floor. -/
theorem C08_column_sum (g : DzGrid levels interfaces z zi n lev ifc) (hb : Bathy depth)
    (hz : z ∉ depth.dimNames) :
    ∃ r, calcDz levels interfaces depth = .ok r ∧
      ∀ e, depth.InBounds e → (r.sumDim z).get e
        = fin (max 0 (min (ifc n) (val0 (depth.get e)) - ifc 0)) := by
  obtain ⟨r, h1, h2, h3⟩ := C08_cell g hb hz
  refine ⟨r, h1, fun e he => ?_⟩
  have hsize : r.size z = n := by
    unfold DA.size
    rw [h2, List.find?_append, List.find?_eq_none.2]
    · simp
    · intro p hp
      have : p.1 ≠ z := fun h => hz (h ▸ List.mem_map_of_mem hp)
      simpa using this
  have hupd : ∀ k, depth.InBounds (Function.update e z k) := by
    intro k p hp
    have : p.1 ≠ z := fun h => hz (h ▸ List.mem_map_of_mem hp)
    rw [Function.update_of_ne this]
    exact he p hp
  have hval : ∀ k < n, r.get (Function.update e z k)
      = fin (Spec.overlap (ifc k) (ifc (k + 1)) (ifc 0) (val0 (depth.get e))) := by
    intro k hk
    obtain ⟨v, hv, hv2, -⟩ := h3 _ (hupd k) (by simpa using hk)
    rw [hv, hv2]
    have : depth.get (Function.update e z k) = depth.get e := by
      apply hb.wf
      intro d hd
      have hdz : d ≠ z := fun h => hz (h ▸ hd)
      rw [Function.update_of_ne hdz]
    rw [this, Function.update_self]
  show nansumN (r.size z) _ = _
  rw [hsize, nansumN_eq (fun k hk => by rw [hval k hk]; exact FN_fin _)]
  congr 1
  rw [Finset.sum_congr rfl (fun k hk => by rw [hval k (Finset.mem_range.1 hk), val0_fin]),
    overlap_telescope ifc _ n g.imono]
  simp [Spec.overlap]

/-! ## C09 -/

/-- With a depth range, a cell's value is the overlap of the cell with `[top, min(depth, bottom)]`
exactly when the cell does not strictly contain both ends of that range. -/
theorem C09_overlap_iff (g : DzGrid levels interfaces z zi n lev ifc) (hb : Bathy depth)
    (hz : z ∉ depth.dimNames) (top bottom : K) :
    ∃ r, calcDz levels interfaces depth (fin top) (some (fin bottom)) = .ok r ∧
      ∀ e, depth.InBounds e → e z < n →
        let D := min (val0 (depth.get e)) bottom
        let a := ifc (e z)
        let b := ifc (e z + 1)
        (r.get e = fin (Spec.overlap a b top D) ↔ ¬ (a < top ∧ top < b ∧ a < D ∧ D < b)) := by
  obtain ⟨r, h1, h2, h3⟩ := calcDz_ok g hb top (some bottom) false hz
  refine ⟨r, h1, fun e he hk => ?_⟩
  have := h3 e he
  simp only [Bool.false_eq_true, if_false, floorAt] at this
  intro D a b
  rw [this, ← cellDz_eq_overlap_iff (g.imono _ hk)]
  exact ⟨fun h => Fl.fin.inj h, fun h => by rw [h]⟩

/-- Full documented claim restricted to requests where no cell contains both ends strictly.

Full statement (false of the code, see `C09_counterexample`): for every `top`, `bottom` each cell's
value is `Spec.overlap a b top (min depth bottom)`.  Missing here: cells that strictly contain both
`top` and `min(depth, bottom)`. -/
theorem C09_overlap_partial (g : DzGrid levels interfaces z zi n lev ifc) (hb : Bathy depth)
    (hz : z ∉ depth.dimNames) (top bottom : K)
    (hcell : ∀ k < n, ∀ e, depth.InBounds e → ¬ (ifc k < top ∧ top < ifc (k + 1) ∧
      ifc k < min (val0 (depth.get e)) bottom ∧ min (val0 (depth.get e)) bottom < ifc (k + 1))) :
    ∃ r, calcDz levels interfaces depth (fin top) (some (fin bottom)) = .ok r ∧
      ∀ e, depth.InBounds e → e z < n →
        r.get e = fin (Spec.overlap (ifc (e z)) (ifc (e z + 1)) top
          (min (val0 (depth.get e)) bottom)) := by
  obtain ⟨r, h1, h2⟩ := C09_overlap_iff g hb hz top bottom
  exact ⟨r, h1, fun e he hk => (h2 e he hk).2 (hcell _ hk e he)⟩

/-- The code never underestimates: the true overlap is a lower bound for every cell, the full
layer thickness an upper bound. -/
theorem C09_bounds (g : DzGrid levels interfaces z zi n lev ifc) (hb : Bathy depth)
    (hz : z ∉ depth.dimNames) (top bottom : K) :
    ∃ r, calcDz levels interfaces depth (fin top) (some (fin bottom)) = .ok r ∧
      ∀ e, depth.InBounds e → e z < n → ∃ v, r.get e = fin v ∧
        Spec.overlap (ifc (e z)) (ifc (e z + 1)) top (min (val0 (depth.get e)) bottom) ≤ v ∧
        v ≤ ifc (e z + 1) - ifc (e z) := by
  obtain ⟨r, h1, h2, h3⟩ := calcDz_ok g hb top (some bottom) false hz
  refine ⟨r, h1, fun e he hk => ?_⟩
  have := h3 e he
  simp only [Bool.false_eq_true, if_false, floorAt] at this
  exact ⟨_, this, overlap_le_cellDz (g.imono _ hk), cellDz_le⟩

section witness

/-- One layer from 0 to 100 m. -/
def wLevels : DA (Fl ℚ) := ⟨[("z_l", 1)], fun e => fin ((fun _ => 50 : Nat → ℚ) (e "z_l"))⟩
def wIfc : Nat → ℚ := fun k => 100 * k
def wInterfaces : DA (Fl ℚ) := ⟨[("z_i", 2)], fun e => fin (wIfc (e "z_i"))⟩
/-- A 1×1 bathymetry of 100 m. -/
def wDepth : DA (Fl ℚ) := ⟨[("y", 1), ("x", 1)], fun _ => fin 100⟩

theorem wGrid : DzGrid wLevels wInterfaces "z_l" "z_i" 1 (fun _ => 50) wIfc where
  ldims := rfl
  lget := fun _ => rfl
  lnonneg := fun _ _ => by norm_num
  idims := rfl
  iget := fun _ => rfl
  inonneg := by simp [wIfc]
  imono := fun k _ => by simp [wIfc]

theorem wBathy : Bathy wDepth where
  wf := fun _ _ _ => rfl
  nodup := by simp [wDepth, DA.dimNames]
  vals := fun _ _ => Or.inr ⟨100, by norm_num, rfl⟩

/-- Hypotheses of C08–C11 are met by a concrete grid. -/
example : DzGrid wLevels wInterfaces "z_l" "z_i" 1 (fun _ => 50) wIfc ∧ Bathy wDepth
    ∧ "z_l" ∉ wDepth.dimNames := ⟨wGrid, wBathy, by simp [wDepth, DA.dimNames]⟩

/-- Counterexample to the documented claim: one cell 0–100 m, requested range 40–60 m.  The code
returns 60 m, the overlap is 20 m. -/
theorem C09_counterexample :
    ∃ r, calcDz wLevels wInterfaces wDepth (fin 40) (some (fin 60)) = .ok r ∧
      r.get (fun _ => 0) = fin 60 ∧ Spec.overlap (wIfc 0) (wIfc 1) 40 60 = 20 := by
  obtain ⟨r, h1, h2, h3⟩ := calcDz_ok wGrid wBathy 40 (some 60) false
    (by simp [wDepth, DA.dimNames])
  refine ⟨r, h1, ?_, by norm_num [Spec.overlap, wIfc]⟩
  have hb : wDepth.InBounds (fun _ => 0) := by intro p hp; simp [wDepth] at hp; rcases hp with rfl | rfl <;> decide
  rw [h3 _ hb]
  norm_num [floorAt, cellDz, wIfc, wDepth]

end witness

/-! ## C10 -/

/-- `fraction=True`: each value is missing exactly when the thickness is zero, otherwise the
thickness divided by the layer thickness, in `(0, 1]`. -/
theorem C10_fraction (g : DzGrid levels interfaces z zi n lev ifc) (hb : Bathy depth)
    (hz : z ∉ depth.dimNames) (top : K) (bottom : Option K) :
    ∃ r f, calcDz levels interfaces depth (fin top) (bottom.map fin) = .ok r ∧
      calcDz levels interfaces depth (fin top) (bottom.map fin) true = .ok f ∧ f.dims = r.dims ∧
      ∀ e, depth.InBounds e → e z < n → ∃ v, r.get e = fin v ∧
        (v = 0 → f.get e = nan) ∧
        (v ≠ 0 → ∃ q, f.get e = fin q ∧ q * (ifc (e z + 1) - ifc (e z)) = v ∧ 0 < q ∧ q ≤ 1) := by
  obtain ⟨r, h1, h2, h3⟩ := calcDz_ok g hb top bottom false hz
  obtain ⟨f, k1, k2, k3⟩ := calcDz_ok g hb top bottom true hz
  refine ⟨r, f, h1, k1, by rw [h2, k2], fun e he hk => ?_⟩
  have e1 := h3 e he
  have e2 := k3 e he
  simp only [Bool.false_eq_true, if_false] at e1
  simp only [if_true] at e2
  refine ⟨_, e1, fun h => ?_, fun h => ?_⟩
  · rw [e2, if_pos h]
  · have hm := g.imono _ hk
    have p1 : 0 < cellDz (ifc (e z)) (ifc (e z + 1)) top (floorAt (depth.get e) bottom) :=
      lt_of_le_of_ne (cellDz_nonneg hm) (Ne.symm h)
    have p2 : 0 < ifc (e z + 1) - ifc (e z) := lt_of_lt_of_le p1 cellDz_le
    refine ⟨_, by rw [e2, if_neg h, if_neg p2.ne'], div_mul_cancel₀ _ p2.ne', div_pos p1 p2, ?_⟩
    exact (div_le_one p2).2 cellDz_le

/-! ## C11 -/

/-- `calc_dz` on one-dimensional levels/interfaces of matching length raises AssertionError iff a
non-missing depth is negative, or a level or interface is negative or missing. -/
theorem C11_assertion_iff (hl : levels.WF) (hi : interfaces.WF) (hd : depth.WF)
    (hln : levels.dims = [(z, n)]) (hin : interfaces.dims = [(zi, n + 1)])
    (hdn : depth.dimNames.Nodup) (top : Fl K) (bottom : Option (Fl K)) (fraction : Bool) :
    calcDz levels interfaces depth top bottom fraction = .error .assertionError ↔
      (∃ e, depth.InBounds e ∧ depth.get e ≠ nan ∧ Fl.lt (depth.get e) (fin 0) = true) ∨
      (∃ e, levels.InBounds e ∧ (levels.get e = nan ∨ Fl.lt (levels.get e) (fin 0) = true)) ∨
      (∃ e, interfaces.InBounds e ∧
        (interfaces.get e = nan ∨ Fl.lt (interfaces.get e) (fin 0) = true)) := by
  have neg : ∀ x : Fl K, Fl.le (fin 0) x = false ↔ (x = nan ∨ Fl.lt x (fin 0) = true) := by
    intro x; cases x <;> simp [Fl.le, Fl.lt]
  have negd : ∀ x : Fl K, Fl.le (fin 0) (fillna (fin 0) x) = false
      ↔ (x ≠ nan ∧ Fl.lt x (fin 0) = true) := by
    intro x; cases x <;> simp [Fl.le, Fl.lt, fillna]
  have ex : ∀ {a : DA (Fl K)} (p : Fl K → Bool), a.WF → a.dimNames.Nodup →
      (a.all p = false ↔ ∃ e, a.InBounds e ∧ p (a.get e) = false) := by
    intro a p hw hn
    rw [← Bool.not_eq_true, DA.all_iff hw hn]
    push Not
    simp
  have e1 := ex (a := depth.map (fillna (fin 0))) (fun d => Fl.le (fin 0) d) (DA.WF_map hd _) hdn
  have e2 := ex (fun d => Fl.le (fin 0) d) hl (by simp [DA.dimNames, hln])
  have e3 := ex (fun d => Fl.le (fin 0) d) hi (by simp [DA.dimNames, hin])
  simp only [DA.get_map, negd] at e1
  simp only [neg] at e2 e3
  have hb : ∀ e, (depth.map (fillna (fin 0))).InBounds e ↔ depth.InBounds e := fun e => Iff.rfl
  simp only [hb] at e1
  rw [← e1, ← e2, ← e3]
  unfold calcDz
  cases (depth.map (fillna (fin 0))).all (fun d => Fl.le (fin 0) d) <;>
  cases levels.all (fun d => Fl.le (fin 0) d) <;>
  cases interfaces.all (fun d => Fl.le (fin 0) d) <;>
  simp [hln, hin]
  · split <;> simp

/-- Missing depths (land) give zero thickness in every cell, never NaN, for any finite range. -/
theorem C11_land_zero (g : DzGrid levels interfaces z zi n lev ifc) (hb : Bathy depth)
    (hz : z ∉ depth.dimNames) (top : K) (bottom : Option K) :
    ∃ r, calcDz levels interfaces depth (fin top) (bottom.map fin) = .ok r ∧
      ∀ e, depth.InBounds e → e z < n → depth.get e = nan → r.get e = fin 0 := by
  obtain ⟨r, h1, h2, h3⟩ := calcDz_ok g hb top bottom false hz
  refine ⟨r, h1, fun e he hk hn => ?_⟩
  have e1 := h3 e he
  simp only [Bool.false_eq_true, if_false] at e1
  rw [e1]
  congr 1
  have h0 := g.ifc_nonneg (e z) hk.le
  have hm := g.imono _ hk
  have hf : floorAt (depth.get e) bottom ≤ 0 := by
    rw [hn]
    cases bottom with
    | none => exact le_rfl
    | some b => exact min_le_left _ _
  unfold cellDz
  rw [max_eq_right (by linarith : floorAt (depth.get e) bottom - ifc (e z) ≤ 0),
    min_eq_left (by linarith : (0 : K) ≤ ifc (e z + 1) - ifc (e z))]
  exact min_eq_right (le_max_right _ _)

/-- The number of interfaces must be one more than the number of levels. -/
theorem C11_length_mismatch (g : DzGrid levels interfaces z zi n lev ifc) (hb : Bathy depth)
    (m : Nat) (lv : DA (Fl K)) (hl : lv.dims = [(z, m)]) (hlv : ∀ e, lv.get e = fin (lev (e z)))
    (hlev : ∀ k < m, 0 ≤ lev k) (hmn : m ≠ n) (top : Fl K) (bottom : Option (Fl K)) (f : Bool) :
    calcDz lv interfaces depth top bottom f = .error .valueError := by
  have a1 : (depth.map (Fl.fillna (.fin 0))).all (fun d => Fl.le (.fin 0) d) = true := by
    rw [DA.all_iff (DA.WF_map hb.wf _) hb.nodup]
    intro e he
    rcases hb.vals e he with h | ⟨x, hx, h⟩
    · simp [h]
    · simpa [h] using hx
  have a2 := all_levels hl hlv hlev
  have a3 := all_levels g.idims g.iget (fun k hk => g.ifc_nonneg k (by omega))
  have hne : n + 1 - 1 ≠ m := by simpa using hmn.symm
  simp only [calcDz, a1, a2, a3, pyAssert_true, ok_bind, hl, g.idims, if_pos hne]

end Momlevel.Props
