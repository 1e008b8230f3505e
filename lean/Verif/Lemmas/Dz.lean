import Verif.Model.Dz
import Verif.Spec.Dz
import Verif.Lemmas.DA
import Mathlib.Tactic.Linarith
import Mathlib.Tactic.Ring
import Mathlib.Tactic.SplitIfs
import Mathlib.Algebra.Order.Group.MinMax

/-! Helper lemmas about `calc_dz`. -/

set_option linter.unusedSectionVars false

namespace Momlevel
open Fl

variable {K : Type} [Field K] [LinearOrder K] [IsStrictOrderedRing K]

theorem clip0_fin (x : K) : clip0 (fin x) = fin (max x 0) := by
  unfold clip0
  rw [lt_fin]
  by_cases h : x < 0
  · simp [h, max_eq_right h.le]
  · simp [h, max_eq_left (not_lt.1 h)]

/-- The code's thickness of the cell `[a, b]` for sea floor `D` and upper bound `t`. -/
def cellDz (a b t D : K) : K := min (max (b - t) 0) (min (max (D - a) 0) (b - a))

theorem cellDz_eq_overlap_iff {a b t D : K} (h : a ≤ b) :
    cellDz a b t D = Spec.overlap a b t D ↔ ¬ (a < t ∧ t < b ∧ a < D ∧ D < b) := by
  unfold cellDz Spec.overlap
  constructor
  · rintro e ⟨h1, h2, h3, h4⟩
    rw [max_eq_left (by linarith : (0:K) ≤ b - t), max_eq_left (by linarith : (0:K) ≤ D - a),
      min_eq_left (by linarith : D - a ≤ b - a), min_eq_right h4.le, max_eq_right h1.le] at e
    rcases le_total (b - t) (D - a) with h5 | h5
    · rw [min_eq_left h5] at e
      rcases le_total 0 (D - t) with h6 | h6
      · rw [max_eq_right h6] at e; linarith
      · rw [max_eq_left h6] at e; linarith
    · rw [min_eq_right h5] at e
      rcases le_total 0 (D - t) with h6 | h6
      · rw [max_eq_right h6] at e; linarith
      · rw [max_eq_left h6] at e; linarith
  · intro hn
    rcases le_or_gt t a with h1 | h1
    · rw [max_eq_left (by linarith : (0:K) ≤ b - t), max_eq_left h1,
        min_eq_right (le_trans (min_le_right _ _) (by linarith))]
      rcases le_total D a with h2 | h2
      · rw [max_eq_right (by linarith : D - a ≤ 0), min_eq_left (by linarith : (0:K) ≤ b - a),
          max_eq_left]
        have := min_le_right b D; linarith
      · rw [max_eq_left (by linarith : (0:K) ≤ D - a), min_sub_sub_right, min_comm, max_eq_right]
        have := le_min h h2; linarith
    · rw [max_eq_right h1.le]
      rcases le_or_gt b D with h2 | h2
      · rw [max_eq_left (by linarith : (0:K) ≤ D - a), min_eq_right (by linarith : b - a ≤ D - a),
          min_eq_left h2, max_comm]
        apply min_eq_left
        apply max_le <;> linarith
      · rw [min_eq_right h2.le]
        rcases le_or_gt b t with h3 | h3
        · rw [max_eq_right (by linarith : b - t ≤ 0), max_eq_left (by linarith : D - t ≤ 0)]
          apply min_eq_left
          apply le_min (le_max_right _ _); linarith
        · rcases le_or_gt D a with h4 | h4
          · rw [max_eq_right (by linarith : D - a ≤ 0), max_eq_left (by linarith : D - t ≤ 0),
              min_eq_left (by linarith : (0:K) ≤ b - a)]
            exact min_eq_right (le_max_right _ _)
          · exact absurd ⟨h1, h3, h4, h2⟩ hn

theorem overlap_le_cellDz {a b t D : K} (h : a ≤ b) : Spec.overlap a b t D ≤ cellDz a b t D := by
  unfold cellDz Spec.overlap
  have h1 := min_le_left b D
  have h2 := min_le_right b D
  have h3 := le_max_left a t
  have h4 := le_max_right a t
  apply max_le
  · exact le_min (le_max_right _ _) (le_min (le_max_right _ _) (by linarith))
  · exact le_min (le_max_of_le_left (by linarith))
      (le_min (le_max_of_le_left (by linarith)) (by linarith))

theorem cellDz_nonneg {a b t D : K} (h : a ≤ b) : 0 ≤ cellDz a b t D :=
  le_min (le_max_right _ _) (le_min (le_max_right _ _) (by linarith))

theorem cellDz_le {a b t D : K} : cellDz a b t D ≤ b - a :=
  le_trans (min_le_right _ _) (min_le_right _ _)

/-- The grid description used in the statements: `n` levels on dimension `z` and `n + 1`
interfaces on dimension `zi`, all finite, non-negative, interfaces non-decreasing. -/
structure DzGrid (levels interfaces : DA (Fl K)) (z zi : String) (n : Nat) (lev ifc : Nat → K) :
    Prop where
  ldims : levels.dims = [(z, n)]
  lget : ∀ e, levels.get e = fin (lev (e z))
  lnonneg : ∀ k < n, 0 ≤ lev k
  idims : interfaces.dims = [(zi, n + 1)]
  iget : ∀ e, interfaces.get e = fin (ifc (e zi))
  inonneg : 0 ≤ ifc 0
  imono : ∀ k < n, ifc k ≤ ifc (k + 1)

/-- A bathymetry: missing or finite non-negative at every point, distinct dimension names. -/
structure Bathy (depth : DA (Fl K)) : Prop where
  wf : depth.WF
  nodup : depth.dimNames.Nodup
  vals : ∀ e, depth.InBounds e → depth.get e = nan ∨ ∃ h, 0 ≤ h ∧ depth.get e = fin h

theorem DzGrid.ifc_nonneg {levels interfaces : DA (Fl K)} {z zi : String} {n : Nat}
    {lev ifc : Nat → K} (g : DzGrid levels interfaces z zi n lev ifc) :
    ∀ k ≤ n, 0 ≤ ifc k := by
  intro k hk
  induction k with
  | zero => exact g.inonneg
  | succ k ih => exact le_trans (ih (by omega)) (g.imono k (by omega))

theorem all_levels {levels : DA (Fl K)} {z : String} {n : Nat} {lev : Nat → K}
    (hd : levels.dims = [(z, n)]) (hg : ∀ e, levels.get e = fin (lev (e z)))
    (h0 : ∀ k < n, 0 ≤ lev k) : levels.all (fun d => Fl.le (.fin 0) d) = true := by
  rw [DA.all_iff]
  · intro e he
    rw [hg]
    have := he (z, n) (by rw [hd]; simp)
    simpa using h0 _ this
  · intro e e' he
    rw [hg, hg, he z (by simp [DA.dimNames, hd])]
  · simp [DA.dimNames, hd]

/-- The sea floor the code uses: missing is 0, limited by `bottom` if given. -/
def floorAt (depth : Fl K) (bottom : Option K) : K :=
  match bottom with
  | none => val0 depth
  | some b => min (val0 depth) b

theorem calcDz_ok {levels interfaces depth : DA (Fl K)} {z zi : String} {n : Nat}
    {lev ifc : Nat → K} (g : DzGrid levels interfaces z zi n lev ifc) (hb : Bathy depth)
    (top : K) (bottom : Option K) (fraction : Bool) (hz : z ∉ depth.dimNames) :
    ∃ r, calcDz levels interfaces depth (fin top) (bottom.map fin) fraction = .ok r
      ∧ r.dims = depth.dims ++ [(z, n)]
      ∧ ∀ e, depth.InBounds e →
        let c := cellDz (ifc (e z)) (ifc (e z + 1)) top (floorAt (depth.get e) bottom)
        r.get e = if fraction then
            (if c = 0 then nan else
              if ifc (e z + 1) - ifc (e z) = 0 then nan else fin (c / (ifc (e z + 1) - ifc (e z))))
          else fin c := by
  have a1 : (depth.map (Fl.fillna (.fin 0))).all (fun d => Fl.le (.fin 0) d) = true := by
    rw [DA.all_iff (DA.WF_map hb.wf _) hb.nodup]
    intro e he
    rcases hb.vals e he with h | ⟨x, hx, h⟩
    · simp [h]
    · simpa [h] using hx
  have a2 := all_levels g.ldims g.lget g.lnonneg
  have a3 := all_levels g.idims g.iget (fun k hk => g.ifc_nonneg k (by omega))
  have hmin : ∀ e, depth.InBounds e → fillna (fin 0) (depth.get e) = fin (val0 (depth.get e)) := by
    intro e he
    rcases hb.vals e he with h | ⟨x, hx, h⟩ <;> simp [h]
  have hb1 : DA.bdims depth.dims [(z, n)] = depth.dims ++ [(z, n)] := by
    apply DA.bdims_disjoint
    intro p hp
    simp only [List.mem_singleton] at hp
    subst hp
    exact hz
  have hdm : ∀ b : Option (Fl K), (limitDepth depth b).dims = depth.dims := by
    intro b; cases b <;> rfl
  have hdg : ∀ e, depth.InBounds e →
      (limitDepth depth (bottom.map fin)).get e = fin (floorAt (depth.get e) bottom) := by
    intro e he
    cases bottom with
    | none => exact hmin e he
    | some b =>
      show Fl.minimum (fillna (fin 0) (depth.get e)) (fin b) = _
      rw [hmin e he, minimum_fin]; rfl
  have hne : ¬ (n + 1 - 1 ≠ n) := by simp
  have hsub : ∀ p, p ∈ depth.dims ∨ p ∈ [(z, n)] → p ∈ depth.dims ++ [(z, n)] := by simp
  cases hf : fraction with
  | false =>
    refine ⟨_, by
      simp only [calcDz, a1, a2, a3, pyAssert_true, ok_bind, g.ldims, g.idims, if_neg hne,
        Bool.false_eq_true, if_false]
      rfl, ?_, ?_⟩
    · simp only [DA.dims_zip, DA.dims_map, DA.dims_sub, DA.dims_scalar, hdm, hb1]
      rw [DA.bdims_eq_left (b := []) (by simp)]
      apply DA.bdims_eq_left
      intro p hp
      have m : ∀ {a b p}, p ∈ DA.bdims a b → p ∈ a ∨ p ∈ b := DA.mem_bdims
      rcases m hp with h | h <;> rcases m h with h | h
      · rcases m h with h | h
        · exact hsub p (Or.inr h)
        · exact hsub p (Or.inl h)
      all_goals exact h
    · intro e he
      simp only [DA.get_zip, DA.get_map, DA.get_sub, DA.get_scalar, g.iget, hdg e he, fin_sub,
        clip0_fin, minimum_fin, Function.update_self, cellDz, Bool.false_eq_true, if_false]
  | true =>
    refine ⟨_, by
      simp only [calcDz, a1, a2, a3, pyAssert_true, ok_bind, g.ldims, g.idims, if_neg hne,
        if_true]
      rfl, ?_, ?_⟩
    · simp only [DA.dims_zip, DA.dims_map, DA.dims_sub, DA.dims_div, DA.dims_scalar, hdm, hb1]
      have m : ∀ {a b p}, p ∈ DA.bdims a b → p ∈ a ∨ p ∈ b := DA.mem_bdims
      rw [DA.bdims_eq_left (b := []) (by simp)]
      rw [DA.bdims_eq_left (a := depth.dims ++ [(z, n)]) (b := depth.dims ++ [(z, n)])
        (fun _ h => h)]
      rw [DA.bdims_eq_left (a := DA.bdims (depth.dims ++ [(z, n)]) _)]
      · apply DA.bdims_eq_left
        intro p hp
        rcases m hp with h | h
        · rcases m h with h | h
          · rcases m h with h | h
            · exact hsub p (Or.inr h)
            · exact hsub p (Or.inl h)
          · exact h
        · exact h
      · intro p hp
        unfold DA.bdims
        exact List.mem_append_left _ hp
    · intro e he
      simp only [DA.get_zip, DA.get_map, DA.get_sub, DA.get_div, DA.get_scalar, g.iget, hdg e he,
        fin_sub, clip0_fin, minimum_fin, Function.update_self, eqv_fin, if_true]
      show sel (decide (cellDz _ _ _ _ = 0)) _ (fin (cellDz _ _ _ _)) / _ = _
      by_cases h1 : cellDz (ifc (e z)) (ifc (e z + 1)) top (floorAt (depth.get e) bottom) = 0
      · simp [h1]
      · by_cases h2 : ifc (e z + 1) - ifc (e z) = 0
        · simp [h2]
        · simp only [h1, h2, decide_false, sel_false, if_false, fin_div_of_ne _ h2]

end Momlevel
