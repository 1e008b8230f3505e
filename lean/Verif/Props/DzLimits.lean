import Verif.Props.Dz
import Verif.Props.TrendModes

/-!
# Infinite depths, missing limits, axes of the wrong rank
-/

set_option linter.unusedSectionVars false

namespace Momlevel.Props
open Momlevel Momlevel.Fl

section
variable {K : Type} [Field K] [LinearOrder K] [IsStrictOrderedRing K]
variable {levels interfaces depth : DA (Fl K)} {z zi : String} {n : Nat} {lev ifc : Nat → K}

/-- The value of a cell, whatever the depth, the upper limit and the lower limit. -/
theorem dz_value (g : DzGrid levels interfaces z zi n lev ifc) (hw : depth.WF) (hn : depth.dimNames.Nodup)
    (hv : ∀ e, depth.InBounds e → depth.get e = nan ∨ Fl.le (fin 0) (depth.get e) = true)
    (top : Fl K) (bottom : Option (Fl K)) :
    ∃ r, calcDz levels interfaces depth top bottom = .ok r ∧
      ∀ e, r.get e = Fl.minimum (clip0 (fin (ifc (e z + 1)) - top))
        (Fl.minimum (clip0 ((limitDepth depth bottom).get e - fin (ifc (e z))))
          (fin (ifc (e z + 1)) - fin (ifc (e z)))) := by
  have a1 : (depth.map (Fl.fillna (.fin 0))).all (fun d => Fl.le (.fin 0) d) = true := by
    rw [DA.all_iff (DA.WF_map hw _) hn]
    intro e he
    rcases hv e he with h | h
    · simp [h]
    · rw [DA.get_map]
      cases hd : depth.get e <;> rw [hd] at h <;> simp_all [Fl.fillna]
  have a2 := all_levels g.ldims g.lget g.lnonneg
  have a3 := all_levels g.idims g.iget (fun k hk => g.ifc_nonneg k (by omega))
  have hne : ¬ (n + 1 - 1 ≠ n) := by simp
  refine ⟨_, by
    simp only [calcDz, a1, a2, a3, pyAssert_true, ok_bind, g.ldims, g.idims, if_neg hne,
      Bool.false_eq_true, if_false]
    rfl, fun e => ?_⟩
  simp only [DA.get_zip, DA.get_map, DA.get_sub, DA.get_scalar, g.iget, Function.update_self]

/-- C11 (infinite depth): a depth of infinity is not a missing depth: every layer keeps its full thickness. -/
theorem C11_infinite (g : DzGrid levels interfaces z zi n lev ifc) (hw : depth.WF) (hn : depth.dimNames.Nodup)
    (hv : ∀ e, depth.InBounds e → depth.get e = nan ∨ Fl.le (fin 0) (depth.get e) = true) :
    ∃ r, calcDz levels interfaces depth = .ok r ∧
      ∀ e, e z < n → depth.get e = pinf → r.get e = fin (ifc (e z + 1) - ifc (e z)) := by
  obtain ⟨r, h1, h2⟩ := dz_value g hw hn hv (fin 0) none
  refine ⟨r, h1, fun e he hd => ?_⟩
  have h0 := g.ifc_nonneg (e z + 1) (by omega)
  have h0' := g.ifc_nonneg (e z) (by omega)
  have hlim : (limitDepth depth none).get e = pinf := by
    show Fl.fillna (fin 0) (depth.get e) = pinf
    rw [hd]; rfl
  have hc : clip0 (pinf - fin (ifc (e z)) : Fl K) = pinf := rfl
  have hm : Fl.minimum (pinf : Fl K) (fin (ifc (e z + 1)) - fin (ifc (e z)))
      = fin (ifc (e z + 1) - ifc (e z)) := by rw [fin_sub]; simp [Fl.minimum, Fl.le]
  rw [h2, hlim, hc, hm, fin_sub, clip0_fin, minimum_fin]
  congr 1
  rw [sub_zero, max_def]
  split <;> rw [min_def] <;> split <;> linarith

/-- C11 (missing limits): a missing upper or lower limit makes every thickness missing; it is not ignored. -/
theorem C11_missing_limit (g : DzGrid levels interfaces z zi n lev ifc) (hw : depth.WF)
    (hn : depth.dimNames.Nodup)
    (hv : ∀ e, depth.InBounds e → depth.get e = nan ∨ Fl.le (fin 0) (depth.get e) = true)
    (top : Fl K) (bottom : Option (Fl K)) :
    (∃ r, calcDz levels interfaces depth nan bottom = .ok r ∧ ∀ e, r.get e = nan) ∧
    ∃ r, calcDz levels interfaces depth top (some nan) = .ok r ∧ ∀ e, r.get e = nan := by
  have sub_nan : ∀ x : Fl K, x - nan = nan := fun x => by cases x <;> rfl
  have nan_sub : ∀ x : Fl K, nan - x = nan := fun x => by cases x <;> rfl
  have clip : clip0 (nan : Fl K) = nan := rfl
  have ml : ∀ a : Fl K, Fl.minimum nan a = nan := fun a => by cases a <;> rfl
  have mr : ∀ a : Fl K, Fl.minimum a nan = nan := fun a => by cases a <;> rfl
  constructor
  · obtain ⟨r, h1, h2⟩ := dz_value g hw hn hv nan bottom
    exact ⟨r, h1, fun e => by rw [h2, sub_nan, clip, ml]⟩
  · obtain ⟨r, h1, h2⟩ := dz_value g hw hn hv top (some nan)
    refine ⟨r, h1, fun e => ?_⟩
    have hlim : (limitDepth depth (some nan)).get e = nan := mr _
    rw [h2, hlim, nan_sub, clip, ml, mr]

/-- An unbounded ocean over a single layer of 100 m. -/
example : ∃ r, calcDz wLevels wInterfaces (⟨[("y", 1)], fun _ => pinf⟩ : DA (Fl ℚ)) = .ok r ∧
    r.get (fun _ => 0) = fin 100 := by
  obtain ⟨r, h1, h2⟩ := C11_infinite (depth := (⟨[("y", 1)], fun _ => pinf⟩ : DA (Fl ℚ))) wGrid
    (fun _ _ _ => rfl) (by simp [DA.dimNames]) (fun _ _ => Or.inr rfl)
  exact ⟨r, h1, by rw [h2 _ (by norm_num) rfl]; norm_num [wIfc]⟩

/-- Missing limits over the same layer. -/
example : (∃ r, calcDz wLevels wInterfaces wDepth nan none = .ok r ∧ ∀ e, r.get e = nan) ∧
    ∃ r, calcDz wLevels wInterfaces wDepth (fin 0) (some nan) = .ok r ∧ ∀ e, r.get e = nan :=
  C11_missing_limit wGrid wBathy.wf wBathy.nodup (fun _ _ => Or.inr (by simp [wDepth, Fl.le])) _ _

end

section
variable {K : Type} [Field K] [LinearOrder K] [IsStrictOrderedRing K]

/-- C54 (arguments): `broadcast_trend` raises AssertionError if the slope or the axis is missing or the axis does
not have exactly one dimension. -/
theorem C54_arguments (s : TrendArray K) (a : AxisArray K) (b : Bool) :
    broadcastTrend none (some a) b = .error .assertionError ∧
    broadcastTrend (some s) none b = .error .assertionError ∧
    (a.dims.length ≠ 1 → broadcastTrend (some s) (some a) b = .error .assertionError) := by
  refine ⟨rfl, rfl, fun h => ?_⟩
  have : (a.dims.length == 1) = false := by simpa using h
  simp only [broadcastTrend, Option.elim, ok_bind, this]
  rfl

/-- A field of two dimensions offered as the time axis. -/
example (s : TrendArray ℚ) : broadcastTrend (some s) (some ⟨["time", "x"], none⟩) = .error .assertionError :=
  (C54_arguments s ⟨["time", "x"], none⟩ false).2.2 (by decide)

end

end Momlevel.Props
