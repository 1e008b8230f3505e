import Verif.Props.DimOrderDerived
import Verif.Props.LocalTime

/-! C100, continued: seasonal models with the dimensions in another order. -/

set_option linter.unusedSectionVars false

namespace Momlevel.Props
open Momlevel Momlevel.Fl Momlevel.Spec

/-- C100 (seasonal model): model and residuals of `seasonal_model`, with their attributes; the order in which the
index coordinates are listed does not matter either. -/
theorem C100_seasonal {a b : SeasonArray} (h : Transposed a.da b.da) (hx : a.axes = b.axes) (hat : a.attrs = b.attrs)
    (ho : a.indexOrder.Perm b.indexOrder) (hn : a.indexOrder.Nodup) (t : String) :
    SameOutcome (fun x y => Transposed x.1.1 y.1.1 ∧ x.1.2 = y.1.2 ∧ Transposed x.2.1 y.2.1 ∧ x.2.2 = y.2.2)
      (seasonalModel a t) (seasonalModel b t) := by
  have hax : timeCoord a t = timeCoord b t := by
    unfold timeCoord
    have : a.da.dimNames.contains t = b.da.dimNames.contains t := by
      rw [Bool.eq_iff_iff, List.contains_iff_mem, List.contains_iff_mem, h.mem]
    rw [hx, this]
  unfold seasonalModel
  rw [hax, hat]
  refine SameOutcome.same (fun ax => SameOutcome.same (fun _ => ?_))
  have hm : Transposed
      (⟨modelDims a, fun e => entry (seasonalFit (decimalYears ax ax.stamps.length)
        (seriesAt a.da "time" ax.stamps.length e)).smodel (e "time")⟩ : DA (Fl ℝ))
      ⟨modelDims b, fun e => entry (seasonalFit (decimalYears ax ax.stamps.length)
        (seriesAt b.da "time" ax.stamps.length e)).smodel (e "time")⟩ := by
    refine ⟨?_, ?_, ?_⟩
    · show (modelDims a).Perm (modelDims b)
      unfold modelDims
      have e1 : ∀ c, a.da.size c = b.da.size c := h.size
      simp only [e1]
      have hc : ∀ s, (a.indexOrder.filter (fun c => c != "time")).contains s
          = (b.indexOrder.filter (fun c => c != "time")).contains s := by
        intro s
        rw [Bool.eq_iff_iff, List.contains_iff_mem, List.contains_iff_mem]
        exact (ho.filter _).mem_iff
      simp only [hc]
      exact (((ho.filter _).map _).append_right _).append (h.perm.filter _)
    · unfold seriesAt
      rw [h.get]
    · show ((modelDims a).map Prod.fst).Nodup
      unfold modelDims
      simp only [List.map_append, List.map_map, List.map_cons, List.map_nil]
      have e2 : (Prod.fst ∘ fun c => (c, a.da.size c)) = (id : String → String) := rfl
      rw [e2, List.map_id, List.append_assoc, List.nodup_append]
      refine ⟨hn.filter _, ?_, ?_⟩
      · rw [List.nodup_append]
        refine ⟨List.nodup_singleton _, h.nodup.sublist (List.filter_sublist.map _), ?_⟩
        rintro x hx y hy rfl
        obtain ⟨p, hp, rfl⟩ := List.mem_map.1 hy
        have h2 := (List.mem_filter.1 hp).2
        rw [List.mem_singleton] at hx
        simp [hx] at h2
      · rintro x hx y hy rfl
        rcases List.mem_append.1 hy with hy | hy
        · rw [List.mem_singleton] at hy
          subst hy
          have := (List.mem_filter.1 hx).2
          simp at this
        · obtain ⟨p, hp, rfl⟩ := List.mem_map.1 hy
          have h2 := (List.mem_filter.1 hp).2
          have h3 : (a.indexOrder.filter (fun c => c != "time")).contains p.1 = true := List.contains_iff_mem.2 hx
          rw [h3] at h2
          simp at h2
  exact ⟨hm, rfl, h.sub hm, rfl⟩

/-- C100 (`deseason`): all three outputs, whatever the chunks of the two arrays. -/
theorem C100_deseason {a b : SeasonArray} {ax : TimeAxis} {n : Nat} {fmt : String} (h : HasTime a ax n)
    (hc : Covered a) (hc' : Covered b) (hb : Transposed a.da b.da) (hx : a.axes = b.axes) (hat : a.attrs = b.attrs)
    (hf : knownFormat fmt) (hd : fmt = "coeff" → a.da.ndim ≠ 1) :
    ∃ r r' d d', deseason a "time" fmt = .ok r ∧ deseason b "time" fmt = .ok r' ∧ r.values = .ok d ∧
      r'.values = .ok d' ∧ r.attrs = r'.attrs ∧ r.labels = r'.labels ∧ d.dims.Perm d'.dims ∧
      ∀ e, (fmt ≠ "coeff" → e "time" < n) → d'.get e = d.get e := by
  have h' : HasTime b ax n :=
    ⟨hb.symm'.nodup, hb.perm.mem_iff.1 h.dim_mem, by rw [← hx]; exact h.axis, h.count,
      fun hm => h.no_coeff (hb.mem.2 hm)⟩
  have hfit : ∀ e, fitAtPoint b ax n e = fitAtPoint a ax n e := fun e => by
    unfold fitAtPoint seriesAt
    rw [hb.get]
  have hlead : ∀ p : String × Nat, (leading a p).Perm (leading b p) := fun p => (hb.perm.filter _).cons _
  rcases hf with rfl | rfl | rfl
  · obtain ⟨d, e1, e2, e3⟩ := deseason_residuals h hc
    obtain ⟨d', f1, f2, f3⟩ := deseason_residuals h' hc'
    refine ⟨_, _, d, d', e1, f1, rfl, rfl, by rw [hat], rfl, by rw [e2, f2]; exact hlead _, fun e he => ?_⟩
    rw [e3 e (he (by decide)), f3 e (he (by decide)), hfit]
  · obtain ⟨d, e1, e2, e3⟩ := deseason_model h hc
    obtain ⟨d', f1, f2, f3⟩ := deseason_model h' hc'
    refine ⟨_, _, d, d', e1, f1, rfl, rfl, by rw [hat], rfl, by rw [e2, f2]; exact hlead _, fun e he => ?_⟩
    rw [e3 e (he (by decide)), f3 e (he (by decide)), hfit]
  · obtain ⟨d, e1, e2, e3⟩ := deseason_coeff h hc (hd rfl)
    obtain ⟨d', f1, f2, f3⟩ := deseason_coeff h' hc' (by rw [← hb.ndim]; exact hd rfl)
    refine ⟨_, _, d, d', e1, f1, rfl, rfl, by rw [hat], rfl, by rw [e2, f2]; exact hlead _, fun e _ => ?_⟩
    rw [e3 e, f3 e, hfit]

/-- Twelve months at three points as (xh, time). -/
noncomputable def swapSea (ch : Option (List (List Nat))) : SeasonArray :=
  ⟨⟨[("xh", 3), ("time", 12)], (locSea none).da.get⟩, [("time", exAxis)], ["xh", "time"], [], ch⟩

theorem swapSea_order (c c') : Transposed (locSea c).da (swapSea c').da :=
  ⟨List.Perm.swap _ _ _, rfl, by simp [locSea, DA.dimNames]⟩

/-- C100_seasonal on a run that succeeds. -/
example : ∃ x y, seasonalModel (locSea none) = .ok x ∧ seasonalModel (swapSea none) = .ok y ∧
    Transposed x.1.1 y.1.1 ∧ Transposed x.2.1 y.2.1 := by
  have h := C100_seasonal (swapSea_order none none) rfl rfl (List.Perm.swap _ _ _) (by simp [locSea]) "time"
  exact ⟨_, _, rfl, rfl, h.1, h.2.2.1⟩

/-- C100_deseason: a chunked array and its transpose in memory. -/
example : ∃ r r' d d', deseason (locSea (some [[12], [2, 1]])) "time" "residuals" = .ok r ∧
    deseason (swapSea none) "time" "residuals" = .ok r' ∧ r.values = .ok d ∧ r'.values = .ok d' ∧
    ∀ e, e "time" < 12 → d'.get e = d.get e := by
  have ht : HasTime (locSea (some [[12], [2, 1]])) exAxis 12 :=
    ⟨by simp [locSea, DA.dimNames], by simp [locSea], rfl, by decide, by simp [locSea, DA.dimNames]⟩
  obtain ⟨r, r', d, d', h1, h2, h3, h4, _, _, _, h6⟩ := C100_deseason (b := swapSea none)
    (fmt := "residuals") ht (by intro cs hcs; cases hcs; rfl) (by intro cs hcs; cases hcs) (swapSea_order _ _) rfl rfl
    (Or.inl rfl) (by decide)
  exact ⟨r, r', d, d', h1, h2, h3, h4, fun e he => h6 e (fun _ => he)⟩

end Momlevel.Props
