import Verif.Lemmas.Deseason
import Verif.Lemmas.Trend

/-!
# `deseason` (C58, C59, C69, C71)
-/

set_option linter.unusedSectionVars false

namespace Momlevel.Props
open Momlevel

section
variable {x : SeasonArray} {ax : TimeAxis} {n : Nat}

theorem filter_append_time (l : List (String × Nat)) (n : Nat) :
    (l.filter (fun p => p.1 != "time") ++ [("time", n)]).filter (fun p => p.1 == "time") ++
      (l.filter (fun p => p.1 != "time") ++ [("time", n)]).filter (fun p => p.1 != "time") =
      ("time", n) :: l.filter (fun p => p.1 ≠ "time") := by
  rw [List.filter_append, List.filter_append, List.filter_filter, List.filter_filter]
  have h1 : l.filter (fun p => (p.1 == "time") && (p.1 != "time")) = [] := by
    rw [List.filter_eq_nil_iff]
    intro p _
    simp
  have h2 : l.filter (fun p => (p.1 != "time") && (p.1 != "time")) =
      l.filter (fun p => p.1 ≠ "time") := by
    apply List.filter_congr
    intro p _
    by_cases hp : p.1 = "time" <;> simp [hp]
  rw [h1, h2]
  simp

theorem filter_append_coeff (l : List (String × Nat)) (h : "coeff" ∉ l.map Prod.fst) :
    (l.filter (fun p : String × Nat => p.1 != "time") ++ [("coeff", 6)]).filter
        (fun p : String × Nat => p.1 == "coeff") ++
      (l.filter (fun p : String × Nat => p.1 != "time") ++ [("coeff", 6)]).filter
        (fun p : String × Nat => p.1 != "coeff") =
      ("coeff", 6) :: l.filter (fun p => p.1 ≠ "time") := by
  have hne : ∀ p ∈ l, p.1 ≠ "coeff" := fun p hp hh => h (hh ▸ List.mem_map_of_mem hp)
  rw [List.filter_append, List.filter_append, List.filter_filter, List.filter_filter]
  have h1 : l.filter (fun p => (p.1 == "coeff") && (p.1 != "time")) = [] := by
    rw [List.filter_eq_nil_iff]
    intro p hp
    simp [hne p hp]
  have h2 : l.filter (fun p => (p.1 != "coeff") && (p.1 != "time")) =
      l.filter (fun p => p.1 ≠ "time") := by
    apply List.filter_congr
    intro p hp
    have := hne p hp
    by_cases hp : p.1 = "time" <;> simp [hp, this]
  rw [h1, h2]
  simp

theorem deseason_start (h : Spec.HasTime x ax n) (fmt : String) :
    deseason x "time" fmt = (do
      let outDims ← seasonDims x "time" fmt
      let moved ← moveFirst (deseasonLazy x "time" (.array (yearDays ax)) fmt outDims) fmt
      let values := loadBlocks moved
      loadNow x values
      let attrs := editAttrs fmt x.attrs
      return ⟨values, attrs, coeffLabels fmt, attrs⟩) := by
  unfold deseason
  have h1 : x.da.dimNames.contains "time" = true := by
    rw [List.contains_iff_mem]
    exact List.mem_map_of_mem h.dim_mem
  have h2 : timeAttr x = .ok ax := by unfold timeAttr; rw [h.axis]
  simp only [h1, h2, pyAssert_true, ok_bind]

/-- `deseason` for a format that keeps the time dimension. -/
theorem deseason_along (h : Spec.HasTime x ax n) {fmt : String}
    (hf : fmt = "residuals" ∨ fmt = "model") {g : Env → Fl ℝ}
    (hg : ∀ od e, e "time" < n →
      (deseasonLazy x "time" (.array (yearDays ax)) fmt od).get e = .ok (g e)) :
    ∃ d : DA (Fl ℝ), deseason x "time" fmt =
        .ok ⟨.ok d, editAttrs fmt x.attrs, [], editAttrs fmt x.attrs⟩ ∧
      d.dims = Spec.leading x ("time", n) ∧ ∀ e, e "time" < n → d.get e = g e := by
  have hs : x.da.size "time" = n := DA.size_of_mem h.distinct h.dim_mem
  have hnc : fmt ≠ "coeff" := by rcases hf with rfl | rfl <;> decide
  set od := x.da.dims.filter (fun p => p.1 != "time") ++ [("time", n)] with hod
  have h1 : seasonDims x "time" fmt = .ok od := by
    unfold seasonDims
    rw [if_pos hf, hs]
  set a := (deseasonLazy x "time" (.array (yearDays ax)) fmt od).transposeFirst "time" with ha
  have hdims : a.dims = Spec.leading x ("time", n) := filter_append_time _ _
  have h2 : moveFirst (deseasonLazy x "time" (.array (yearDays ax)) fmt od) fmt = .ok a := by
    unfold moveFirst
    rw [if_neg hnc, if_pos]
    rw [List.contains_iff_mem]
    refine List.mem_map.2 ⟨("time", n), ?_, rfl⟩
    exact List.mem_append_right _ (List.mem_singleton.2 rfl)
  have h3 : loadBlocks a = .ok ⟨a.dims, fun e => element (a.get e)⟩ := by
    apply load_ok (f := g)
    intro e he
    have hb := DA.mem_envs_bounds he (by
      rw [hdims]
      unfold Spec.leading
      rw [List.map_cons, List.nodup_cons]
      constructor
      · intro hh
        obtain ⟨p, hp, hq⟩ := List.mem_map.1 hh
        have := (List.mem_filter.1 hp).2
        simp [hq] at this
      · exact List.Nodup.sublist (List.Sublist.map _ List.filter_sublist) h.distinct)
    exact hg od e (hb ("time", n) (by rw [hdims]; exact List.mem_cons_self))
  refine ⟨⟨a.dims, fun e => element (a.get e)⟩, ?_, hdims, ?_⟩
  · rw [deseason_start h]
    have hl : coeffLabels fmt = [] := by unfold coeffLabels; rw [if_neg hnc]
    have hn : loadNow x (.ok ⟨a.dims, fun e => element (a.get e)⟩) = .ok () := by
      unfold loadNow
      cases x.chunks <;> rfl
    simp only [h1, h2, h3, hn, hl, ok_bind]
    rfl
  · intro e he
    change element ((deseasonLazy x "time" (.array (yearDays ax)) fmt od).get e) = g e
    rw [hg od e he]
    rfl

theorem deseason_model (h : Spec.HasTime x ax n) (hc : Spec.Covered x) :
    ∃ d : DA (Fl ℝ), deseason x "time" "model" =
        .ok ⟨.ok d, editAttrs "model" x.attrs, [], editAttrs "model" x.attrs⟩ ∧
      d.dims = Spec.leading x ("time", n) ∧
      ∀ e, e "time" < n → d.get e = entry (fitAtPoint x ax n e).smodel (e "time") :=
  deseason_along h (Or.inr rfl) (fun od _ he => lazy_model h hc he od)

theorem deseason_residuals (h : Spec.HasTime x ax n) (hc : Spec.Covered x) :
    ∃ d : DA (Fl ℝ), deseason x "time" "residuals" =
        .ok ⟨.ok d, editAttrs "residuals" x.attrs, [], editAttrs "residuals" x.attrs⟩ ∧
      d.dims = Spec.leading x ("time", n) ∧
      ∀ e, e "time" < n → d.get e = entry (fitAtPoint x ax n e).residuals (e "time") :=
  deseason_along h (Or.inl rfl) (fun od _ he => lazy_residuals h hc he od)

/-- The names of the six coefficients. -/
def sixLabels : List String :=
  ["constant", "trend", "sin_annual", "cos_annual", "sin_semiannual", "cos_semiannual"]

theorem coeff_start (h : Spec.HasTime x ax n) :
    ∃ a : DA (Except PyErr (Fl ℝ)), a.dims = Spec.leading x ("coeff", 6) ∧
      (∀ e, a.get e = (deseasonLazy x "time" (.array (yearDays ax)) "coeff"
        (x.da.dims.filter (fun p => p.1 != "time") ++ [("coeff", 6)])).get e) ∧
      deseason x "time" "coeff" = (do
        loadNow x (loadBlocks a)
        return ⟨loadBlocks a, editAttrs "coeff" x.attrs, sixLabels, editAttrs "coeff" x.attrs⟩) := by
  set od := x.da.dims.filter (fun p => p.1 != "time") ++ [("coeff", 6)] with hod
  set a := (deseasonLazy x "time" (.array (yearDays ax)) "coeff" od).transposeFirst "coeff" with ha
  have h1 : seasonDims x "time" "coeff" = .ok od := rfl
  have h2 : moveFirst (deseasonLazy x "time" (.array (yearDays ax)) "coeff" od) "coeff" = .ok a := rfl
  refine ⟨a, filter_append_coeff _ h.no_coeff, fun e => rfl, ?_⟩
  rw [deseason_start h]
  simp only [h1, h2, ok_bind]
  rfl

theorem deseason_coeff (h : Spec.HasTime x ax n) (hc : Spec.Covered x) (hd : x.da.ndim ≠ 1) :
    ∃ d : DA (Fl ℝ), deseason x "time" "coeff" =
        .ok ⟨.ok d, editAttrs "coeff" x.attrs, sixLabels, editAttrs "coeff" x.attrs⟩ ∧
      d.dims = Spec.leading x ("coeff", 6) ∧
      ∀ e, d.get e = entry (fitAtPoint x ax n e).coeff (e "coeff") := by
  obtain ⟨a, hdims, hget, hres⟩ := coeff_start h
  have hg : ∀ e, a.get e = .ok (entry (fitAtPoint x ax n e).coeff (e "coeff")) := fun e => by
    rw [hget e]; exact lazy_coeff h hc hd e _
  have h3 : loadBlocks a = .ok ⟨a.dims, fun e => element (a.get e)⟩ :=
    load_ok (fun e _ => hg e)
  refine ⟨⟨a.dims, fun e => element (a.get e)⟩, ?_, hdims, fun e => ?_⟩
  · have hn : loadNow x (.ok ⟨a.dims, fun e => element (a.get e)⟩) = .ok () := by
      unfold loadNow
      cases x.chunks <;> rfl
    rw [hres, h3]
    simp only [hn, ok_bind]
    rfl
  · change element (a.get e) = _
    rw [hg e]
    rfl

theorem fitAtPoint_update (x : SeasonArray) (ax : TimeAxis) (n : Nat) (e : Env) (i : Nat) :
    fitAtPoint x ax n (Function.update e "time" i) = fitAtPoint x ax n e := by
  unfold fitAtPoint
  rw [seriesAt_update]

/-! ### C58 -/

/-- C58: whatever the chunks of the input, `deseason` returns time first and the other dimensions in
order; at every point whose series is finite, the "model" is the least-squares fit of the whole series
by the six regressors at the times `deseason` uses, and the "residuals" are the input minus it. -/
theorem C58_fit (h : Spec.HasTime x ax n) (hc : Spec.Covered x) :
    ∃ m r dm dr, deseason x "time" "model" = .ok m ∧ deseason x "time" "residuals" = .ok r ∧
      m.values = .ok dm ∧ r.values = .ok dr ∧ dm.dims = Spec.leading x ("time", n) ∧
      dr.dims = Spec.leading x ("time", n) ∧
      ∀ e (y : Fin n → ℝ), Spec.SeriesIs x.da e y →
        ∃ z, Spec.IsFit (Spec.sampleYears ax n) y z ∧ Spec.SeriesIs dm e z ∧
          Spec.SeriesIs dr e (fun k => y k - z k) := by
  obtain ⟨dm, hm, hm1, hm2⟩ := deseason_model h hc
  obtain ⟨dr, hr, hr1, hr2⟩ := deseason_residuals h hc
  refine ⟨_, _, dm, dr, hm, hr, rfl, rfl, hm1, hr1, ?_⟩
  intro e y hy
  refine ⟨realModel (Spec.sampleYears ax n) y, isFit_real _ _, fun k => ?_, fun k => ?_⟩
  · unfold Spec.atPoint
    rw [hm2 _ (by rw [Function.update_self]; exact k.2), fitAtPoint_update, Function.update_self,
      entry_fin]
    unfold fitAtPoint
    rw [seriesAt_eq hy, fit_smodel]
  · unfold Spec.atPoint
    rw [hr2 _ (by rw [Function.update_self]; exact k.2), fitAtPoint_update, Function.update_self,
      entry_fin]
    unfold fitAtPoint
    rw [seriesAt_eq hy, fit_residuals]

/-- C58: for arrays with more dimensions than time, "coeff" returns six coefficients per point, named
after the regressors in their order; combining the regressors with them gives the "model". -/
theorem C58_coeff (h : Spec.HasTime x ax n) (hc : Spec.Covered x) (hd : x.da.ndim ≠ 1)
    (hw : x.da.WF) :
    ∃ q m dq dm, deseason x "time" "coeff" = .ok q ∧ deseason x "time" "model" = .ok m ∧
      q.values = .ok dq ∧ m.values = .ok dm ∧ dq.dims = Spec.leading x ("coeff", 6) ∧
      q.labels = ["constant", "trend", "sin_annual", "cos_annual", "sin_semiannual",
        "cos_semiannual"] ∧
      ∀ e (y : Fin n → ℝ), Spec.SeriesIs x.da e y →
        ∃ (c : Fin 6 → ℝ) (z : Fin n → ℝ),
          (∀ j : Fin 6, dq.get (Function.update e "coeff" j) = .fin (c j)) ∧
          Spec.SeriesIs dm e z ∧
          ∀ k, z k = ∑ j, c j * Spec.regressor (Spec.sampleYears ax n) k j := by
  obtain ⟨dm, hm, hm1, hm2⟩ := deseason_model h hc
  obtain ⟨dq, hq, hq1, hq2⟩ := deseason_coeff h hc hd
  refine ⟨_, _, dq, dm, hq, hm, rfl, rfl, hq1, rfl, ?_⟩
  intro e y hy
  refine ⟨realCoeff (Spec.sampleYears ax n) y, realModel (Spec.sampleYears ax n) y,
    fun j => ?_, fun k => ?_, realModel_sum _ _⟩
  · rw [hq2, Function.update_self, entry_fin]
    unfold fitAtPoint
    have : seriesAt x.da "time" n (Function.update e "coeff" j) = fun k => .fin (y k) := by
      funext k
      unfold seriesAt
      rw [← hy k, Spec.atPoint]
      apply hw
      intro d hd
      have hdc : d ≠ "coeff" := fun hh => h.no_coeff (hh ▸ hd)
      by_cases hdt : d = "time"
      · subst hdt; rw [Function.update_self, Function.update_self]
      · rw [Function.update_of_ne hdt, Function.update_of_ne hdt, Function.update_of_ne hdc]
    rw [this, fit_coeff]
  · unfold Spec.atPoint
    rw [hm2 _ (by rw [Function.update_self]; exact k.2), fitAtPoint_update, Function.update_self,
      entry_fin]
    unfold fitAtPoint
    rw [seriesAt_eq hy, fit_smodel]

/-- C58: the chunks do not matter.  Two calls on the same values and dates with the same known format
give the same array, element by element, however each input is chunked (or not chunked at all) and
whatever its attributes are. -/
theorem C58_chunks {x' : SeasonArray} (h : Spec.HasTime x ax n) (hc : Spec.Covered x)
    (hc' : Spec.Covered x') (hda : x'.da = x.da) (hax : x'.axes = x.axes) {fmt : String}
    (hf : Spec.knownFormat fmt) (hd : fmt = "coeff" → x.da.ndim ≠ 1) :
    ∃ r r' d d', deseason x "time" fmt = .ok r ∧ deseason x' "time" fmt = .ok r' ∧
      r.values = .ok d ∧ r'.values = .ok d' ∧ d'.dims = d.dims ∧
      (∀ e, (fmt ≠ "coeff" → e "time" < n) → d'.get e = d.get e) := by
  have h' : Spec.HasTime x' ax n :=
    ⟨hda ▸ h.distinct, hda ▸ h.dim_mem, hax ▸ h.axis, h.count, hda ▸ h.no_coeff⟩
  have hfit : ∀ e, fitAtPoint x' ax n e = fitAtPoint x ax n e := fun e => by
    unfold fitAtPoint; rw [hda]
  have hlead : ∀ p, Spec.leading x' p = Spec.leading x p := fun p => by
    unfold Spec.leading; rw [hda]
  rcases hf with rfl | rfl | rfl
  · obtain ⟨d, e1, e2, e3⟩ := deseason_residuals h hc
    obtain ⟨d', f1, f2, f3⟩ := deseason_residuals h' hc'
    refine ⟨_, _, d, d', e1, f1, rfl, rfl, by rw [e2, f2, hlead], fun e he => ?_⟩
    rw [e3 e (he (by decide)), f3 e (he (by decide)), hfit]
  · obtain ⟨d, e1, e2, e3⟩ := deseason_model h hc
    obtain ⟨d', f1, f2, f3⟩ := deseason_model h' hc'
    refine ⟨_, _, d, d', e1, f1, rfl, rfl, by rw [e2, f2, hlead], fun e he => ?_⟩
    rw [e3 e (he (by decide)), f3 e (he (by decide)), hfit]
  · obtain ⟨d, e1, e2, e3⟩ := deseason_coeff h hc (hd rfl)
    obtain ⟨d', f1, f2, f3⟩ := deseason_coeff h' hc' (hda ▸ hd rfl)
    refine ⟨_, _, d, d', e1, f1, rfl, rfl, by rw [e2, f2, hlead], fun e he => ?_⟩
    rw [e3 e, f3 e, hfit]

/-- C58: a missing value makes the model and the residuals of its whole series missing. -/
theorem C58_missing (h : Spec.HasTime x ax n) (hc : Spec.Covered x) {m r : Deseasoned}
    {dm dr : DA (Fl ℝ)} (hm : deseason x "time" "model" = .ok m)
    (hr : deseason x "time" "residuals" = .ok r) (hdm : m.values = .ok dm)
    (hdr : r.values = .ok dr) (e : Env) {i : Nat} (hi : i < n)
    (hnan : Spec.atPoint x.da e i = .nan) :
    ∀ k < n, Spec.atPoint dm e k = .nan ∧ Spec.atPoint dr e k = .nan := by
  obtain ⟨d, e1, _, e3⟩ := deseason_model h hc
  obtain ⟨d', f1, _, f3⟩ := deseason_residuals h hc
  rw [e1] at hm
  rw [f1] at hr
  cases hm; cases hr; cases hdm; cases hdr
  intro k hk
  have hn := fit_nan (Spec.sampleYears ax n) (ts := seriesAt x.da "time" n e) (i := ⟨i, hi⟩) hnan
  have hb : (Function.update e "time" k) "time" < n := by rw [Function.update_self]; exact hk
  unfold Spec.atPoint
  rw [e3 _ hb, f3 _ hb, fitAtPoint_update, Function.update_self]
  exact ⟨(entry_fin _ (⟨k, hk⟩ : Fin n)).trans (hn.2.1 _),
    (entry_fin _ (⟨k, hk⟩ : Fin n)).trans (hn.2.2 _)⟩

/-- C58: an unknown output format is a ValueError. -/
theorem C58_unknown (h : Spec.HasTime x ax n) {fmt : String} (hf : ¬ Spec.knownFormat fmt) :
    deseason x "time" fmt = .error .valueError := by
  have h1 : seasonDims x "time" fmt = .error .valueError := by
    unfold seasonDims
    rw [if_neg (fun hh => hf (hh.elim Or.inl (fun h => Or.inr (Or.inl h)))),
      if_neg (fun hh => hf (Or.inr (Or.inr hh)))]
  rw [deseason_start h]
  simp only [h1, error_bind]

/-- C58: without the time dimension `deseason` stops with an AssertionError. -/
theorem C58_no_dim (x : SeasonArray) (tdim fmt : String) (h : tdim ∉ x.da.dimNames) :
    deseason x tdim fmt = .error .assertionError := by
  unfold deseason
  have : x.da.dimNames.contains tdim = false := by
    rw [← Bool.not_eq_true, List.contains_iff_mem]; exact h
  simp only [this, pyAssert_false, error_bind]

/-! ### C71: coefficients of a plain series -/

/-- C71, refuted for every plain time series: with "coeff" the values cannot be computed, a TypeError;
a numpy input fails at once, a dask input when its result is computed. -/
theorem C71_fails (h : Spec.HasTime x ax n) (hd : x.da.ndim = 1) :
    (x.chunks = none → deseason x "time" "coeff" = .error .typeError) ∧
      (x.chunks ≠ none → ∃ r, deseason x "time" "coeff" = .ok r ∧ r.values = .error .typeError) := by
  obtain ⟨a, hdims, hget, hres⟩ := coeff_start h
  have hflat : x.da.dims = [("time", n)] := by
    obtain ⟨p, hp⟩ := List.length_eq_one_iff.1 hd
    have := h.dim_mem
    rw [hp, List.mem_singleton] at this
    rw [hp, this]
  have hne : DA.envs a.dims ≠ [] := by
    rw [hdims]
    unfold Spec.leading
    rw [hflat]
    simp [DA.envs]
  have hl : loadBlocks a = .error .typeError :=
    load_error hne (fun e => by rw [hget e]; exact lazy_coeff_flat hd _ e _)
  rw [hres, hl]
  constructor
  · intro hx
    have : loadNow x (.error .typeError) = .error .typeError := by unfold loadNow; rw [hx]
    rw [this]
    rfl
  · intro hx
    have : loadNow x (.error .typeError) = .ok () := by
      unfold loadNow
      cases hc : x.chunks with
      | none => exact absurd hc hx
      | some cs => rfl
    rw [this]
    exact ⟨_, rfl, rfl⟩

/-! ### C69: the name of the time dimension -/

/-- C69, refuted: whatever `tdim` is, an array without a dimension called "time" cannot be processed
with "residuals" or "model". -/
theorem C69_fails (x : SeasonArray) (tdim : String) {fmt : String} (hf : fmt ≠ "coeff")
    (h : "time" ∉ x.da.dimNames) : ∃ er, deseason x tdim fmt = .error er := by
  by_cases htd : tdim ∈ x.da.dimNames
  · unfold deseason
    have h1 : x.da.dimNames.contains tdim = true := by rw [List.contains_iff_mem]; exact htd
    simp only [h1, pyAssert_true, ok_bind]
    cases timeAttr x with
    | error er => exact ⟨er, rfl⟩
    | ok ax =>
      simp only [ok_bind]
      cases h2 : seasonDims x tdim fmt with
      | error er => exact ⟨er, rfl⟩
      | ok od =>
        simp only [ok_bind]
        have hne : tdim ≠ "time" := fun hh => h (hh ▸ htd)
        have hod : "time" ∉ od.map Prod.fst := by
          unfold seasonDims at h2
          split at h2
          · cases h2
            rw [List.map_append, List.mem_append]
            rintro (hh | hh)
            · exact h (List.map_subset _ (List.filter_subset_self _) hh)
            · exact hne (List.mem_singleton.1 hh).symm
          · cases h2
        have h3 : moveFirst (deseasonLazy x tdim (.array (yearDays ax)) fmt od) fmt =
            .error .valueError := by
          unfold moveFirst
          rw [if_neg hf, if_neg]
          rw [List.contains_iff_mem]
          exact hod
        rw [h3]
        exact ⟨_, rfl⟩
  · exact ⟨_, C58_no_dim x tdim fmt htd⟩

/-- C69, refuted for "coeff" as well: without a coordinate called "time" every call fails. -/
theorem C69_coeff_fails (x : SeasonArray) (tdim fmt : String) (h : x.axes.lookup "time" = none) :
    ∃ er, deseason x tdim fmt = .error er := by
  by_cases htd : tdim ∈ x.da.dimNames
  · unfold deseason
    have h1 : x.da.dimNames.contains tdim = true := by rw [List.contains_iff_mem]; exact htd
    have h2 : timeAttr x = .error .attributeError := by unfold timeAttr; rw [h]
    simp only [h1, pyAssert_true, ok_bind, h2, error_bind]
    exact ⟨_, rfl⟩
  · exact ⟨_, C58_no_dim x tdim fmt htd⟩

end
end Momlevel.Props
