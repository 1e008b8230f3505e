import Verif.Props.SeasonTimes

/-!
# Seasonal models: examples and counterexamples (C57–C61, C69–C73)
-/

set_option linter.unusedSectionVars false

namespace Momlevel.Props
open Momlevel

/-- Three days of year 1. -/
def seaAxis : TimeAxis :=
  ⟨.noleap, [⟨⟨1, 1, 1⟩, 0⟩, ⟨⟨1, 1, 2⟩, 0⟩, ⟨⟨1, 1, 3⟩, 0⟩]⟩

/-- Two points, three days, in four blocks. -/
noncomputable def seaA : SeasonArray :=
  ⟨⟨[("x", 2), ("time", 3)], fun e => .fin ((e "time" : ℝ) * (e "x" : ℝ) + 1)⟩,
   [("time", seaAxis)], ["time", "x"],
   [("long_name", "sea level"), ("standard_name", "height"), ("units", "m")],
   some [[1, 1], [2, 1]]⟩

/-- The same array, not chunked. -/
noncomputable def seaB : SeasonArray := { seaA with chunks := none }

/-- A single series of three days. -/
noncomputable def seaC : SeasonArray :=
  ⟨⟨[("time", 3)], fun e => .fin (e "time" : ℝ)⟩, [("time", seaAxis)], ["time"], [], none⟩

/-- The same series along a dimension "t" with dates under that name. -/
noncomputable def seaT : SeasonArray :=
  ⟨⟨[("t", 3)], fun e => .fin (e "t" : ℝ)⟩, [("t", seaAxis)], ["t"], [], none⟩

theorem seaA_time : Spec.HasTime seaA seaAxis 3 :=
  ⟨by decide, by decide, rfl, rfl, by decide⟩

theorem seaB_time : Spec.HasTime seaB seaAxis 3 :=
  ⟨by decide, by decide, rfl, rfl, by decide⟩

theorem seaC_time : Spec.HasTime seaC seaAxis 3 :=
  ⟨by decide, by decide, rfl, rfl, by decide⟩

theorem seaA_covered : Spec.Covered seaA := by
  intro cs h
  cases h
  rfl

theorem seaB_covered : Spec.Covered seaB := by
  intro cs h
  cases h

theorem seaAxis_valid : ∀ s ∈ seaAxis.stamps, s.date.Valid seaAxis.cal := by decide

theorem seaA_indexed : Spec.Indexed seaA := by
  constructor
  · change ["time", "x"].Nodup
    decide
  · change ∀ c ∈ ["time", "x"], c ∈ ["x", "time"]
    decide

theorem seaA_series (i : Nat) :
    Spec.SeriesIs seaA.da (fun _ => i) (fun k : Fin 3 => ((k : Nat) : ℝ) * (i : ℝ) + 1) := by
  intro k
  change Fl.fin _ = _
  rw [Function.update_self, Function.update_of_ne (by decide)]

theorem seaA_wf : seaA.da.WF := by
  intro e e' h
  change Fl.fin _ = Fl.fin _
  rw [h "time" (by decide), h "x" (by decide)]

/-- C59, refuted: a call changes the attributes of its argument. -/
theorem C59_counterexample :
    ∃ (x : SeasonArray) (r : Deseasoned), deseason x = .ok r ∧ r.argAttrs ≠ x.attrs := by
  obtain ⟨d, hd, _⟩ := deseason_residuals seaA_time seaA_covered
  refine ⟨seaA, _, hd, ?_⟩
  change editAttrs "residuals" [("long_name", "sea level"), ("standard_name", "height"),
    ("units", "m")] ≠ [("long_name", "sea level"), ("standard_name", "height"), ("units", "m")]
  decide

/-- C69, refuted: an array with dates along "t" cannot be processed with `tdim="t"`. -/
theorem C69_counterexample :
    ∃ (x : SeasonArray) (ax : TimeAxis), x.da.dims = [("t", ax.stamps.length)] ∧
      x.axes = [("t", ax)] ∧ ∀ fmt, ∃ er, deseason x "t" fmt = .error er :=
  ⟨seaT, seaAxis, rfl, rfl, fun fmt => C69_coeff_fails seaT "t" fmt rfl⟩

/-- C69, the part that holds (the full claim, for any name, is refuted by `C69_counterexample`): with
the name "time" every known format works on arrays with another dimension. -/
theorem C69_partial {x : SeasonArray} {ax : TimeAxis} {n : Nat} (h : Spec.HasTime x ax n)
    (hc : Spec.Covered x) (hd : x.da.ndim ≠ 1) {tdim fmt : String} (ht : tdim = "time")
    (hf : Spec.knownFormat fmt) :
    ∃ r d, deseason x tdim fmt = .ok r ∧ r.values = .ok d := by
  subst ht
  obtain ⟨r, _, d, _, h1, _, h2, _⟩ := C58_chunks h hc hc rfl rfl hf (fun _ => hd)
  exact ⟨r, d, h1, h2⟩

/-- C70, refuted: an array with dates along "t" cannot be processed with `tcoord="t"`. -/
theorem C70_counterexample :
    ∃ (x : SeasonArray) (ax : TimeAxis), x.da.dims = [("t", ax.stamps.length)] ∧
      x.axes = [("t", ax)] ∧ seasonalModel x "t" = .error .valueError :=
  ⟨seaT, seaAxis, rfl, rfl, rfl⟩

/-- C70, the part that holds (the full claim, for any name, is refuted by `C70_counterexample`): with
the name "time" `seasonal_model` works. -/
theorem C70_partial {x : SeasonArray} {ax : TimeAxis} {n : Nat} (h : Spec.HasTime x ax n)
    {tcoord : String} (ht : tcoord = "time") : ∃ r, seasonalModel x tcoord = .ok r := by
  subst ht
  exact ⟨_, seasonal_ok h⟩

/-- C71, refuted: the coefficients of a plain series cannot be computed. -/
theorem C71_counterexample :
    ∃ (x : SeasonArray) (ax : TimeAxis), x.da.dims = [("time", ax.stamps.length)] ∧
      x.axes = [("time", ax)] ∧ deseason x "time" "coeff" = .error .typeError :=
  ⟨seaC, seaAxis, rfl, rfl, (C71_fails seaC_time rfl).1 rfl⟩

/-- C71, the part that holds (the full claim, for any number of dimensions, is refuted by
`C71_counterexample`): the coefficients are returned for arrays with another dimension. -/
theorem C71_partial {x : SeasonArray} {ax : TimeAxis} {n : Nat} (h : Spec.HasTime x ax n)
    (hc : Spec.Covered x) (hd : x.da.ndim ≠ 1) :
    ∃ r d, deseason x "time" "coeff" = .ok r ∧ r.values = .ok d ∧
      d.dims = ("coeff", 6) :: x.da.dims.filter (fun p => p.1 ≠ "time") := by
  obtain ⟨d, h1, h2, _⟩ := deseason_coeff h hc hd
  exact ⟨_, d, h1, rfl, h2⟩

/-! ### Examples: the hypotheses are met by concrete arrays -/

/-- C57: the model and the residuals of the two series. -/
example : ∃ m am r ar, seasonalModel seaA = .ok ((m, am), (r, ar)) ∧
    ∃ z : Fin 3 → ℝ, Spec.IsFit (Spec.yearsOf seaAxis 3) (fun k => ((k : Nat) : ℝ) * 1 + 1) z ∧
      Spec.SeriesIs m (fun _ => 1) z := by
  obtain ⟨m, am, r, ar, h1, _, _, h2⟩ := C57_fit seaA_time seaAxis_valid seaA_indexed
  obtain ⟨z, hz, hm, _⟩ := h2 (fun _ => 1) _ (seaA_series 1)
  refine ⟨m, am, r, ar, h1, z, ?_, hm⟩
  simpa using hz

/-- C57: a constant series is a combination of the regressors and is reproduced. -/
example {m r : DA (Fl ℝ)} {am ar : Dict String}
    (hr : seasonalModel seaA = .ok ((m, am), (r, ar))) :
    Spec.SeriesIs r (fun _ => 0) (fun _ : Fin 3 => 0) := by
  refine (C57_reproduces seaA_time seaAxis_valid hr (fun _ => 0) ![1, 0, 0, 0, 0, 0] ?_).2
  intro k
  rw [seaA_series 0 k]
  simp only [regressor_sum]
  simp

/-- C57: fitting the residuals again. -/
example {m r : DA (Fl ℝ)} {am ar : Dict String}
    (hr : seasonalModel seaA = .ok ((m, am), (r, ar))) :
    ∃ m' am' r' ar', seasonalModel { seaA with da := r } = .ok ((m', am'), (r', ar')) ∧
      Spec.SeriesIs m' (fun _ => 1) (fun _ : Fin 3 => 0) := by
  obtain ⟨m', am', r', ar', h1, h2⟩ := C57_refit seaA_time seaA_indexed hr
  exact ⟨m', am', r', ar', h1, (h2 _ _ (seaA_series 1)).1⟩

/-- C57: `seasonal_cycle_model` with a year length per sample. -/
example : ∃ f, seasonalCycleModel (fun k => .fin ((![1, 2, 4] : Fin 3 → ℝ) k))
    (.array (List.ofFn (![365, 365, 366] : Fin 3 → ℝ))) = .ok f := by
  obtain ⟨f, hf, _⟩ := C57_cycle_lengths ![1, 2, 4] ![365, 365, 366] (fun k => by
    fin_cases k <;> norm_num)
  exact ⟨f, hf⟩

/-- C58: four blocks or none, the result is the same. -/
example : ∃ r r' d d', deseason seaA "time" "model" = .ok r ∧ deseason seaB "time" "model" = .ok r' ∧
    r.values = .ok d ∧ r'.values = .ok d' ∧ d'.dims = d.dims ∧
      ∀ e, ("model" ≠ "coeff" → e "time" < 3) → d'.get e = d.get e :=
  C58_chunks (x := seaA) (x' := seaB) seaA_time seaA_covered seaB_covered rfl rfl
    (Or.inr (Or.inl rfl)) (fun h => absurd h (by decide))

/-- C58: the coefficients of the two series. -/
example : ∃ q dq, deseason seaA "time" "coeff" = .ok q ∧ q.values = .ok dq ∧
    dq.dims = [("coeff", 6), ("x", 2)] := by
  obtain ⟨q, _, dq, _, h1, _, h2, _, h3, _⟩ := C58_coeff seaA_time seaA_covered
    (by decide : (2 : Nat) ≠ 1) seaA_wf
  exact ⟨q, dq, h1, h2, h3⟩

/-- C58: an unknown format. -/
example : deseason seaA "time" "residual" = .error .valueError :=
  C58_unknown seaA_time (by unfold Spec.knownFormat; decide)

/-- C59: two calls. -/
example : ∃ f : Nat → SeasonArray, f 0 = seaA ∧ (f 2).attrs.lookup "long_name" =
    some ("sea level residuals from detrending and deseasonalizing" ++
      " residuals from detrending and deseasonalizing") := by
  obtain ⟨f, h0, _, h2⟩ := C59_accumulates seaA_time seaA_covered (s := "sea level") rfl 2
  exact ⟨f, h0, h2⟩

/-- C61: a calendar without leap years. -/
example : ∃ t, decimalTime 3 (.array (yearDays seaAxis)) = .ok t ∧
    ∀ i j : Fin 3, i < j → t i < t j :=
  C61_partial rfl (Or.inr (by decide))

/-- C72: the labels of a result. -/
example {m r : DA (Fl ℝ)} {am ar : Dict String}
    (hr : seasonalModel seaA = .ok ((m, am), (r, ar))) :
    ar.lookup "standard_name" = some "height_sresid" := (C72_labels hr).1.2

/-- C73: one hour later in the same year. -/
example : decimalYear .noleap ⟨⟨1, 2, 28⟩, 3600000000⟩ < decimalYear .noleap ⟨⟨1, 3, 1⟩, 0⟩ :=
  C73_partial (by decide) (by decide) (by norm_num) (by norm_num) (by decide) (by decide)

/-- C73: the end of the leap year 4. -/
example : decimalYear .julian ⟨⟨4, 12, 31⟩, 0⟩ = decimalYear .julian ⟨⟨5, 1, 1⟩, 0⟩ :=
  (C73_counterexample (by decide) (by norm_num) (by decide)).1

/-- An array with one missing value. -/
noncomputable def seaN : SeasonArray :=
  { seaA with
    da := ⟨[("x", 2), ("time", 3)], fun e =>
      if e "time" = 1 ∧ e "x" = 0 then .nan else .fin ((e "time" : ℝ) * (e "x" : ℝ) + 1)⟩ }

theorem seaN_time : Spec.HasTime seaN seaAxis 3 :=
  ⟨by decide, by decide, rfl, rfl, by decide⟩

theorem seaN_missing : Spec.atPoint seaN.da (fun _ => 0) 1 = .nan := by
  simp [Spec.atPoint, seaN, Function.update]

theorem seaN_second (k : Nat) :
    Spec.atPoint seaN.da (fun _ => 1) k = Spec.atPoint seaA.da (fun _ => 1) k := by
  simp [Spec.atPoint, seaN, seaA, Function.update]

/-- C57: the whole first series is missing. -/
example {m r : DA (Fl ℝ)} {am ar : Dict String}
    (hr : seasonalModel seaN = .ok ((m, am), (r, ar))) :
    Spec.atPoint r (fun _ => 0) 2 = .nan :=
  (C57_missing seaN_time hr (fun _ => 0) (i := 1) (by norm_num) seaN_missing 2
    (by norm_num)).2

/-- C57: the second series is not affected by it. -/
example {m r m' r' : DA (Fl ℝ)} {a1 a2 a3 a4 : Dict String}
    (h : seasonalModel seaN = .ok ((m, a1), (r, a2)))
    (h' : seasonalModel seaA = .ok ((m', a3), (r', a4))) :
    ∀ k < 3, Spec.atPoint m (fun _ => 1) k = Spec.atPoint m' (fun _ => 1) k := fun k hk =>
  (C57_pointwise seaN_time seaA_time h h' (fun _ => 1) (fun _ => 1)
    (fun k _ => seaN_second k) k hk).1

/-- C57: twice the first series plus three times the second one. -/
example {m r : DA (Fl ℝ)} {a1 a2 : Dict String}
    (h : seasonalModel seaA = .ok ((m, a1), (r, a2)))
    {w : SeasonArray} (hw : Spec.HasTime w seaAxis 3)
    {mw rw' : DA (Fl ℝ)} {a3 a4 : Dict String}
    (h' : seasonalModel w = .ok ((mw, a3), (rw', a4)))
    (hs : Spec.SeriesIs w.da (fun _ => 1)
      (fun k : Fin 3 => 2 * (((k : Nat) : ℝ) * ((1 : Nat) : ℝ) + 1) +
        3 * (((k : Nat) : ℝ) * ((1 : Nat) : ℝ) + 1))) :
    ∃ zu zv, Spec.SeriesIs m (fun _ => 1) zu ∧ Spec.SeriesIs m (fun _ => 1) zv ∧
      Spec.SeriesIs mw (fun _ => 1) (fun k : Fin 3 => 2 * zu k + 3 * zv k) := by
  obtain ⟨zu, zv, h1, h2, h3, _⟩ := C57_linear seaA_time seaA_time hw h h h' (fun _ => 1) _ _ 2 3
    (seaA_series 1) (seaA_series 1) hs
  exact ⟨zu, zv, h1, h2, h3⟩

/-- C58: the whole first series is missing for `deseason` as well. -/
example {m r : Deseasoned} {dm dr : DA (Fl ℝ)} (hm : deseason seaN "time" "model" = .ok m)
    (hr : deseason seaN "time" "residuals" = .ok r) (hdm : m.values = .ok dm)
    (hdr : r.values = .ok dr) : Spec.atPoint dm (fun _ => 0) 0 = .nan :=
  (C58_missing seaN_time seaA_covered hm hr hdm hdr (fun _ => 0) (i := 1) (by norm_num)
    seaN_missing 0 (by norm_num)).1

/-- C57_cycle and C57_cycle_missing: four daily values, and the same with one of them missing. -/
example : (∃ f, seasonalCycleModel (fun k : Fin 4 => .fin ((k : Nat) : ℝ)) = .ok f ∧ ∃ z : Fin 4 → ℝ,
      ∀ k, f.smodel k = .fin (z k)) ∧
    ∀ f, seasonalCycleModel (fun k : Fin 4 => if k = 2 then .nan else .fin ((k : Nat) : ℝ)) = .ok f →
      ∀ k, f.smodel k = .nan := by
  constructor
  · obtain ⟨f, h1, c, z, -, -, -, h2, -⟩ := C57_cycle (fun k : Fin 4 => ((k : Nat) : ℝ))
    exact ⟨f, h1, z, h2⟩
  · intro f h
    exact (C57_cycle_missing _ _ h (i := 2) (by simp)).2.1

/-- C69_partial and C70_partial: the calls with the name "time" succeed for the array with a missing value. -/
example : (∃ r d, deseason seaN "time" "residuals" = .ok r ∧ r.values = .ok d) ∧ ∃ r, seasonalModel seaN "time" = .ok r :=
  ⟨C69_partial seaN_time seaA_covered (by decide) rfl (by simp [Spec.knownFormat]), C70_partial seaN_time rfl⟩

/-- C69_coeff_fails: without an axis called "time" every format fails. -/
example : ∃ er, deseason { seaA with axes := [("t", seaAxis)] } "t" "coeff" = .error er :=
  C69_coeff_fails _ _ _ rfl

/-- C59_partial: without attributes the first call edits the argument. -/
example {r : Deseasoned} (h : deseason { seaA with attrs := [] } "time" "residuals" = .ok r) : r.argAttrs ≠ [] := by
  intro he
  have := ((C59_partial (x := { seaA with attrs := [] }) (by decide) h).1 he).2.2.1
  simp at this

end Momlevel.Props
