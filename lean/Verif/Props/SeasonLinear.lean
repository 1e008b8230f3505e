import Verif.Props.Linear
import Verif.Props.GaugeTime
import Verif.Props.Deseason

/-! # C118, C123 for `deseason`: superposition, and extraction at tide gauges -/

set_option linter.unusedSectionVars false

namespace Momlevel.Props
open Momlevel Momlevel.Fl Momlevel.Spec Matrix

theorem realCoeff_comb {n : Nat} (t u v : Fin n → ℝ) (a b : ℝ) (j : Fin 6) :
    realCoeff t (fun k => a * u k + b * v k) j = a * realCoeff t u j + b * realCoeff t v j := by
  have h : (fun k => a * u k + b * v k) = a • u + b • v := by funext k; simp
  unfold realCoeff
  rw [h, Matrix.add_vecMul, Matrix.smul_vecMul, Matrix.smul_vecMul]
  simp

theorem realModel_comb {n : Nat} (t u v : Fin n → ℝ) (a b : ℝ) (k : Fin n) :
    realModel t (fun k => a * u k + b * v k) k = a * realModel t u k + b * realModel t v k := by
  have h : (fun k => a * u k + b * v k) = a • u + b • v := by funext k; simp
  unfold realModel
  rw [h, Matrix.add_vecMul, Matrix.smul_vecMul, Matrix.smul_vecMul, Matrix.add_vecMul, Matrix.smul_vecMul,
    Matrix.smul_vecMul]
  simp

/-- The fit of a superposition is the superposition of the fits. -/
theorem fit_superposed {n : Nat} (t : Fin n → ℝ) {a b : ℝ} {u v w : Fin n → Fl ℝ}
    (h : ∀ k, Superposed a b (u k) (v k) (w k)) :
    (∀ j, Superposed a b ((seasonalFit t u).coeff j) ((seasonalFit t v).coeff j) ((seasonalFit t w).coeff j)) ∧
    (∀ k, Superposed a b ((seasonalFit t u).smodel k) ((seasonalFit t v).smodel k) ((seasonalFit t w).smodel k)) ∧
    ∀ k, Superposed a b ((seasonalFit t u).residuals k) ((seasonalFit t v).residuals k)
      ((seasonalFit t w).residuals k) := by
  by_cases hn : ∃ k, u k = nan ∧ v k = nan ∧ w k = nan
  · obtain ⟨k, hu, hv, hw⟩ := hn
    have h1 := fit_nan t hu
    have h2 := fit_nan t hv
    have h3 := fit_nan t hw
    exact ⟨fun j => Or.inl ⟨h1.1 j, h2.1 j, h3.1 j⟩, fun k => Or.inl ⟨h1.2.1 k, h2.2.1 k, h3.2.1 k⟩,
      fun k => Or.inl ⟨h1.2.2 k, h2.2.2 k, h3.2.2 k⟩⟩
  · have hf : ∀ k, ∃ p q : ℝ, u k = fin p ∧ v k = fin q ∧ w k = fin (a * p + b * q) := fun k =>
      (h k).resolve_left (fun hk => hn ⟨k, hk⟩)
    choose p q hp hq hw using hf
    obtain rfl : u = fun k => fin (p k) := funext hp
    obtain rfl : v = fun k => fin (q k) := funext hq
    obtain rfl : w = fun k => fin (a * p k + b * q k) := funext hw
    refine ⟨fun j => Or.inr ⟨_, _, fit_coeff t p j, fit_coeff t q j, ?_⟩,
      fun k => Or.inr ⟨_, _, fit_smodel t p k, fit_smodel t q k, ?_⟩,
      fun k => Or.inr ⟨_, _, fit_residuals t p k, fit_residuals t q k, ?_⟩⟩
    · rw [fit_coeff t (fun k => a * p k + b * q k), realCoeff_comb]
    · rw [fit_smodel t (fun k => a * p k + b * q k), realModel_comb]
    · rw [fit_residuals t (fun k => a * p k + b * q k), realModel_comb]
      congr 1
      ring

/-- C118: all three outputs of `deseason` for `a x + b y` are `a` times those of `x` plus `b` times those of `y`,
whatever the chunks of the three arrays. -/
theorem C118_deseason {x y w : SeasonArray} {ax : TimeAxis} {n : Nat} {fmt : String} {a b : ℝ}
    (hx : HasTime x ax n) (hy : HasTime y ax n) (hw : HasTime w ax n)
    (cx : Covered x) (cy : Covered y) (cw : Covered w)
    (hd : x.da.dims = w.da.dims) (hd' : y.da.dims = w.da.dims)
    (hs : ∀ e, Superposed a b (x.da.get e) (y.da.get e) (w.da.get e))
    (hf : knownFormat fmt) (hn : fmt = "coeff" → w.da.ndim ≠ 1) :
    ∃ rx ry rw dx dy dw, deseason x "time" fmt = .ok rx ∧ deseason y "time" fmt = .ok ry ∧
      deseason w "time" fmt = .ok rw ∧ rx.values = .ok dx ∧ ry.values = .ok dy ∧ rw.values = .ok dw ∧
      dx.dims = dw.dims ∧ dy.dims = dw.dims ∧
      ∀ e, (fmt ≠ "coeff" → e "time" < n) → (fmt = "coeff" → e "coeff" < 6) →
        Superposed a b (dx.get e) (dy.get e) (dw.get e) := by
  have hfit := fun e => fit_superposed (sampleYears ax n) (u := seriesAt x.da "time" n e)
    (v := seriesAt y.da "time" n e) (w := seriesAt w.da "time" n e) (fun k => hs _)
  have lx : ∀ p, leading x p = leading w p := fun p => by unfold leading; rw [hd]
  have ly : ∀ p, leading y p = leading w p := fun p => by unfold leading; rw [hd']
  rcases hf with rfl | rfl | rfl
  · obtain ⟨dx, e1, e2, e3⟩ := deseason_residuals hx cx
    obtain ⟨dy, f1, f2, f3⟩ := deseason_residuals hy cy
    obtain ⟨dw, g1, g2, g3⟩ := deseason_residuals hw cw
    refine ⟨_, _, _, dx, dy, dw, e1, f1, g1, rfl, rfl, rfl, by rw [e2, g2, lx], by rw [f2, g2, ly], fun e he _ => ?_⟩
    have hl := he (by decide)
    rw [e3 e hl, f3 e hl, g3 e hl]
    have := (hfit e).2.2 ⟨e "time", hl⟩
    simpa only [entry, dif_pos hl, fitAtPoint] using this
  · obtain ⟨dx, e1, e2, e3⟩ := deseason_model hx cx
    obtain ⟨dy, f1, f2, f3⟩ := deseason_model hy cy
    obtain ⟨dw, g1, g2, g3⟩ := deseason_model hw cw
    refine ⟨_, _, _, dx, dy, dw, e1, f1, g1, rfl, rfl, rfl, by rw [e2, g2, lx], by rw [f2, g2, ly], fun e he _ => ?_⟩
    have hl := he (by decide)
    rw [e3 e hl, f3 e hl, g3 e hl]
    have := (hfit e).2.1 ⟨e "time", hl⟩
    simpa only [entry, dif_pos hl, fitAtPoint] using this
  · have hnx : x.da.ndim ≠ 1 := by unfold DA.ndim; rw [hd]; exact hn rfl
    have hny : y.da.ndim ≠ 1 := by unfold DA.ndim; rw [hd']; exact hn rfl
    obtain ⟨dx, e1, e2, e3⟩ := deseason_coeff hx cx hnx
    obtain ⟨dy, f1, f2, f3⟩ := deseason_coeff hy cy hny
    obtain ⟨dw, g1, g2, g3⟩ := deseason_coeff hw cw (hn rfl)
    refine ⟨_, _, _, dx, dy, dw, e1, f1, g1, rfl, rfl, rfl, by rw [e2, g2, lx], by rw [f2, g2, ly], fun e _ he => ?_⟩
    have hl := he rfl
    rw [e3 e, f3 e, g3 e]
    have := (hfit e).1 ⟨e "coeff", hl⟩
    simpa only [entry, dif_pos hl, fitAtPoint] using this

/-! ### Gauges -/

/-- The series of a point is that of the array there. -/
theorem at_seasonSeries (a : DA (Fl ℝ)) {dims : List String} (ht : "time" ∉ dims) (e0 : Env) (n : Nat) (e : Env) :
    seriesAt (Spec.seriesAt a dims e0) "time" n e =
      seriesAt a "time" n (fun d => if d ∈ dims then e0 d else e d) := by
  funext k
  show a.get _ = a.get _
  congr 1
  funext d
  by_cases hd : d ∈ dims
  · have : d ≠ "time" := fun h => ht (h ▸ hd)
    rw [if_pos hd, Function.update_of_ne this, if_pos hd]
  · rw [if_neg hd]
    by_cases h : d = "time"
    · subst h; simp
    · rw [Function.update_of_ne h, Function.update_of_ne h, if_neg hd]

theorem at_leading (a : DA (Fl ℝ)) {dims : List String} (ht : "time" ∉ dims) (n : Nat) :
    (("time", n) :: a.dims.filter (fun p => p.1 ≠ "time")).filter (fun q => decide (q.1 ∉ dims)) =
      ("time", n) :: (a.dims.filter (fun q => decide (q.1 ∉ dims))).filter (fun p => p.1 ≠ "time") := by
  rw [List.filter_cons_of_pos (by simpa using ht), List.filter_filter, List.filter_filter]
  congr 1
  exact List.filter_congr (fun p _ => Bool.and_comm _ _)

/-- C123: removing the seasonal cycle and extracting at gauges can be done in either order, with the residuals and
with the model; the chunks of the array and of the series do not matter. -/
theorem C123_deseason {T : BallTree} {files : String → Option LocFrame} {a : GaugeArray (Fl ℝ)}
    {xarg yarg : AxisArg} {csv : String} {mask : MaskArg} {thr : Option (Fl ℝ)} {dw : Bool} {xn yn : String}
    {x y : LabelledDA} {s : SeasonArray} {ax : TimeAxis} {n : Nat} (hsa : s.da = a.da) (hs : HasTime s ax n)
    (hc : Covered s) {fmt : String} (hf : fmt = "residuals" ∨ fmt = "model") {label : String → Nat → Fl ℝ}
    (hl : ∀ d, d ≠ "time" → label d = a.label d)
    (hx : Denotes a xarg xn x) (hy : Denotes a yarg yn y)
    (htx : "time" ∉ x.da.dimNames) (hty : "time" ∉ y.da.dimNames) {out : List (String × DA (Fl ℝ))}
    (h : extractTidegauge T files (.da a) xarg yarg csv mask thr dw = .ok out) :
    ∃ r d out', deseason s "time" fmt = .ok r ∧ r.values = .ok d ∧
      extractTidegauge T files (.da ⟨d, label, a.coords⟩) xarg yarg csv mask thr dw = .ok out' ∧
      List.Forall₂ (fun p q => q.1 = p.1 ∧ ∀ b : SeasonArray, b.da = p.2 →
        b.axes.lookup "time" = s.axes.lookup "time" → Covered b →
        ∃ r' d', deseason b "time" fmt = .ok r' ∧ r'.values = .ok d' ∧ d'.dims = q.2.dims ∧
          ∀ e, e "time" < n → d'.get e = q.2.get e) out out' := by
  -- the array
  have key : ∀ b : SeasonArray, HasTime b ax n → Covered b → ∃ r d, deseason b "time" fmt = .ok r ∧ r.values = .ok d ∧
      d.dims = leading b ("time", n) ∧ ∀ e, e "time" < n → d.get e =
        if fmt = "residuals" then entry (fitAtPoint b ax n e).residuals (e "time")
        else entry (fitAtPoint b ax n e).smodel (e "time") := by
    intro b hb hcb
    rcases hf with rfl | rfl
    · obtain ⟨d, e1, e2, e3⟩ := deseason_residuals hb hcb
      exact ⟨_, d, e1, rfl, e2, fun e he => by rw [if_pos rfl]; exact e3 e he⟩
    · obtain ⟨d, e1, e2, e3⟩ := deseason_model hb hcb
      exact ⟨_, d, e1, rfl, e2, fun e he => by rw [if_neg (by decide)]; exact e3 e he⟩
  obtain ⟨r, d, hr, hd, hdims, hget⟩ := key s hs hc
  have hsb : SameBut "time" a ⟨d, label, a.coords⟩ := by
    refine ⟨rfl, hl, ?_⟩
    show d.dims.filter _ = _
    rw [hdims, leading, List.filter_cons_of_neg (by simp), List.filter_filter, hsa]
    exact List.filter_congr (fun p _ => by by_cases hp : p.1 = "time" <;> simp [hp])
  obtain ⟨out', h4, h5⟩ := C123_same_place hsb hx hy htx hty h
  refine ⟨r, d, out', hr, hd, h4, h5.imp ?_⟩
  rintro p q ⟨hn, dims, e0, ht, hp, hq⟩
  refine ⟨hn, fun b hb hbx hcb => ?_⟩
  have hbd : b.da.dims = s.da.dims.filter (fun q => decide (q.1 ∉ dims)) := by rw [hb, hp, hsa]; rfl
  have hbt : HasTime b ax n := by
    refine ⟨?_, ?_, hbx.trans hs.axis, hs.count, ?_⟩
    · unfold DA.dimNames
      rw [hbd]
      exact (List.Sublist.map _ List.filter_sublist).nodup hs.distinct
    · rw [hbd, List.mem_filter]
      exact ⟨hs.dim_mem, by simpa using ht⟩
    · intro hcf
      unfold DA.dimNames at hcf
      rw [hbd] at hcf
      exact hs.no_coeff ((List.Sublist.map _ List.filter_sublist).subset hcf)
  obtain ⟨r', d', hr', hd', hdims', hget'⟩ := key b hbt hcb
  refine ⟨r', d', hr', hd', ?_, fun e he => ?_⟩
  · rw [hdims', hq]
    show _ = d.dims.filter _
    rw [hdims, leading, leading, hbd, at_leading _ ht]
  · have hfit : fitAtPoint b ax n e = fitAtPoint s ax n (fun d => if d ∈ dims then e0 d else e d) := by
      unfold fitAtPoint
      rw [hb, hp, at_seasonSeries _ ht, hsa]
    have ht' : (if "time" ∈ dims then e0 "time" else e "time") = e "time" := if_neg ht
    rw [hget' e he, hq]
    show _ = d.get _
    rw [hget _ (by show ite _ _ _ < n; rw [ht']; exact he), hfit]
    simp only [ht']

/-! ### Cases -/

/-- Twelve months at two points, the values those of `f`. -/
noncomputable def superSea (f : Env → ℝ) (ch : Option (List (List Nat))) : SeasonArray :=
  ⟨⟨[("time", 12), ("x", 2)], fun e => if e "x" = 1 ∧ e "time" = 3 then nan else fin (f e)⟩, exMonthly.axes,
    ["time", "x"], [], ch⟩

theorem superSea_time (f : Env → ℝ) (ch : Option (List (List Nat))) : HasTime (superSea f ch) exAxis 12 :=
  ⟨by simp [superSea, DA.dimNames], by simp [superSea], rfl, by simp [exAxis], by simp [superSea, DA.dimNames]⟩

/-- `2 t - 3 x` at two points, one of them with a missing month: all three outputs are those of `t` and `x` combined. -/
example (fmt : String) (hf : knownFormat fmt) :
    ∃ rx ry rw dx dy dw, deseason (superSea (fun e => e "time") none) "time" fmt = .ok rx ∧
      deseason (superSea (fun e => e "x") (some [[12], [1, 1]])) "time" fmt = .ok ry ∧
      deseason (superSea (fun e => 2 * e "time" + -3 * e "x") none) "time" fmt = .ok rw ∧
      rx.values = .ok dx ∧ ry.values = .ok dy ∧ rw.values = .ok dw ∧ dx.dims = dw.dims ∧ dy.dims = dw.dims ∧
      ∀ e, (fmt ≠ "coeff" → e "time" < 12) → (fmt = "coeff" → e "coeff" < 6) →
        Superposed 2 (-3) (dx.get e) (dy.get e) (dw.get e) :=
  C118_deseason (superSea_time _ _) (superSea_time _ _) (superSea_time _ _) (fun cs h => by cases h)
    (fun cs h => by cases h; rfl) (fun cs h => by cases h) rfl rfl (fun e => by
      by_cases h : e "x" = 1 ∧ e "time" = 3
      · exact Or.inl ⟨if_pos h, if_pos h, if_pos h⟩
      · exact Or.inr ⟨_, _, if_neg h, if_neg h, if_neg h⟩) hf (fun _ => by simp [superSea, DA.ndim])

/-- The residuals at the gauge, in both orders. -/
example (T : BallTree) : ∃ r d out out',
    deseason ⟨tgMonths.da, exMonthly.axes, ["time"], [], none⟩ "time" "residuals" = .ok r ∧ r.values = .ok d ∧
    extractTidegauge T (fun _ => some tgGauges) (.da tgMonths) = .ok out ∧
    extractTidegauge T (fun _ => some tgGauges) (.da ⟨d, tgLabel, tgMonths.coords⟩) = .ok out' ∧
    List.Forall₂ (fun p q => q.1 = p.1 ∧ ∀ b : SeasonArray, b.da = p.2 →
      b.axes.lookup "time" = exMonthly.axes.lookup "time" → Covered b →
      ∃ r' d', deseason b "time" "residuals" = .ok r' ∧ r'.values = .ok d' ∧ d'.dims = q.2.dims ∧
        ∀ e, e "time" < 12 → d'.get e = q.2.get e) out out' := by
  obtain ⟨out, h⟩ := tgMonths_run T
  have hs : HasTime ⟨tgMonths.da, exMonthly.axes, ["time"], [], none⟩ exAxis 12 :=
    ⟨by simp [tgMonths, DA.dimNames], by simp [tgMonths], rfl, by simp [exAxis], by simp [tgMonths, DA.dimNames]⟩
  obtain ⟨r, d, out', h1, h2, h3, h4⟩ := C123_deseason (a := tgMonths) (label := tgLabel) rfl hs
    (fun cs hcs => by cases hcs) (Or.inl rfl) (fun _ _ => rfl) (Denotes.name _ tgX rfl) (Denotes.name _ tgY rfl)
    (by simp [DA.dimNames, tgX]) (by simp [DA.dimNames, tgY]) h
  exact ⟨r, d, out, out', h1, h2, h, h3, h4⟩

end Momlevel.Props
