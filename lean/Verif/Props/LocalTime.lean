import Verif.Props.Local
import Verif.Props.Deseason
import Verif.Model.AverageDS
import Verif.Model.Trend
import Verif.Props.AverageDS
import Verif.Props.AnnualCycle

/-! # C97: time averages, trends and seasonal cycles of a part of the domain -/

set_option linter.unusedSectionVars false

namespace Momlevel.Props
open Momlevel Momlevel.Fl Momlevel.Spec

variable {K : Type} [Field K] [LinearOrder K] {x : String} {idx : List Nat}

theorem pick_column (a : DA (Fl K)) {t : String} (h : t ≠ x) (e : Env) (pos : List Nat) :
    column (pick x idx a) t e pos = column a t (Function.update e x (idx.getD (e x) 0)) pos := by
  unfold column
  refine List.map_congr_left (fun i _ => ?_)
  rw [pick_get, Function.update_of_ne h.symm, Function.update_comm h]

theorem pick_annualReduce (a : DA (Fl K)) (ax : TimeAxis) {t : String} (h : t ≠ x) (ht : "time" ≠ x) :
    annualReduce (pick x idx a) ax t = pick x idx (annualReduce a ax t) := by
  show DA.mk _ _ = DA.mk _ _
  congr 1
  · show _ = List.map (pickDim x idx.length) (_ :: a.dims.filter (fun p => p.1 != t))
    rw [List.map_cons, pickDim_of_ne (by exact ht)]
    congr 1
    exact filter_map_pickDim _ _ (fun s => s != t)
  · funext e
    show weightedMean _ = weightedMean _
    simp only [pick_column a h, Function.update_of_ne ht]

theorem pick_monthlyReduce (a : DA (Fl K)) (ax : TimeAxis) {t : String} (h : t ≠ x) :
    monthlyReduce (pick x idx a) ax t = pick x idx (monthlyReduce a ax t) := by
  show DA.mk _ _ = DA.mk _ _
  congr 1
  · show _ = List.map (pickDim x idx.length) (_ :: a.dims.filter (fun p => p.1 != t))
    rw [List.map_cons, pickDim_of_ne (by exact h)]
    congr 1
    exact filter_map_pickDim _ _ (fun s => s != t)
  · funext e
    show nanmean _ = nanmean _
    simp only [pick_column a h, Function.update_of_ne h]

theorem pick_cycleReduce (f : List (Fl ℝ) → Fl ℝ) (a : DA (Fl ℝ)) (ax : TimeAxis) {t : String} (h : t ≠ x) :
    cycleReduce f (pick x idx a) ax t = pick x idx (cycleReduce f a ax t) := by
  show DA.mk _ _ = DA.mk _ _
  congr 1
  · show List.map _ (a.dims.map (pickDim x idx.length)) = List.map (pickDim x idx.length) (a.dims.map _)
    rw [List.map_map, List.map_map]
    refine List.map_congr_left (fun p _ => ?_)
    show (if (pickDim x idx.length p).1 = t then _ else _) = pickDim x idx.length (if _ then _ else _)
    rw [pickDim_fst]
    by_cases hp : p.1 = t
    · rw [if_pos hp, if_pos hp]
      exact (pickDim_of_ne (by exact h)).symm
    · rw [if_neg hp, if_neg hp]
  · funext e
    show f _ = f _
    simp only [pick_column a h, Function.update_of_ne h]

/-- Annual averages of an array. -/
theorem C97_annual {a r : DA (Fl K)} {axes axr : List (String × TimeAxis)} {t : String} (h : t ≠ x)
    (ht : "time" ≠ x) (hr : annualAverage ⟨a, axes⟩ t = .ok ⟨r, axr⟩) :
    annualAverage ⟨pick x idx a, axes⟩ t = .ok ⟨pick x idx r, axr⟩ := by
  simp only [annualAverage, bind_ok, pure_ok] at hr ⊢
  obtain ⟨ax, h1, u, h2, h3⟩ := hr
  cases h3
  exact ⟨ax, h1, u, h2, by rw [pick_annualReduce a ax h ht]⟩

/-- Monthly averages of an array. -/
theorem C97_monthly {a r : DA (Fl K)} {axes axr : List (String × TimeAxis)} {t : String} (h : t ≠ x)
    (hr : monthlyAverage ⟨a, axes⟩ t = .ok ⟨r, axr⟩) :
    monthlyAverage ⟨pick x idx a, axes⟩ t = .ok ⟨pick x idx r, axr⟩ := by
  simp only [monthlyAverage, bind_ok] at hr ⊢
  obtain ⟨ax, h1, h2⟩ := hr
  refine ⟨ax, h1, ?_⟩
  split at h2
  · rename_i hc
    rw [if_pos hc]
    cases h2
    exact congrArg (fun d => Except.ok (Timed.mk d _)) (pick_monthlyReduce a ax h)
  · cases h2

/-- Annual cycles of an array, for every statistic. -/
theorem C97_cycle {a r : DA (Fl ℝ)} {axes axr : List (String × TimeAxis)} {t func : String} {y : Option Nat}
    (h : t ≠ x) (hr : annualCycle ⟨a, axes⟩ t func y = .ok ⟨r, axr⟩) :
    annualCycle ⟨pick x idx a, axes⟩ t func y = .ok ⟨pick x idx r, axr⟩ := by
  simp only [annualCycle, bind_ok] at hr ⊢
  obtain ⟨ax, h1, f, hf, h2⟩ := hr
  refine ⟨ax, h1, f, hf, ?_⟩
  split at h2
  · rename_i hc
    rw [if_pos hc]
    cases h2
    exact congrArg (fun d => Except.ok (Timed.mk d _)) (pick_cycleReduce f a ax h)
  · cases h2

theorem pick_averagedVars {d : DS (Fl K)} {iso : String → Bool} {t : String} {vars : List (String × DA (Fl K))}
    (h : averagedVars d iso t = .ok vars) :
    averagedVars (pickDS x idx d) iso t = .ok (vars.map (fun p => (p.1, pick x idx p.2))) := by
  unfold averagedVars at h ⊢
  simp only [] at h ⊢
  rw [pickDS_dimNames]
  have hf : (pickDS x idx d).vars.filter
        (fun p => !(d.dimNames.contains p.1 || (pickDS x idx d).coords.contains p.1 || iso p.1))
      = (d.vars.filter (fun p => !(d.dimNames.contains p.1 || d.coords.contains p.1 || iso p.1))).map
        (fun p => (p.1, pick x idx p.2)) := by
    unfold pickDS
    rw [List.filter_map]
    rfl
  rw [hf]
  have ha : ∀ l : List (String × DA (Fl K)),
      (l.map (fun p => (p.1, pick x idx p.2))).any (fun p => p.2.dimNames.contains t)
        = l.any (fun p => p.2.dimNames.contains t) := by
    intro l
    rw [List.any_map]
    congr 1
    funext p
    show (pick x idx p.2).dimNames.contains t = _
    rw [pick_dimNames]
  rw [ha]
  split at h
  · rename_i hc
    rw [if_pos hc]; cases h; rfl
  · cases h

theorem map_pick_vars {g : DA (Fl K) → DA (Fl K)} (hg : ∀ a, g (pick x idx a) = pick x idx (g a))
    (l : List (String × DA (Fl K))) :
    (l.map (fun p => (p.1, pick x idx p.2))).map (fun p => (p.1, g p.2))
      = (l.map (fun p => (p.1, g p.2))).map (fun p => (p.1, pick x idx p.2)) := by
  rw [List.map_map, List.map_map]
  refine List.map_congr_left (fun p _ => ?_)
  show (p.1, g (pick x idx p.2)) = (p.1, pick x idx (g p.2))
  rw [hg]

/-- Annual averages, monthly averages and annual cycles of a dataset. -/
theorem C97_annual_ds {d r : DS (Fl K)} {axes axr : List (String × TimeAxis)} {t : String} {iso : String → Bool}
    (h : t ≠ x) (ht : "time" ≠ x) (hr : annualAverageDS ⟨d, axes⟩ iso t = .ok ⟨r, axr⟩) :
    annualAverageDS ⟨pickDS x idx d, axes⟩ iso t = .ok ⟨pickDS x idx r, axr⟩ := by
  simp only [annualAverageDS, bind_ok, pure_ok] at hr ⊢
  obtain ⟨ax, h1, vars, h2, u, h3, h4⟩ := hr
  cases h4
  refine ⟨ax, h1, _, pick_averagedVars h2, u, h3, ?_⟩
  rw [map_pick_vars (g := fun a => annualReduce a ax t) (fun a => pick_annualReduce a ax h ht)]
  rfl

theorem C97_monthly_ds {d r : DS (Fl K)} {axes axr : List (String × TimeAxis)} {t : String} {iso : String → Bool}
    (h : t ≠ x) (hr : monthlyAverageDS ⟨d, axes⟩ iso t = .ok ⟨r, axr⟩) :
    monthlyAverageDS ⟨pickDS x idx d, axes⟩ iso t = .ok ⟨pickDS x idx r, axr⟩ := by
  simp only [monthlyAverageDS, bind_ok] at hr ⊢
  obtain ⟨ax, h1, vars, h2, h3⟩ := hr
  refine ⟨ax, h1, _, pick_averagedVars h2, ?_⟩
  split at h3
  · rename_i hc
    rw [if_pos hc]
    cases h3
    rw [map_pick_vars (g := fun a => monthlyReduce a ax t) (fun a => pick_monthlyReduce a ax h)]
    rfl
  · cases h3

theorem C97_cycle_ds {d r : DS (Fl ℝ)} {axes axr : List (String × TimeAxis)} {t func : String} {iso : String → Bool}
    {y : Option Nat} (h : t ≠ x) (hr : annualCycleDS ⟨d, axes⟩ iso t func y = .ok ⟨r, axr⟩) :
    annualCycleDS ⟨pickDS x idx d, axes⟩ iso t func y = .ok ⟨pickDS x idx r, axr⟩ := by
  simp only [annualCycleDS, bind_ok] at hr ⊢
  obtain ⟨ax, h1, vars, h2, f, hf, h3⟩ := hr
  refine ⟨ax, h1, _, pick_averagedVars h2, f, hf, ?_⟩
  split at h3
  · rename_i hc
    rw [if_pos hc]
    cases h3
    rw [map_pick_vars (g := fun a => cycleReduce f a ax t) (fun a => pick_cycleReduce f a ax h)]
    rfl
  · cases h3

theorem pick_series (a : DA (Fl K)) {t : String} (h : t ≠ x) (n : Nat) (e : Env) :
    series (pick x idx a) t n e = series a t n (Function.update e x (idx.getD (e x) 0)) := by
  unfold series
  refine List.map_congr_left (fun i _ => ?_)
  rw [pick_get, Function.update_of_ne h.symm, Function.update_comm h]

theorem pick_polyfit {a b : TrendArray K} {t : String} {ix : DimIndex K} {m q : DA (Fl K)} (h : t ≠ x)
    (hb : b.da = pick x idx a.da) (hm : polyfitCoefficients a t ix = .ok (m, q)) :
    polyfitCoefficients b t ix = .ok (pick x idx m, pick x idx q) := by
  unfold polyfitCoefficients at hm ⊢
  rw [hb, pick_dimNames]
  split at hm
  · rename_i hc
    rw [if_pos hc]
    cases hm
    have hd : (pick x idx a.da).dims.filter (fun p => p.1 != t)
        = (a.da.dims.filter (fun p => p.1 != t)).map (pickDim x idx.length) :=
      filter_map_pickDim _ _ (fun s => s != t)
    simp only [hd, pick_series a.da h]
    rfl
  · cases hm

/-- Trends: slope and intercept, with their attributes. -/
theorem C97_trend {a b m q : TrendArray K} {t : String} {units : Option String} (h : t ≠ x)
    (hb : b.da = pick x idx a.da) (hi : b.indexes.lookup t = a.indexes.lookup t) (hat : b.attrs = a.attrs)
    (hm : calcLinearTrend a t units = .ok (m, q)) :
    ∃ m' q', calcLinearTrend b t units = .ok (m', q') ∧ m'.da = pick x idx m.da ∧ q'.da = pick x idx q.da ∧
      m'.attrs = m.attrs ∧ q'.attrs = q.attrs := by
  simp only [calcLinearTrend, bind_ok, pure_ok] at hm
  obtain ⟨ix, h1, ⟨s, c⟩, h2, sl, h3, h4⟩ := hm
  cases h4
  have h1' : dictGet b.indexes t = .ok ix := by
    unfold dictGet at h1 ⊢
    rw [hi]; exact h1
  have h2' := pick_polyfit h hb h2
  simp only [calcLinearTrend, h1', h2', ok_bind]
  unfold scaleSlope at h3 ⊢
  split at h3
  · rename_i hc
    simp only [bind_ok, pure_ok] at h3
    obtain ⟨f, h5, h6⟩ := h3
    cases h6
    rw [if_pos hc]
    simp only [h5, ok_bind]
    refine ⟨_, _, rfl, ?_, rfl, ?_, ?_⟩
    · show pick x idx s * DA.scalar _ = pick x idx (s * DA.scalar _)
      rw [← pick_mul, pick_scalar]
    · simp only [hat]
    · simp only [hat]
  · rename_i hc
    cases h3
    rw [if_neg hc]
    exact ⟨_, _, rfl, rfl, rfl, by simp only [hat], by simp only [hat]⟩

theorem pick_slopeForIndex {a b : TrendArray K} {ix : DimIndex K} {m : DA (Fl K)}
    (hb : b.da = pick x idx a.da) (hat : b.attrs = a.attrs) (h : slopeForIndex a ix = .ok m) :
    slopeForIndex b ix = .ok (pick x idx m) := by
  unfold slopeForIndex at h ⊢
  split at h
  · rename_i hc
    rw [if_pos hc]
    unfold slopeToNs at h ⊢
    rw [hat, hb]
    split at h
    · cases h; rfl
    · split at h
      · cases h; rfl
      · split at h
        · rename_i hu
          rw [if_pos hu]; cases h; rfl
        · rename_i hu
          rw [if_neg hu]
          simp only [bind_ok, pure_ok] at h ⊢
          obtain ⟨f, h1, h2⟩ := h
          refine ⟨f, h1, ?_⟩
          rw [← h2, ← pick_mul, pick_scalar]
      · cases h
  · rename_i hc
    rw [if_neg hc, hb]
    cases h; rfl

theorem pick_indexArray {t : String} (ts : List K) (h : t ≠ x) :
    pick x idx (indexArray t ts) = indexArray t ts := by
  refine pick_of_not (fun e e' he => ?_) ?_
  · have := he t (by simp [indexArray, DA.dimNames])
    simp only [indexArray, this]
  · simpa [indexArray, DA.dimNames] using h.symm

/-- The trend line over an axis. -/
theorem C97_broadcast {a b : TrendArray K} {axis : AxisArray K} {sub : Bool} {r : DA (Fl K)}
    (h : axis.dims.headD "" ≠ x) (ht : sub = true → "time" ≠ x) (hb : b.da = pick x idx a.da)
    (hat : b.attrs = a.attrs) (hr : broadcastTrend (some a) (some axis) sub = .ok r) :
    broadcastTrend (some b) (some axis) sub = .ok (pick x idx r) := by
  simp only [broadcastTrend, Option.elim, bind_ok] at hr ⊢
  obtain ⟨a', h0, ax', h0', u, h1, ix, h2, m, h3, ts, h4, h5⟩ := hr
  cases h0; cases h0'
  refine ⟨b, rfl, axis, rfl, u, h1, ix, h2, _, pick_slopeForIndex hb hat h3, ts, h4, ?_⟩
  have hm : pick x idx m * indexArray (axis.dims.headD "") ts
      = pick x idx (m * indexArray (axis.dims.headD "") ts) := by
    rw [← pick_mul, pick_indexArray ts h]
  rw [hm]
  split at h5
  · rename_i hs
    rw [if_pos hs]
    have htx := ht hs
    generalize m * indexArray (axis.dims.headD "") ts = w at h5
    unfold subtractFirst at h5 ⊢
    rw [pick_dimNames, pick_size w htx]
    split at h5
    · rename_i hc
      rw [if_pos hc]
      split at h5
      · cases h5
      · rename_i hz
        rw [if_neg hz, pick_isel w htx, pick_sub]
        cases h5; rfl
    · cases h5
  · rename_i hs
    rw [if_neg hs]
    cases h5; rfl

/-- Detrended arrays. -/
theorem C97_detrend {a b r : TrendArray K} {t mode : String} {order : Int} (h : t ≠ x)
    (hb : b.da = pick x idx a.da) (hi : b.indexes.lookup t = a.indexes.lookup t) (hat : b.attrs = a.attrs)
    (hr : detrendArray a t order mode = .ok r) :
    ∃ r', detrendArray b t order mode = .ok r' ∧ r'.da = pick x idx r.da ∧ r'.attrs = r.attrs ∧
      r'.indexes = b.indexes := by
  simp only [detrendArray, bind_ok, pure_ok] at hr
  obtain ⟨u, h0, ⟨m, q⟩, h1, ix, h2, line, h3, fit, h4, h5⟩ := hr
  cases h5
  obtain ⟨m', q', g1, g2, g3, g4, -⟩ := C97_trend h hb hi hat h1
  have h2' : dictGet b.indexes t = .ok ix := by
    unfold dictGet at h2 ⊢
    rw [hi]; exact h2
  have h3' := C97_broadcast (axis := ⟨[t], some ix⟩) (sub := false) (by exact h) (by simp) g2 g4 h3
  have h4' : modeFit mode (pick x idx line) q'.da = .ok (pick x idx fit) := by
    unfold modeFit at h4 ⊢
    rw [g3]
    split at h4
    · rename_i hm
      rw [if_pos hm, pick_add]; cases h4; rfl
    · rename_i hm
      rw [if_neg hm]
      split at h4
      · rename_i hm2
        rw [if_pos hm2]; cases h4; rfl
      · cases h4
  refine ⟨⟨b.da - pick x idx fit, b.indexes, dictSet b.attrs "detrend_comment" mode⟩,
    by simp only [detrendArray, h0, g1, h2', h3', h4', ok_bind]; rfl, ?_, ?_, rfl⟩
  · show b.da - pick x idx fit = pick x idx (a.da - fit)
    rw [hb, pick_sub]
  · simp only [hat]

theorem pick_seriesAt (a : DA (Fl ℝ)) {t : String} (h : t ≠ x) (n : Nat) (e : Env) :
    seriesAt (pick x idx a) t n e = seriesAt a t n (Function.update e x (idx.getD (e x) 0)) := by
  unfold seriesAt
  funext k
  rw [pick_get, Function.update_of_ne h.symm, Function.update_comm h]

theorem pick_size_self {V : Type} {a : DA V} (h : x ∈ a.dimNames) : (pick x idx a).size x = idx.length := by
  unfold DA.size
  rw [pick_dims, find_pickDim]
  cases hf : a.dims.find? (fun p => p.1 == x) with
  | none =>
    obtain ⟨p, hp, hq⟩ := List.mem_map.1 h
    exact absurd hq (by simpa using List.find?_eq_none.1 hf p hp)
  | some p =>
    have := List.find?_some hf
    have hp : p.1 = x := by simpa using this
    show ((pickDim x idx.length p).2) = _
    unfold pickDim
    rw [if_pos hp]

/-- Seasonal models and residuals of `seasonal_model`. -/
theorem C97_seasonal {a b : SeasonArray} {t : String} {m q : DA (Fl ℝ)} {am aq : Dict String} (hx : x ∈ a.da.dimNames)
    (ht : "time" ≠ x) (hb : b.da = pick x idx a.da) (hi : b.axes.lookup t = a.axes.lookup t)
    (ho : b.indexOrder = a.indexOrder) (hat : b.attrs = a.attrs)
    (hr : seasonalModel a t = .ok ((m, am), (q, aq))) :
    seasonalModel b t = .ok ((pick x idx m, am), (pick x idx q, aq)) := by
  simp only [seasonalModel, bind_ok, pure_ok] at hr ⊢
  obtain ⟨ax, h1, u, h2, h3⟩ := hr
  have h1' : timeCoord b t = .ok ax := by
    unfold timeCoord at h1 ⊢
    rw [hi, hb, pick_dimNames]; exact h1
  refine ⟨ax, h1', u, h2, ?_⟩
  have hd : modelDims b = (modelDims a).map (pickDim x idx.length) := by
    unfold modelDims
    rw [ho, hb]
    simp only [List.map_append, List.map_map]
    congr 1
    · congr 1
      · refine List.map_congr_left (fun c _ => ?_)
        show (c, (pick x idx a.da).size c) = pickDim x idx.length (c, a.da.size c)
        by_cases hc : c = x
        · subst hc
          rw [pick_size_self hx]
          unfold pickDim
          rw [if_pos rfl]
        · rw [pick_size _ hc, pickDim_of_ne (by exact hc)]
      · rw [pick_size _ ht, List.map_singleton, pickDim_of_ne (by exact ht)]
    · exact filter_map_pickDim _ _ (fun s => s != "time" && !(a.indexOrder.filter (fun c => c != "time")).contains s)
  have hs : (⟨modelDims b, fun e => entry (seasonalFit (decimalYears ax ax.stamps.length)
        (seriesAt b.da "time" ax.stamps.length e)).smodel (e "time")⟩ : DA (Fl ℝ))
      = pick x idx ⟨modelDims a, fun e => entry (seasonalFit (decimalYears ax ax.stamps.length)
        (seriesAt a.da "time" ax.stamps.length e)).smodel (e "time")⟩ := by
    show DA.mk _ _ = DA.mk _ _
    congr 1
    funext e
    simp only [hb, pick_seriesAt a.da ht, Function.update_of_ne ht]
  rw [hs, hat, hb, pick_sub]
  cases h3; rfl

/-- Seasonal cycles and residuals of `deseason`, whatever the chunks of the two arrays. -/
theorem C97_deseason {a b : SeasonArray} {ax : TimeAxis} {n : Nat} {fmt : String} (h : HasTime a ax n)
    (hc : Covered a) (hc' : Covered b) (ht : "time" ≠ x) (hx : "coeff" ≠ x) (hb : b.da = pick x idx a.da)
    (hi : b.axes.lookup "time" = a.axes.lookup "time") (hf : knownFormat fmt)
    (hd : fmt = "coeff" → a.da.ndim ≠ 1) :
    ∃ r r' d d', deseason a "time" fmt = .ok r ∧ deseason b "time" fmt = .ok r' ∧ r.values = .ok d ∧
      r'.values = .ok d' ∧ d'.dims = (pick x idx d).dims ∧
      (∀ e, (fmt ≠ "coeff" → e "time" < n) → d'.get e = (pick x idx d).get e) := by
  have h' : HasTime b ax n :=
    ⟨by rw [hb, pick_dimNames]; exact h.distinct, by
      rw [hb, pick_dims]
      have := List.mem_map_of_mem (f := pickDim x idx.length) h.dim_mem
      rwa [pickDim_of_ne (by exact ht)] at this, by rw [hi]; exact h.axis, h.count,
      by rw [hb, pick_dimNames]; exact h.no_coeff⟩
  have hfit : ∀ e, fitAtPoint b ax n e = fitAtPoint a ax n (Function.update e x (idx.getD (e x) 0)) := fun e => by
    unfold fitAtPoint
    rw [hb, pick_seriesAt a.da ht]
  have hlead : ∀ p : String × Nat, p.1 ≠ x → leading b p = (leading a p).map (pickDim x idx.length) := by
    intro p hp
    unfold leading
    rw [List.map_cons, pickDim_of_ne hp, hb]
    congr 1
    exact filter_map_pickDim _ _ (fun s => s ≠ "time")
  rcases hf with rfl | rfl | rfl
  · obtain ⟨d, e1, e2, e3⟩ := deseason_residuals h hc
    obtain ⟨d', f1, f2, f3⟩ := deseason_residuals h' hc'
    refine ⟨_, _, d, d', e1, f1, rfl, rfl, by rw [f2, pick_dims, e2, hlead _ ht], fun e he => ?_⟩
    have hn := he (by decide)
    rw [pick_get, e3 _ (by rw [Function.update_of_ne ht]; exact hn), f3 e hn, hfit, Function.update_of_ne ht]
  · obtain ⟨d, e1, e2, e3⟩ := deseason_model h hc
    obtain ⟨d', f1, f2, f3⟩ := deseason_model h' hc'
    refine ⟨_, _, d, d', e1, f1, rfl, rfl, by rw [f2, pick_dims, e2, hlead _ ht], fun e he => ?_⟩
    have hn := he (by decide)
    rw [pick_get, e3 _ (by rw [Function.update_of_ne ht]; exact hn), f3 e hn, hfit, Function.update_of_ne ht]
  · obtain ⟨d, e1, e2, e3⟩ := deseason_coeff h hc (hd rfl)
    obtain ⟨d', f1, f2, f3⟩ := deseason_coeff h' hc' (by
      rw [hb]; show (List.map _ _).length ≠ 1; rw [List.length_map]; exact hd rfl)
    refine ⟨_, _, d, d', e1, f1, rfl, rfl, by rw [f2, pick_dims, e2, hlead _ hx], fun e _ => ?_⟩
    rw [pick_get, e3, f3 e, hfit, Function.update_of_ne hx]

/-! Instances: twelve months at three points, of which the last and the first are taken. -/

/-- Monthly values at three points, one of them missing in March. -/
def locM : DA (Fl ℚ) :=
  ⟨[("time", 12), ("xh", 3)], fun e => if e "time" = 2 ∧ e "xh" = 0 then nan else fin ((e "time" : ℚ) + e "xh")⟩

example : ∃ r axr, annualAverage ⟨locM, exMonthly.axes⟩ "time" = .ok ⟨r, axr⟩ ∧
    annualAverage ⟨pick "xh" [2, 0] locM, exMonthly.axes⟩ "time" = .ok ⟨pick "xh" [2, 0] r, axr⟩ := by
  obtain ⟨⟨r, axr⟩, h⟩ := (C38_twelve (x := ⟨locM, exMonthly.axes⟩) (ax := exAxis) (tc := "time") rfl
    exAxis_good.nonempty).1 (by decide)
  exact ⟨r, axr, h, C97_annual (by decide) (by decide) h⟩

theorem exAxis_complete : ∀ s ∈ exAxis.stamps, ∀ m, 1 ≤ m → m ≤ 12 →
    ∃ s' ∈ exAxis.stamps, s'.date.year = s.date.year ∧ s'.date.month = m := by
  intro s hs m h1 h2
  have hy : ∀ s ∈ exAxis.stamps, s.date.year = 2004 := by decide
  rw [hy s hs]
  exact ⟨⟨⟨2004, m - 1 + 1, 15⟩, 0⟩, List.mem_map.2 ⟨m - 1, List.mem_range.2 (by omega), rfl⟩, rfl, by
    show m - 1 + 1 = m; omega⟩

example : ∃ r axr, monthlyAverage ⟨locM, exMonthly.axes⟩ "time" = .ok ⟨r, axr⟩ ∧
    monthlyAverage ⟨pick "xh" [2, 0] locM, exMonthly.axes⟩ "time" = .ok ⟨pick "xh" [2, 0] r, axr⟩ := by
  obtain ⟨⟨r, axr⟩, h⟩ := (C41_complete (x := ⟨locM, exMonthly.axes⟩) (ax := exAxis) (tc := "time") rfl
    exAxis_good).1 exAxis_complete
  exact ⟨r, axr, h, C97_monthly (by decide) h⟩

/-- The same as real numbers. -/
noncomputable def locMR : DA (Fl ℝ) :=
  ⟨[("time", 13), ("xh", 3)], fun e => if e "time" = 2 ∧ e "xh" = 0 then nan else fin ((e "time" : ℝ) + e "xh")⟩

example : ∃ r axr, annualCycle ⟨locMR, exCycle.axes⟩ "time" "std" none = .ok ⟨r, axr⟩ ∧
    annualCycle ⟨pick "xh" [2, 0] locMR, exCycle.axes⟩ "time" "std" none = .ok ⟨pick "xh" [2, 0] r, axr⟩ := by
  obtain ⟨⟨r, axr⟩, h⟩ := (C40_errors (x := ⟨locMR, exCycle.axes⟩) (tc := "time") (func := "std") (yr := none) rfl
    exCycle_good).1 ⟨by decide, fun m h1 h2 => by
      refine ⟨⟨⟨2001 + (m - 1) / 12, (m - 1) % 12 + 1, 10⟩, 0⟩,
        List.mem_map_of_mem (List.mem_range.2 (by omega)), ?_⟩
      show (m - 1) % 12 + 1 = m
      omega⟩
  exact ⟨r, axr, h, C97_cycle (by decide) h⟩

/-- A series of four numbered times at three points. -/
def locTr : TrendArray ℚ :=
  ⟨⟨[("t", 4), ("xh", 3)], fun e => fin ((e "t" : ℚ) * (e "xh") + 1)⟩, [("t", .numeric [0, 1, 2, 3])], []⟩

example : ∃ m q m' q', calcLinearTrend locTr "t" none = .ok (m, q) ∧
    calcLinearTrend ⟨pick "xh" [2, 0] locTr.da, locTr.indexes, locTr.attrs⟩ "t" none = .ok (m', q') ∧
    m'.da = pick "xh" [2, 0] m.da ∧ q'.da = pick "xh" [2, 0] q.da := by
  have hm : ∃ m q, calcLinearTrend locTr "t" none = .ok (m, q) := ⟨_, _, rfl⟩
  obtain ⟨m, q, h⟩ := hm
  obtain ⟨m', q', h1, h2, h3, -⟩ := C97_trend (b := ⟨pick "xh" [2, 0] locTr.da, locTr.indexes, locTr.attrs⟩)
    (by decide) rfl rfl rfl h
  exact ⟨m, q, m', q', h, h1, h2, h3⟩

theorem locTr_index : cleanInterpIndex (DimIndex.numeric [0, 1, 2, (3 : ℚ)]) = .ok [0, 1, 2, 3] := by
  unfold cleanInterpIndex
  rw [if_pos (by simp [DimIndex.numbers]; norm_num)]
  rfl

example : ∃ r r', detrendArray locTr "t" 1 "remove" = .ok r ∧
    detrendArray ⟨pick "xh" [2, 0] locTr.da, locTr.indexes, locTr.attrs⟩ "t" 1 "remove" = .ok r' ∧
    r'.da = pick "xh" [2, 0] r.da := by
  have hm : ∃ m q, calcLinearTrend locTr "t" none = .ok (m, q) := ⟨_, _, rfl⟩
  obtain ⟨m, q, h⟩ := hm
  have hr : ∃ r, detrendArray locTr "t" 1 "remove" = .ok r := by
    have hi : dictGet locTr.indexes "t" = .ok (.numeric [0, 1, 2, 3]) := rfl
    refine ⟨⟨locTr.da - (m.da * indexArray "t" [0, 1, 2, 3] + q.da), locTr.indexes,
      dictSet locTr.attrs "detrend_comment" "remove"⟩, ?_⟩
    simp only [detrendArray, h, hi, ok_bind, broadcastTrend, Option.elim, locTr_index, modeFit, if_true,
      slopeForIndex, DimIndex.isCftime, Bool.false_eq_true, if_false]
    rfl
  obtain ⟨r, hr⟩ := hr
  obtain ⟨r', h1, h2, -⟩ := C97_detrend (b := ⟨pick "xh" [2, 0] locTr.da, locTr.indexes, locTr.attrs⟩)
    (by decide) rfl rfl rfl hr
  exact ⟨r, r', hr, h1, h2⟩

example : ∃ r, broadcastTrend (some (⟨⟨[("xh", 3)], fun e => fin (e "xh" : ℚ)⟩, [], []⟩ : TrendArray ℚ))
      (some ⟨["t"], some (.numeric [0, 1, 2, 3])⟩) = .ok r ∧
    broadcastTrend (some (⟨pick "xh" [2, 0] ⟨[("xh", 3)], fun e => fin (e "xh" : ℚ)⟩, [], []⟩ : TrendArray ℚ))
      (some ⟨["t"], some (.numeric [0, 1, 2, 3])⟩) = .ok (pick "xh" [2, 0] r) := by
  have hr : ∃ r, broadcastTrend (some (⟨⟨[("xh", 3)], fun e => fin (e "xh" : ℚ)⟩, [], []⟩ : TrendArray ℚ))
      (some ⟨["t"], some (.numeric [0, 1, 2, 3])⟩) = .ok r := by
    refine ⟨⟨[("xh", 3)], fun e => fin (e "xh" : ℚ)⟩ * indexArray "t" [0, 1, 2, 3], ?_⟩
    simp only [broadcastTrend, Option.elim, ok_bind, locTr_index, slopeForIndex, DimIndex.isCftime,
      Bool.false_eq_true, if_false]
    rfl
  obtain ⟨r, h⟩ := hr
  exact ⟨r, h, C97_broadcast (a := ⟨⟨[("xh", 3)], fun e => fin (e "xh" : ℚ)⟩, [], []⟩) (by decide) (by simp) rfl rfl h⟩

/-- A year of monthly values with a chunked and an unchunked version. -/
noncomputable def locSea (ch : Option (List (List Nat))) : SeasonArray :=
  ⟨⟨[("time", 12), ("xh", 3)], fun e => fin ((e "time" : ℝ) + e "xh")⟩, [("time", exAxis)], ["time", "xh"], [], ch⟩

/-- Its part. -/
noncomputable def locSeaPart (ch : Option (List (List Nat))) : SeasonArray :=
  ⟨pick "xh" [2, 0] (locSea none).da, [("time", exAxis)], ["time", "xh"], [], ch⟩

example : ∃ m am q aq, seasonalModel (locSea none) "time" = .ok ((m, am), (q, aq)) ∧
    seasonalModel (locSeaPart none) "time" = .ok ((pick "xh" [2, 0] m, am), (pick "xh" [2, 0] q, aq)) := by
  have hr : ∃ m am q aq, seasonalModel (locSea none) "time" = .ok ((m, am), (q, aq)) := ⟨_, _, _, _, rfl⟩
  obtain ⟨m, am, q, aq, h⟩ := hr
  exact ⟨m, am, q, aq, h, C97_seasonal (b := locSeaPart none) (by decide) (by decide) rfl rfl rfl rfl h⟩

example : ∃ r r' d d', deseason (locSea (some [[12], [2, 1]])) "time" "residuals" = .ok r ∧
    deseason (locSeaPart none) "time" "residuals" = .ok r' ∧ r.values = .ok d ∧ r'.values = .ok d' ∧
    d'.dims = (pick "xh" [2, 0] d).dims ∧ ∀ e, e "time" < 12 → d'.get e = (pick "xh" [2, 0] d).get e := by
  have ht : HasTime (locSea (some [[12], [2, 1]])) exAxis 12 :=
    ⟨by simp [locSea, DA.dimNames], by simp [locSea], rfl, by decide, by simp [locSea, DA.dimNames]⟩
  obtain ⟨r, r', d, d', h1, h2, h3, h4, h5, h6⟩ := C97_deseason (x := "xh") (idx := [2, 0]) (b := locSeaPart none)
    (fmt := "residuals") ht (by intro cs hcs; cases hcs; rfl) (by intro cs hcs; cases hcs) (by decide) (by decide)
    rfl rfl (Or.inl rfl) (by decide)
  exact ⟨r, r', d, d', h1, h2, h3, h4, h5, fun e he => h6 e (fun _ => he)⟩

/-- `C97_annual_ds`, `C97_monthly_ds`, `C97_cycle_ds`: a dataset of the three points, of which two are taken. -/
example : ∃ r axr, annualAverageDS ⟨(⟨[("v", locM)], []⟩ : DS (Fl ℚ)), exMonthly.axes⟩ (fun _ => false) "time" = .ok ⟨r, axr⟩ ∧
    annualAverageDS ⟨pickDS "xh" [2, 0] ⟨[("v", locM)], []⟩, exMonthly.axes⟩ (fun _ => false) "time"
      = .ok ⟨pickDS "xh" [2, 0] r, axr⟩ := by
  obtain ⟨⟨r, axr⟩, h⟩ := ((C38_dataset_success ⟨(⟨[("v", locM)], []⟩ : DS (Fl ℚ)), exMonthly.axes⟩ (fun _ => false)
    "time").1 locM ⟨("v", locM), by simp, by decide, by simp, rfl, by decide⟩).2
    ((C38_twelve (x := ⟨locM, exMonthly.axes⟩) (ax := exAxis) (tc := "time") rfl exAxis_good.nonempty).1 (by decide))
  exact ⟨r, axr, h, C97_annual_ds (by decide) (by decide) h⟩

example : ∃ r axr, monthlyAverageDS ⟨(⟨[("v", locM)], []⟩ : DS (Fl ℚ)), exMonthly.axes⟩ (fun _ => false) "time" = .ok ⟨r, axr⟩ ∧
    monthlyAverageDS ⟨pickDS "xh" [2, 0] ⟨[("v", locM)], []⟩, exMonthly.axes⟩ (fun _ => false) "time"
      = .ok ⟨pickDS "xh" [2, 0] r, axr⟩ := by
  obtain ⟨⟨r, axr⟩, h⟩ := ((C41_dataset ⟨(⟨[("v", locM)], []⟩ : DS (Fl ℚ)), exMonthly.axes⟩ (fun _ => false)
    "time").2.1 locM ⟨("v", locM), by simp, by decide, by simp, rfl, by decide⟩).2
    ((C41_complete (x := ⟨locM, exMonthly.axes⟩) (ax := exAxis) (tc := "time") rfl exAxis_good).1 exAxis_complete)
  exact ⟨r, axr, h, C97_monthly_ds (by decide) h⟩

example : ∃ r axr, annualCycleDS ⟨(⟨[("v", locMR)], []⟩ : DS (Fl ℝ)), exCycle.axes⟩ (fun _ => false) "time" "max" none
      = .ok ⟨r, axr⟩ ∧
    annualCycleDS ⟨pickDS "xh" [2, 0] ⟨[("v", locMR)], []⟩, exCycle.axes⟩ (fun _ => false) "time" "max" none
      = .ok ⟨pickDS "xh" [2, 0] r, axr⟩ := by
  obtain ⟨⟨r, axr⟩, h⟩ := ((C40_dataset ⟨(⟨[("v", locMR)], []⟩ : DS (Fl ℝ)), exCycle.axes⟩ (fun _ => false)
    "time" "max" none).2.1 locMR ⟨("v", locMR), by simp, by decide, by simp, rfl, by decide⟩).2
    ((C40_errors (x := ⟨locMR, exCycle.axes⟩) (tc := "time") (func := "max") (yr := none) rfl
      exCycle_good).1 ⟨by decide, fun m h1 h2 => by
        refine ⟨⟨⟨2001 + (m - 1) / 12, (m - 1) % 12 + 1, 10⟩, 0⟩,
          List.mem_map_of_mem (List.mem_range.2 (by omega)), ?_⟩
        show (m - 1) % 12 + 1 = m
        omega⟩)
  exact ⟨r, axr, h, C97_cycle_ds (by decide) h⟩

end Momlevel.Props
