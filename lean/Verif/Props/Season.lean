import Verif.Lemmas.Season
import Verif.Lemmas.Calendar
import Verif.Lemmas.DA
import Mathlib.Tactic.NormNum
import Mathlib.Tactic.FieldSimp

/-!
# The seasonal model as a projection (C57)
-/

set_option linter.unusedSectionVars false

namespace Momlevel.Props
open Momlevel

/-- A fit has the smallest sum of squared residuals among all combinations of the regressors. -/
theorem fit_least {n : Nat} {t y m : Fin n → ℝ} (h : Spec.IsFit t y m) (c : Fin 6 → ℝ) :
    Spec.squares y m ≤ Spec.squares y (fun k => ∑ j, c j * Spec.regressor t k j) := by
  rw [isFit_split h c]
  exact le_add_of_nonneg_right (squares_nonneg _ _)

/-- There is only one fit. -/
theorem fit_unique {n : Nat} {t y m m' : Fin n → ℝ} (h : Spec.IsFit t y m)
    (h' : Spec.IsFit t y m') : m = m' := isFit_unique h h'

theorem dayOfYear_eq {c : Calendar} {d : Date} (h : d.month ≤ 12) :
    dayOfYear c d = Spec.dayNumber c d := by
  unfold dayOfYear Spec.dayNumber
  rw [range_map_sum]
  congr 1
  apply Finset.sum_congr rfl
  intro m hm
  have := Finset.mem_range.1 hm
  exact daysInMonth_eq c d.year (by omega) (by omega)

theorem decimalYears_eq {ax : TimeAxis} {n : Nat} (hn : ax.stamps.length = n)
    (hv : ∀ s ∈ ax.stamps, s.date.Valid ax.cal) : decimalYears ax n = Spec.yearsOf ax n := by
  funext k
  have hk : k.1 < ax.stamps.length := by omega
  have hm : ax.stamps[k.1] ∈ ax.stamps := List.getElem_mem hk
  unfold decimalYears Spec.yearsOf decimalYear
  rw [List.getD_eq_getElem?_getD, List.getElem?_eq_getElem hk, Option.getD_some,
    dayOfYear_eq (hv _ hm).2.2.1]
  simp only [show (60 * 60 * 1000000 : Nat) = 3600000000 from rfl]
  generalize ((ax.stamps[k.1].us / 3600000000 : Nat) : ℝ) = u
  generalize ((Spec.dayNumber ax.cal ax.stamps[k.1].date : Nat) : ℝ) = w
  congr 1
  field_simp

/-! ### `seasonal_model` -/

theorem seriesAt_eq {a : DA (Fl ℝ)} {e : Env} {n : Nat} {y : Fin n → ℝ}
    (h : Spec.SeriesIs a e y) : seriesAt a "time" n e = fun k => .fin (y k) := by
  funext k
  exact h k

theorem seriesAt_update (a : DA (Fl ℝ)) (dim : String) (n : Nat) (e : Env) (i : Nat) :
    seriesAt a dim n (Function.update e dim i) = seriesAt a dim n e := by
  funext k
  unfold seriesAt
  rw [Function.update_idem]

theorem entry_fin {n : Nat} (f : Fin n → Fl ℝ) (k : Fin n) : entry f k.1 = f k := by
  unfold entry
  rw [dif_pos k.2]

/-- The model array of `seasonal_model`. -/
noncomputable def modelArray (x : SeasonArray) (ax : TimeAxis) (n : Nat) : DA (Fl ℝ) :=
  ⟨modelDims x, fun e =>
    entry (seasonalFit (decimalYears ax n) (seriesAt x.da "time" n e)).smodel (e "time")⟩

theorem seasonal_ok {x : SeasonArray} {ax : TimeAxis} {n : Nat} (h : Spec.HasTime x ax n) :
    seasonalModel x = .ok ((modelArray x ax n, seasonLabels x.attrs "smodel" "Seasonal model"),
      (x.da - modelArray x ax n, seasonLabels x.attrs "sresid" "Seasonal residuals")) := by
  have hc := h.count
  subst hc
  unfold seasonalModel
  have h1 : timeCoord x "time" = .ok ax := by unfold timeCoord; rw [h.axis]
  have h2 : checkTimeDim "time" = .ok () := rfl
  simp only [h1, h2, ok_bind]
  rfl

theorem model_at (x : SeasonArray) (ax : TimeAxis) {n : Nat} (e : Env) (k : Fin n) :
    Spec.atPoint (modelArray x ax n) e k =
      (seasonalFit (decimalYears ax n) (seriesAt x.da "time" n e)).smodel k := by
  unfold Spec.atPoint modelArray
  simp only [Function.update_self, seriesAt_update]
  exact entry_fin _ k

theorem resid_at (x : SeasonArray) (ax : TimeAxis) {n : Nat} (e : Env) (k : Fin n) :
    Spec.atPoint (x.da - modelArray x ax n) e k =
      (seasonalFit (decimalYears ax n) (seriesAt x.da "time" n e)).residuals k := by
  have : Spec.atPoint (x.da - modelArray x ax n) e k =
      Spec.atPoint x.da e k - Spec.atPoint (modelArray x ax n) e k := rfl
  rw [this, model_at]
  rfl

theorem perm_modelDims {x : SeasonArray} {ax : TimeAxis} {n : Nat} (h : Spec.HasTime x ax n)
    (hi : Spec.Indexed x) : (modelDims x).Perm x.da.dims := by
  have hnd : x.da.dims.Nodup := List.Nodup.of_map _ h.distinct
  have hsz : ∀ p ∈ x.da.dims, x.da.size p.1 = p.2 := fun p hp => DA.size_of_mem h.distinct hp
  have htime : x.da.size "time" = n := hsz _ h.dim_mem
  unfold modelDims
  set cs := x.indexOrder.filter (fun c => c != "time") with hcs
  have hcs1 : ∀ c ∈ cs, c ∈ x.da.dimNames ∧ c ≠ "time" := by
    intro c hc
    rw [hcs, List.mem_filter] at hc
    exact ⟨hi.2 c hc.1, by simpa using hc.2⟩
  have hcsn : cs.Nodup := hi.1.filter _
  rw [List.perm_ext_iff_of_nodup _ hnd]
  · intro p
    simp only [List.mem_append, List.mem_map, List.mem_singleton, List.mem_filter]
    constructor
    · rintro ((⟨c, hc, rfl⟩ | rfl) | hp)
      · obtain ⟨q, hq, rfl⟩ := List.mem_map.1 (hcs1 c hc).1
        rw [hsz q hq]; exact hq
      · rw [htime]; exact h.dim_mem
      · exact hp.1
    · intro hp
      by_cases h1 : p.1 = "time"
      · refine Or.inl (Or.inr ?_)
        rw [← h1, hsz p hp]
      · by_cases h2 : p.1 ∈ cs
        · exact Or.inl (Or.inl ⟨p.1, h2, by rw [hsz p hp]⟩)
        · refine Or.inr ⟨hp, ?_⟩
          simp [h1, h2]
  · have key : ∀ p : String × Nat, p ∈ x.da.dims.filter (fun p => p.1 != "time" && !cs.contains p.1) →
        p.1 ≠ "time" ∧ p.1 ∉ cs := by
      intro p hp
      have := (List.mem_filter.1 hp).2
      simpa using this
    rw [List.nodup_append, List.nodup_append]
    refine ⟨⟨?_, List.nodup_singleton _, ?_⟩, hnd.filter _, ?_⟩
    · exact hcsn.map (fun a b hab => (Prod.mk.inj hab).1)
    · rintro p hp q hq rfl
      obtain ⟨c, hc, rfl⟩ := List.mem_map.1 hp
      rw [List.mem_singleton] at hq
      exact (hcs1 c hc).2 (Prod.mk.inj hq).1
    · rintro p hp q hq rfl
      have hk := key _ hq
      rcases List.mem_append.1 hp with hp | hp
      · obtain ⟨c, hc, rfl⟩ := List.mem_map.1 hp
        exact hk.2 hc
      · rw [List.mem_singleton] at hp
        exact hk.1 (by rw [hp])

theorem resid_dims {x : SeasonArray} {ax : TimeAxis} {n : Nat} (h : Spec.HasTime x ax n)
    (hi : Spec.Indexed x) : (x.da - modelArray x ax n).dims = x.da.dims := by
  rw [DA.dims_sub]
  exact DA.bdims_eq_left (fun p hp => (perm_modelDims h hi).mem_iff.1 hp)

/-- C57: `seasonal_model` succeeds on any array with a "time" axis of dates.  At every point whose
series is finite, the model is the least-squares fit of that series by the six regressors (a
combination of them, with a residual orthogonal to each), and the residual is the input minus the
model.  The residual has the dimensions of the input, the model the same dimensions in some order. -/
theorem C57_fit {x : SeasonArray} {ax : TimeAxis} {n : Nat} (h : Spec.HasTime x ax n)
    (hv : ∀ s ∈ ax.stamps, s.date.Valid ax.cal) (hi : Spec.Indexed x) :
    ∃ m am r ar, seasonalModel x = .ok ((m, am), (r, ar)) ∧
      r.dims = x.da.dims ∧ m.dims.Perm x.da.dims ∧
      ∀ e (y : Fin n → ℝ), Spec.SeriesIs x.da e y →
        ∃ z, Spec.IsFit (Spec.yearsOf ax n) y z ∧ Spec.SeriesIs m e z ∧
          Spec.SeriesIs r e (fun k => y k - z k) := by
  refine ⟨_, _, _, _, seasonal_ok h, resid_dims h hi, perm_modelDims h hi, ?_⟩
  intro e y hy
  refine ⟨realModel (Spec.yearsOf ax n) y, isFit_real _ _, fun k => ?_, fun k => ?_⟩
  · rw [model_at, seriesAt_eq hy, fit_smodel, decimalYears_eq h.count hv]
  · rw [resid_at, seriesAt_eq hy, fit_residuals, decimalYears_eq h.count hv]

/-- C57: a missing value makes the model and the residual of its whole series missing. -/
theorem C57_missing {x : SeasonArray} {ax : TimeAxis} {n : Nat} (h : Spec.HasTime x ax n)
    {m r : DA (Fl ℝ)} {am ar : Dict String} (hr : seasonalModel x = .ok ((m, am), (r, ar)))
    (e : Env) {i : Nat} (hi : i < n) (hnan : Spec.atPoint x.da e i = .nan) :
    ∀ k < n, Spec.atPoint m e k = .nan ∧ Spec.atPoint r e k = .nan := by
  rw [seasonal_ok h] at hr
  cases hr
  intro k hk
  have := fit_nan (decimalYears ax n) (ts := seriesAt x.da "time" n e) (i := ⟨i, hi⟩) hnan
  exact ⟨(model_at x ax e ⟨k, hk⟩).trans (this.2.1 _), (resid_at x ax e ⟨k, hk⟩).trans (this.2.2 _)⟩

/-- C57: a series that is a combination of the regressors is reproduced exactly. -/
theorem C57_reproduces {x : SeasonArray} {ax : TimeAxis} {n : Nat} (h : Spec.HasTime x ax n)
    (hv : ∀ s ∈ ax.stamps, s.date.Valid ax.cal)
    {m r : DA (Fl ℝ)} {am ar : Dict String} (hr : seasonalModel x = .ok ((m, am), (r, ar)))
    (e : Env) (c : Fin 6 → ℝ)
    (hy : Spec.SeriesIs x.da e
      (fun k : Fin n => ∑ j, c j * Spec.regressor (Spec.yearsOf ax n) k j)) :
    Spec.SeriesIs m e (fun k : Fin n => ∑ j, c j * Spec.regressor (Spec.yearsOf ax n) k j) ∧
      Spec.SeriesIs r e (fun _ : Fin n => 0) := by
  rw [seasonal_ok h] at hr
  cases hr
  have hf : Spec.IsFit (Spec.yearsOf ax n)
      (fun k => ∑ j, c j * Spec.regressor (Spec.yearsOf ax n) k j)
      (fun k => ∑ j, c j * Spec.regressor (Spec.yearsOf ax n) k j) :=
    ⟨⟨c, fun _ => rfl⟩, fun j => by simp⟩
  refine ⟨fun k => ?_, fun k => ?_⟩
  · rw [model_at, seriesAt_eq hy, fit_smodel, decimalYears_eq h.count hv, realModel_eq hf]
  · rw [resid_at, seriesAt_eq hy, fit_residuals, decimalYears_eq h.count hv, realModel_eq hf,
      sub_self]

/-- C57: the residual has nothing left to fit: running `seasonal_model` on it gives a zero model and
the residual again. -/
theorem C57_refit {x : SeasonArray} {ax : TimeAxis} {n : Nat} (h : Spec.HasTime x ax n)
    (hi : Spec.Indexed x)
    {m r : DA (Fl ℝ)} {am ar : Dict String} (hr : seasonalModel x = .ok ((m, am), (r, ar))) :
    ∃ m' am' r' ar', seasonalModel { x with da := r } = .ok ((m', am'), (r', ar')) ∧
      ∀ e (y : Fin n → ℝ), Spec.SeriesIs x.da e y →
        Spec.SeriesIs m' e (fun _ : Fin n => 0) ∧
        ∀ k < n, Spec.atPoint r' e k = Spec.atPoint r e k := by
  rw [seasonal_ok h] at hr
  cases hr
  have hd := resid_dims h hi
  have hn : (x.da - modelArray x ax n).dimNames = x.da.dimNames := by
    unfold DA.dimNames; rw [hd]
  have h' : Spec.HasTime { x with da := x.da - modelArray x ax n } ax n :=
    ⟨by rw [show (SeasonArray.da _) = _ from rfl, hn]; exact h.distinct, by
      rw [show (SeasonArray.da _) = _ from rfl, hd]; exact h.dim_mem, h.axis, h.count, by
      rw [show (SeasonArray.da _) = _ from rfl, hn]; exact h.no_coeff⟩
  refine ⟨_, _, _, _, seasonal_ok h', ?_⟩
  intro e y hy
  set t := decimalYears ax n with ht
  have hres : Spec.SeriesIs (x.da - modelArray x ax n) e (fun k => y k - realModel t y k) :=
    fun k => by rw [resid_at, seriesAt_eq hy, fit_residuals]
  have hz : Spec.IsFit t (fun k => y k - realModel t y k) (fun _ => 0) :=
    ⟨⟨fun _ => 0, fun k => by simp⟩, fun j => by
      simpa using (isFit_real t y).orthogonal j⟩
  have hs : seriesAt (x.da - modelArray x ax n) "time" n e =
      fun k => Fl.fin (y k - realModel t y k) := seriesAt_eq hres
  refine ⟨fun k => ?_, fun k hk => ?_⟩
  · rw [model_at]
    rw [show seriesAt (SeasonArray.da _) "time" n e = _ from hs, fit_smodel, realModel_eq hz]
  · have := resid_at { x with da := x.da - modelArray x ax n } ax e ⟨k, hk⟩
    rw [show seriesAt (SeasonArray.da _) "time" n e = _ from hs, fit_residuals, realModel_eq hz,
      sub_zero] at this
    exact this.trans (hres ⟨k, hk⟩).symm

/-- C57: the fit is linear in the data: the model of `a x + b y` is `a` times the model of `x` plus
`b` times the model of `y`. -/
theorem C57_linear {x y w : SeasonArray} {ax : TimeAxis} {n : Nat} (hx : Spec.HasTime x ax n)
    (hy : Spec.HasTime y ax n) (hw : Spec.HasTime w ax n)
    {mx rx my ry mw rw' : DA (Fl ℝ)} {a1 a2 a3 a4 a5 a6 : Dict String}
    (ex : seasonalModel x = .ok ((mx, a1), (rx, a2)))
    (ey : seasonalModel y = .ok ((my, a3), (ry, a4)))
    (ew : seasonalModel w = .ok ((mw, a5), (rw', a6)))
    (e : Env) (u v : Fin n → ℝ) (a b : ℝ) (hu : Spec.SeriesIs x.da e u)
    (hv : Spec.SeriesIs y.da e v) (huv : Spec.SeriesIs w.da e (fun k => a * u k + b * v k)) :
    ∃ zu zv, Spec.SeriesIs mx e zu ∧ Spec.SeriesIs my e zv ∧
      Spec.SeriesIs mw e (fun k : Fin n => a * zu k + b * zv k) ∧
      Spec.SeriesIs rw' e (fun k : Fin n => a * (u k - zu k) + b * (v k - zv k)) := by
  rw [seasonal_ok hx] at ex
  rw [seasonal_ok hy] at ey
  rw [seasonal_ok hw] at ew
  cases ex; cases ey; cases ew
  set t := decimalYears ax n with ht
  have hf : Spec.IsFit t (fun k => a * u k + b * v k)
      (fun k => a * realModel t u k + b * realModel t v k) := by
    constructor
    · refine ⟨fun j => a * realCoeff t u j + b * realCoeff t v j, fun k => ?_⟩
      rw [realModel_sum, realModel_sum, Finset.mul_sum, Finset.mul_sum, ← Finset.sum_add_distrib]
      exact Finset.sum_congr rfl (fun j _ => by ring)
    · intro j
      have h1 := (isFit_real t u).orthogonal j
      have h2 := (isFit_real t v).orthogonal j
      have : ∀ k, (a * u k + b * v k - (a * realModel t u k + b * realModel t v k)) *
          Spec.regressor t k j = a * ((u k - realModel t u k) * Spec.regressor t k j) +
            b * ((v k - realModel t v k) * Spec.regressor t k j) := fun k => by ring
      simp only [this]
      rw [Finset.sum_add_distrib, ← Finset.mul_sum, ← Finset.mul_sum, h1, h2]
      simp
  refine ⟨realModel t u, realModel t v, fun k => ?_, fun k => ?_, fun k => ?_, fun k => ?_⟩
  · rw [model_at, seriesAt_eq hu, fit_smodel]
  · rw [model_at, seriesAt_eq hv, fit_smodel]
  · rw [model_at, seriesAt_eq huv, fit_smodel, realModel_eq hf]
  · rw [resid_at, seriesAt_eq huv, fit_residuals, realModel_eq hf]
    congr 1
    ring

/-- C57: each point is fitted on its own: two arrays on the same axis that agree on a series (missing
or infinite values included) get the same model and residual there, whatever they hold elsewhere. -/
theorem C57_pointwise {x y : SeasonArray} {ax : TimeAxis} {n : Nat} (hx : Spec.HasTime x ax n)
    (hy : Spec.HasTime y ax n) {mx rx my ry : DA (Fl ℝ)} {a1 a2 a3 a4 : Dict String}
    (ex : seasonalModel x = .ok ((mx, a1), (rx, a2)))
    (ey : seasonalModel y = .ok ((my, a3), (ry, a4)))
    (e e' : Env) (hs : ∀ k < n, Spec.atPoint x.da e k = Spec.atPoint y.da e' k) :
    ∀ k < n, Spec.atPoint mx e k = Spec.atPoint my e' k ∧
      Spec.atPoint rx e k = Spec.atPoint ry e' k := by
  rw [seasonal_ok hx] at ex
  rw [seasonal_ok hy] at ey
  cases ex; cases ey
  have : seriesAt x.da "time" n e = seriesAt y.da "time" n e' := funext (fun k => hs k k.2)
  intro k hk
  exact ⟨by rw [model_at x ax e ⟨k, hk⟩, model_at y ax e' ⟨k, hk⟩, this],
    by rw [resid_at x ax e ⟨k, hk⟩, resid_at y ax e' ⟨k, hk⟩, this]⟩

/-! ### `seasonal_cycle_model` -/

/-- C57 for `seasonal_cycle_model` with the default year of 365 days: the model is the least-squares
fit at the times `k / 365`, the coefficients combine the regressors to it, the residual is the
difference. -/
theorem C57_cycle {n : Nat} (y : Fin n → ℝ) :
    ∃ f, seasonalCycleModel (fun k => .fin (y k)) = .ok f ∧
      ∃ (c : Fin 6 → ℝ) (z : Fin n → ℝ), Spec.IsFit (fun k : Fin n => (k : ℝ) / 365) y z ∧
        (∀ j, f.coeff j = .fin (c j)) ∧
        (∀ k, z k = ∑ j, c j * Spec.regressor (fun k : Fin n => (k : ℝ) / 365) k j) ∧
        (∀ k, f.smodel k = .fin (z k)) ∧ ∀ k, f.residuals k = .fin (y k - z k) := by
  have ht : (fun k : Fin n => ((k : Nat) : ℝ) / 365.0) = fun k : Fin n => ((k : Nat) : ℝ) / 365 := by
    funext k; norm_num
  refine ⟨seasonalFit (fun k : Fin n => ((k : Nat) : ℝ) / 365.0) (fun k => .fin (y k)), rfl, ?_⟩
  rw [ht]
  exact ⟨realCoeff _ y, realModel _ y, isFit_real _ y, fit_coeff _ y, realModel_sum _ y,
    fit_smodel _ y, fit_residuals _ y⟩

/-- C57 for `seasonal_cycle_model` with one year length per sample. -/
theorem C57_cycle_lengths {n : Nat} (y : Fin n → ℝ) (d : Fin n → ℝ) (hd : ∀ k, d k ≠ 0) :
    ∃ f, seasonalCycleModel (fun k => .fin (y k)) (.array (List.ofFn d)) = .ok f ∧
      ∃ (c : Fin 6 → ℝ) (z : Fin n → ℝ), Spec.IsFit (fun k : Fin n => (k : ℝ) / d k) y z ∧
        (∀ j, f.coeff j = .fin (c j)) ∧
        (∀ k, z k = ∑ j, c j * Spec.regressor (fun k : Fin n => (k : ℝ) / d k) k j) ∧
        (∀ k, f.smodel k = .fin (z k)) ∧ ∀ k, f.residuals k = .fin (y k - z k) := by
  have hz : (0 : ℝ) ∉ List.ofFn d := by
    rw [List.mem_ofFn]
    rintro ⟨k, hk⟩
    exact hd k hk
  have hl : (List.ofFn d).length = n := List.length_ofFn
  have ht : decimalTime n (.array (List.ofFn d)) = .ok (fun k : Fin n => (k : ℝ) / d k) := by
    simp only [decimalTime, hl, true_or, if_true, hz, if_false]
    congr 1
    funext k
    rw [List.getD_eq_getElem?_getD, List.getElem?_eq_getElem (by omega)]
    simp
  refine ⟨seasonalFit (fun k : Fin n => (k : ℝ) / d k) (fun k => .fin (y k)), ?_, ?_⟩
  · unfold seasonalCycleModel
    rw [ht]; rfl
  · exact ⟨realCoeff _ y, realModel _ y, isFit_real _ y, fit_coeff _ y, realModel_sum _ y,
      fit_smodel _ y, fit_residuals _ y⟩

/-- C57: with a missing value everything `seasonal_cycle_model` returns is missing. -/
theorem C57_cycle_missing {n : Nat} (ts : Fin n → Fl ℝ) (d : DaysInYear) {f : SeasonFit n}
    (h : seasonalCycleModel ts d = .ok f) {i : Fin n} (hi : ts i = .nan) :
    (∀ j, f.coeff j = .nan) ∧ (∀ k, f.smodel k = .nan) ∧ ∀ k, f.residuals k = .nan := by
  unfold seasonalCycleModel at h
  cases ht : decimalTime n d with
  | error er => rw [ht] at h; cases h
  | ok t =>
    rw [ht] at h
    cases h
    exact fit_nan t hi

end Momlevel.Props
