import Verif.Props.SeasonCases
import Verif.Spec.SeasonTimes
import Verif.Lemmas.Oscillation
import Mathlib.Analysis.Real.Pi.Bounds

/-!
# The origin of time in the seasonal models, and daily data (C111, C112)
-/

set_option linter.unusedSectionVars false

namespace Momlevel.Props
open Momlevel

/-! ### C111: only the spacing of the decimal years matters -/

/-- Fits of the same series at times that differ by a constant are equal. -/
theorem fit_shifted {n : Nat} {t t' : Fin n → ℝ} (c : ℝ) (ht : ∀ k, t' k = t k + c)
    {s : Fin n → Fl ℝ} (hs : (∃ y : Fin n → ℝ, s = fun k => .fin (y k)) ∨ ∃ i, s i = .nan) (k : Fin n) :
    (seasonalFit t' s).smodel k = (seasonalFit t s).smodel k ∧
      (seasonalFit t' s).residuals k = (seasonalFit t s).residuals k := by
  rcases hs with ⟨y, rfl⟩ | ⟨i, hi⟩
  · have h : realModel t' y = realModel t y := by
      refine isFit_unique (isFit_real t' y) ?_
      rw [show t' = fun k => t k + c from funext ht]
      exact isFit_shift (isFit_real t y) c
    rw [fit_smodel, fit_smodel, fit_residuals, fit_residuals, h]
    exact ⟨rfl, rfl⟩
  · have h1 := fit_nan t hi
    have h2 := fit_nan t' hi
    exact ⟨(h2.2.1 k).trans (h1.2.1 k).symm, (h2.2.2 k).trans (h1.2.2 k).symm⟩

theorem series_cases {a : DA (Fl ℝ)} {e : Env} {n : Nat} (h : Spec.FiniteOrMissing a e n) :
    (∃ y : Fin n → ℝ, seriesAt a "time" n e = fun k => .fin (y k)) ∨
      ∃ i, seriesAt a "time" n e i = .nan := by
  rcases h with ⟨y, hy⟩ | ⟨i, hi, hn⟩
  · exact Or.inl ⟨y, seriesAt_eq hy⟩
  · exact Or.inr ⟨⟨i, hi⟩, hn⟩

/-- C111: if the decimal years of two axes differ by a constant, `seasonal_model` gives the same model
and the same residual on both, at every point where the data agree (and are finite or have a missing
value). -/
theorem C111_origin {x x' : SeasonArray} {ax ax' : TimeAxis} {n : Nat} (h : Spec.HasTime x ax n)
    (h' : Spec.HasTime x' ax' n) (hv : ∀ s ∈ ax.stamps, s.date.Valid ax.cal)
    (hv' : ∀ s ∈ ax'.stamps, s.date.Valid ax'.cal) (c : ℝ)
    (ht : ∀ k, Spec.yearsOf ax' n k = Spec.yearsOf ax n k + c)
    {m r m' r' : DA (Fl ℝ)} {a1 a2 a3 a4 : Dict String}
    (hr : seasonalModel x = .ok ((m, a1), (r, a2)))
    (hr' : seasonalModel x' = .ok ((m', a3), (r', a4)))
    (e : Env) (hf : Spec.FiniteOrMissing x.da e n)
    (hs : ∀ k < n, Spec.atPoint x'.da e k = Spec.atPoint x.da e k) :
    ∀ k < n, Spec.atPoint m' e k = Spec.atPoint m e k ∧ Spec.atPoint r' e k = Spec.atPoint r e k := by
  rw [seasonal_ok h] at hr
  rw [seasonal_ok h'] at hr'
  cases hr; cases hr'
  have hse : seriesAt x'.da "time" n e = seriesAt x.da "time" n e := funext (fun k => hs k k.2)
  intro k hk
  have key := fit_shifted c ht (series_cases hf) ⟨k, hk⟩
  rw [model_at x ax e ⟨k, hk⟩, model_at x' ax' e ⟨k, hk⟩, resid_at x ax e ⟨k, hk⟩,
    resid_at x' ax' e ⟨k, hk⟩, hse, decimalYears_eq h.count hv, decimalYears_eq h'.count hv']
  exact key

theorem dayNumber_year {c : Calendar} {d : Date} {y : Nat}
    (hl : Spec.Leap c (d.year + y) ↔ Spec.Leap c d.year) :
    Spec.dayNumber c ⟨d.year + y, d.month, d.day⟩ = Spec.dayNumber c d := by
  unfold Spec.dayNumber Spec.monthLength
  simp only [hl]

theorem design_years {n : Nat} (t : Fin n → ℝ) (y : Nat) :
    seasonDesign (fun k => t k + (y : ℝ)) = seasonDesign t := by
  ext j k
  rw [seasonDesign_eq, seasonDesign_eq]
  have h2 : ∀ s : ℝ, 2 * Real.pi * (s + y) = 2 * Real.pi * s + (y : ℝ) * (2 * Real.pi) := fun s => by
    ring
  have h4 : ∀ s : ℝ, 4 * Real.pi * (s + y) = 4 * Real.pi * s + ((2 * y : Nat) : ℝ) * (2 * Real.pi) :=
    fun s => by push_cast; ring
  match j with
  | 0 => rfl
  | 1 => exact (regressor_shift t y k).2.1
  | 2 => simp only [Spec.regressor]; rw [h2, Real.sin_add_nat_mul_two_pi]
  | 3 => simp only [Spec.regressor]; rw [h2, Real.cos_add_nat_mul_two_pi]
  | 4 => simp only [Spec.regressor]; rw [h4, Real.sin_add_nat_mul_two_pi]
  | 5 => simp only [Spec.regressor]; rw [h4, Real.cos_add_nat_mul_two_pi]

/-- C111: moving all dates by the same number of years changes neither the model nor the residual,
whatever the data are, as long as leap years fall on leap years. -/
theorem C111_years {x x' : SeasonArray} {ax ax' : TimeAxis} {n : Nat} (h : Spec.HasTime x ax n)
    (h' : Spec.HasTime x' ax' n) (hv : ∀ s ∈ ax.stamps, s.date.Valid ax.cal)
    (hv' : ∀ s ∈ ax'.stamps, s.date.Valid ax'.cal) (y : Nat) (hcal : ax'.cal = ax.cal)
    (hst : ax'.stamps = ax.stamps.map (fun s => ⟨⟨s.date.year + y, s.date.month, s.date.day⟩, s.us⟩))
    (hl : ∀ s ∈ ax.stamps, Spec.Leap ax.cal (s.date.year + y) ↔ Spec.Leap ax.cal s.date.year)
    {m r m' r' : DA (Fl ℝ)} {a1 a2 a3 a4 : Dict String}
    (hr : seasonalModel x = .ok ((m, a1), (r, a2)))
    (hr' : seasonalModel x' = .ok ((m', a3), (r', a4)))
    (e : Env) (hs : ∀ k < n, Spec.atPoint x'.da e k = Spec.atPoint x.da e k) :
    ∀ k < n, Spec.atPoint m' e k = Spec.atPoint m e k ∧ Spec.atPoint r' e k = Spec.atPoint r e k := by
  rw [seasonal_ok h] at hr
  rw [seasonal_ok h'] at hr'
  cases hr; cases hr'
  have hse : seriesAt x'.da "time" n e = seriesAt x.da "time" n e := funext (fun k => hs k k.2)
  have ht : Spec.yearsOf ax' n = fun k => Spec.yearsOf ax n k + (y : ℝ) := by
    funext k
    have hk : k.1 < ax.stamps.length := by rw [h.count]; exact k.2
    unfold Spec.yearsOf
    rw [hst, List.getElem?_map, List.getElem?_eq_getElem hk, Option.map_some]
    simp only [hcal]
    rw [dayNumber_year (hl _ (List.getElem_mem hk))]
    push_cast
    ring
  have hfit : ∀ s : Fin n → Fl ℝ,
      seasonalFit (Spec.yearsOf ax' n) s = seasonalFit (Spec.yearsOf ax n) s := by
    intro s
    unfold seasonalFit
    rw [ht, design_years]
  intro k hk
  rw [model_at x ax e ⟨k, hk⟩, model_at x' ax' e ⟨k, hk⟩, resid_at x ax e ⟨k, hk⟩,
    resid_at x' ax' e ⟨k, hk⟩, hse, decimalYears_eq h.count hv, decimalYears_eq h'.count hv', hfit]
  exact ⟨rfl, rfl⟩

/-! ### C112: `deseason` and `seasonal_model` on daily data -/

theorem next_dayOfYear {c : Calendar} {d : Date} (h : d.Valid c) (hc : c ≠ .day360)
    (hl : ¬ Spec.Leap c d.year) :
    ((d.next c).year = d.year ∧ dayOfYear c (d.next c) = dayOfYear c d + 1) ∨
      ((d.next c).year = d.year + 1 ∧ dayOfYear c d = 365 ∧ dayOfYear c (d.next c) = 1) := by
  have hv := Date.valid_next h
  have o1 := ord_dayOfYear h
  have o2 := ord_dayOfYear hv
  have on := Date.ord_next h
  have hy : (d.next c).year = d.year ∨
      ((d.next c).year = d.year + 1 ∧ (d.next c).month = 1 ∧ (d.next c).day = 1) := by
    unfold Date.next
    split
    · exact Or.inl rfl
    · split
      · exact Or.inl rfl
      · exact Or.inr ⟨rfl, rfl, rfl⟩
  rcases hy with hy | ⟨hy, hm, hd⟩
  · left
    refine ⟨hy, ?_⟩
    rw [hy] at o2
    omega
  · right
    have h1 : dayOfYear c (d.next c) = 1 := by unfold dayOfYear; rw [hm, hd]; rfl
    refine ⟨hy, ?_, h1⟩
    have hlen : daysInYear c d.year = 365 := by
      rw [daysInYear_eq]
      unfold Spec.yearLength
      rw [if_neg hl, if_neg hc]
    rw [hy] at o2
    have hsucc : Date.ySum c (d.year + 1 - 1) = Date.ySum c (d.year - 1) + daysInYear c d.year := by
      obtain ⟨y, hy⟩ := Nat.exists_eq_add_of_le' h.1
      rw [hy, Nat.add_sub_cancel, Nat.add_sub_cancel, Date.ySum_succ]
    omega

theorem decimalYear_next {c : Calendar} {s s' : Stamp} (h : s.date.Valid c) (h' : s'.date.Valid c)
    (hu : s.us < 86400000000) (hu' : s'.us < 86400000000) (hc : c ≠ .day360)
    (hl : ¬ Spec.Leap c s.date.year) (hd : s'.toUs c = s.toUs c + 86400000000) :
    decimalYear c s' = decimalYear c s + 1 / 365 := by
  have hord : s'.date.ord c = s.date.ord c + 1 ∧ s'.us = s.us := by
    unfold Stamp.toUs usPerDay at hd
    generalize s'.date.ord c = o' at hd ⊢
    generalize s.date.ord c = o at hd ⊢
    omega
  have hnext : s'.date = s.date.next c :=
    Date.ord_injective h' (Date.valid_next h) (by rw [Date.ord_next h]; exact hord.1)
  rw [decimalYear, decimalYear, hord.2, hnext]
  rcases next_dayOfYear h hc hl with ⟨h1, h2⟩ | ⟨h1, h2, h3⟩
  · rw [h1, h2]
    push_cast
    ring
  · rw [h1, h2, h3]
    push_cast
    ring

/-- On a daily axis without leap years the times of the two functions differ by a constant. -/
theorem daily_years {ax : TimeAxis} {n : Nat} (hn : ax.stamps.length = n)
    (hv : Spec.ValidTimes ax) (hc : ax.cal ≠ .day360)
    (hl : ∀ s ∈ ax.stamps, ¬ Spec.Leap ax.cal s.date.year) (hd : Spec.Daily ax) :
    ∃ c, ∀ k : Fin n, Spec.yearsOf ax n k = Spec.sampleYears ax n k + c := by
  refine ⟨decimalYear ax.cal (ax.stamps.getD 0 ⟨⟨1, 1, 1⟩, 0⟩), fun k => ?_⟩
  have hsample : Spec.sampleYears ax n k = (k : ℝ) / 365 := by
    unfold Spec.sampleYears Spec.daysOf
    have hk : k.1 < ax.stamps.length := by omega
    rw [List.getElem?_eq_getElem hk]
    simp only
    rw [if_neg (hl _ (List.getElem_mem hk))]
    norm_num
  rw [hsample, ← decimalYears_eq hn (fun s hs => (hv s hs).1)]
  obtain ⟨k, hk⟩ := k
  unfold decimalYears
  simp only
  induction k with
  | zero => simp
  | succ k ih =>
    have h1 : k < ax.stamps.length := by omega
    have h2 : k + 1 < ax.stamps.length := by omega
    have key := decimalYear_next (hv _ (List.getElem_mem h1)).1 (hv _ (List.getElem_mem h2)).1
      (hv _ (List.getElem_mem h1)).2 (hv _ (List.getElem_mem h2)).2 hc (hl _ (List.getElem_mem h1))
      (hd k _ _ (List.getElem?_eq_getElem h1) (List.getElem?_eq_getElem h2))
    have ih' := ih (by omega)
    rw [List.getD_eq_getElem?_getD, List.getElem?_eq_getElem h1, Option.getD_some] at ih'
    rw [List.getD_eq_getElem?_getD, List.getElem?_eq_getElem h2, Option.getD_some, key, ih']
    · push_cast
      ring
    · simpa using (by
        unfold Spec.sampleYears Spec.daysOf
        rw [List.getElem?_eq_getElem h1]
        simp only
        rw [if_neg (hl _ (List.getElem_mem h1))]
        norm_num)

/-- C112, the part that holds (the full claim, for all calendars, is refuted by
`C112_counterexample`): on daily data without leap years (and not of the 360-day calendar), `deseason`
and `seasonal_model` return the same model and the same residuals at every point whose series is
finite or has a missing value. -/
theorem C112_partial {x : SeasonArray} {ax : TimeAxis} {n : Nat} (h : Spec.HasTime x ax n)
    (hcov : Spec.Covered x) (hv : Spec.ValidTimes ax)
    (hc : ax.cal ≠ .day360) (hl : ∀ s ∈ ax.stamps, ¬ Spec.Leap ax.cal s.date.year) (hd : Spec.Daily ax)
    {m r : DA (Fl ℝ)} {a1 a2 : Dict String} (hr : seasonalModel x = .ok ((m, a1), (r, a2)))
    {dm dr : Deseasoned} {vm vr : DA (Fl ℝ)} (hdm : deseason x "time" "model" = .ok dm)
    (hdr : deseason x "time" "residuals" = .ok dr) (hvm : dm.values = .ok vm)
    (hvr : dr.values = .ok vr) (e : Env) (hf : Spec.FiniteOrMissing x.da e n) :
    ∀ k < n, Spec.atPoint vm e k = Spec.atPoint m e k ∧ Spec.atPoint vr e k = Spec.atPoint r e k := by
  rw [seasonal_ok h] at hr
  cases hr
  obtain ⟨d, e1, _, e3⟩ := deseason_model h hcov
  obtain ⟨d', f1, _, f3⟩ := deseason_residuals h hcov
  rw [e1] at hdm
  rw [f1] at hdr
  cases hdm; cases hdr; cases hvm; cases hvr
  obtain ⟨c, hyears⟩ := daily_years h.count hv hc hl hd
  intro k hk
  have hb : (Function.update e "time" k) "time" < n := by rw [Function.update_self]; exact hk
  have key := fit_shifted c hyears (series_cases hf) ⟨k, hk⟩
  rw [model_at x ax e ⟨k, hk⟩, resid_at x ax e ⟨k, hk⟩,
    decimalYears_eq h.count (fun s hs => (hv s hs).1), key.1, key.2]
  unfold Spec.atPoint
  rw [e3 _ hb, f3 _ hb, fitAtPoint_update, Function.update_self]
  exact ⟨entry_fin _ (⟨k, hk⟩ : Fin n), entry_fin _ (⟨k, hk⟩ : Fin n)⟩

/-- Eight days of a leap year, and the annual cycle of a year of 366 days. -/
def leapAxis : TimeAxis :=
  ⟨.allLeap, (List.range 8).map (fun k => ⟨⟨1, 1, k + 1⟩, 0⟩)⟩

noncomputable def leapA : SeasonArray :=
  ⟨⟨[("time", 8)], fun e => .fin (1 * Real.cos (2 * Real.pi / 366 * (e "time" : ℝ) + 0))⟩,
   [("time", leapAxis)], ["time"], [], none⟩

theorem leapA_time : Spec.HasTime leapA leapAxis 8 :=
  ⟨by decide, by decide, rfl, rfl, by decide⟩

theorem leapA_covered : Spec.Covered leapA := by
  intro cs h
  cases h

theorem leapAxis_valid : Spec.ValidTimes leapAxis := by
  unfold Spec.ValidTimes
  decide

theorem leapAxis_daily : Spec.Daily leapAxis := by
  intro k s s' h h'
  have hk : k < 7 := by
    by_contra hc
    rw [List.getElem?_eq_none (by change 8 ≤ k + 1; omega)] at h'
    cases h'
  interval_cases k <;> (cases h; cases h'; rfl)

/-- The angles of the cycles: a year of `d` days. -/
theorem cos_ne {p q : ℝ} (hp : 0 ≤ p) (hpp : p ≤ Real.pi) (hq : 0 ≤ q) (hqq : q ≤ Real.pi)
    (h : p ≠ q) : Real.cos p ≠ Real.cos q := fun hc => h (Real.injOn_cos ⟨hp, hpp⟩ ⟨hq, hqq⟩ hc)

/-- A series that advances by the angle `θ` per sample is no combination of the regressors at times
`k / d`, unless its angle is that of one of the regressors. -/
theorem combination_angle {n : Nat} (hn : 8 ≤ n) {d : ℝ} {θ : ℝ} {f : Nat → ℝ} (hf : Osc θ f)
    (a : Fin 6 → ℝ)
    (hc : ∀ k : Fin n, f k = ∑ j, a j * Spec.regressor (fun k : Fin n => ((k : Nat) : ℝ) / d) k j)
    (h1 : Real.cos θ ≠ 1) (h2 : Real.cos θ ≠ Real.cos (2 * Real.pi / d))
    (h3 : Real.cos θ ≠ Real.cos (4 * Real.pi / d)) : f 3 = 0 ∧ f 4 = 0 := by
  set μ : ℝ := (∑ j : Fin n, ((j : Nat) : ℝ) / d) / n with hμ
  have key : ∀ k : Nat, k ≤ 1 → f (k + 3) = 0 := by
    intro k hk
    have := osc_three hf (osc_line (a 0 - a 1 * μ) (a 1 / d)) (osc_wave (2 * Real.pi / d) (a 2) (a 3))
      (osc_wave (4 * Real.pi / d) (a 4) (a 5)) (k := k) (fun i hi => by
        rw [hc ⟨k + i, by omega⟩, regressor_sum, ← hμ]
        simp only
        rw [show ∀ z : ℝ, 2 * Real.pi * (z / d) = 2 * Real.pi / d * z from fun z => by ring,
          show ∀ z : ℝ, 4 * Real.pi * (z / d) = 4 * Real.pi / d * z from fun z => by ring]
        ring)
    refine (mul_eq_zero.1 this).resolve_left (mul_ne_zero (sub_ne_zero.2 h1)
      (mul_ne_zero (sub_ne_zero.2 h2) (sub_ne_zero.2 h3)))
  exact ⟨key 0 (by norm_num), key 1 (by norm_num)⟩

theorem sampleYears_eq {ax : TimeAxis} {n d : Nat} (h : ∀ k < n, Spec.daysOf ax k = d) :
    Spec.sampleYears ax n = fun k : Fin n => ((k : Nat) : ℝ) / d := by
  funext k
  unfold Spec.sampleYears
  rw [h k k.2]

theorem leapA_series (e : Env) : Spec.SeriesIs leapA.da e
    (fun k : Fin 8 => 1 * Real.cos (2 * Real.pi / 366 * ((k : Nat) : ℝ) + 0)) := by
  intro k
  change Fl.fin _ = _
  rw [Function.update_self]

theorem leapAxis_days : ∀ k < 8, Spec.daysOf leapAxis k = 366 := by decide

theorem leapAxis_years : Spec.yearsOf leapAxis 8 = fun k : Fin 8 => ((k : Nat) : ℝ) / 365 + 1 := by
  funext k
  fin_cases k <;> simp [Spec.yearsOf, leapAxis, Spec.dayNumber] <;> norm_num

/-- C112, refuted: on eight days of a leap year `deseason` removes the annual cycle of a year of 366
days, and `seasonal_model` does not. -/
theorem C112_counterexample : ∃ (x : SeasonArray) (ax : TimeAxis) (n : Nat)
    (m r : DA (Fl ℝ)) (a1 a2 : Dict String) (dr : Deseasoned) (vr : DA (Fl ℝ)) (e : Env),
    Spec.HasTime x ax n ∧ Spec.Covered x ∧ Spec.ValidTimes ax ∧ Spec.Daily ax ∧
      seasonalModel x = .ok ((m, a1), (r, a2)) ∧ deseason x "time" "residuals" = .ok dr ∧
      dr.values = .ok vr ∧ Spec.SeriesIs vr e (fun _ : Fin n => 0) ∧
      ∃ k < n, Spec.atPoint r e k ≠ .fin 0 := by
  obtain ⟨m, r, dm, dr, -, hr, -, hvr, -, -, hfit⟩ := C58_fit leapA_time leapA_covered
  obtain ⟨m', am, r', ar, hs, -, -, hsfit⟩ := C57_fit leapA_time
    (fun s hs => (leapAxis_valid s hs).1) ⟨by change ["time"].Nodup; decide, by
      change ∀ c ∈ ["time"], c ∈ ["time"]; decide⟩
  refine ⟨leapA, leapAxis, 8, m', r', am, ar, r, dr, fun _ => 0, leapA_time, leapA_covered,
    leapAxis_valid, leapAxis_daily, hs, hr, hvr, ?_, ?_⟩
  · obtain ⟨z, hz, -, hrz⟩ := hfit (fun _ => 0) _ (leapA_series _)
    have hz' : Spec.IsFit (Spec.sampleYears leapAxis 8)
        (fun k : Fin 8 => 1 * Real.cos (2 * Real.pi / 366 * ((k : Nat) : ℝ) + 0))
        (fun k : Fin 8 => 1 * Real.cos (2 * Real.pi / 366 * ((k : Nat) : ℝ) + 0)) := by
      refine ⟨⟨![0, 0, 0, 1, 0, 0], fun k => ?_⟩, fun j => by simp⟩
      rw [regressor_sum, sampleYears_eq leapAxis_days]
      simp only [Matrix.cons_val]
      rw [add_zero, show 2 * Real.pi * (((k : Nat) : ℝ) / (366 : Nat)) =
        2 * Real.pi / 366 * ((k : Nat) : ℝ) by push_cast; ring]
      ring
    have := isFit_unique hz hz'
    intro k
    rw [hrz k, this]
    simp only [sub_self]
  · by_contra hcon
    push Not at hcon
    obtain ⟨z, hz, -, hrz⟩ := hsfit (fun _ => 0) _ (leapA_series _)
    rw [leapAxis_years] at hz
    obtain ⟨a, ha⟩ := ((isFit_shift_iff 1).1 hz).combination
    have hp := Real.pi_pos
    obtain ⟨h3, -⟩ := combination_angle (le_refl 8) (osc_cos (2 * Real.pi / 366) 1 0) a
      (fun k => by
        have h1 := hrz k
        rw [hcon k k.2] at h1
        have h2 : (0 : ℝ) = _ := Fl.fin.inj h1
        rw [← ha k]
        linarith)
      (by
        rw [← Real.cos_zero]
        exact cos_ne (by positivity) (by linarith) le_rfl hp.le (by positivity))
      (cos_ne (by positivity) (by linarith) (by positivity) (by linarith) (by
        intro h
        linarith))
      (cos_ne (by positivity) (by linarith) (by positivity) (by linarith) (by
        intro h
        linarith))
    have h4 : 0 < Real.cos (2 * Real.pi / 366 * (3 : Nat) + 0) := by
      apply Real.cos_pos_of_mem_Ioo
      constructor <;> push_cast <;> linarith
    linarith

/-! ### Examples -/

/-- Three days of year 2. -/
def seaAxisLater : TimeAxis :=
  ⟨.noleap, [⟨⟨2, 1, 1⟩, 0⟩, ⟨⟨2, 1, 2⟩, 0⟩, ⟨⟨2, 1, 3⟩, 0⟩]⟩

/-- The same array a year later. -/
noncomputable def seaLater : SeasonArray := { seaA with axes := [("time", seaAxisLater)] }

theorem seaLater_time : Spec.HasTime seaLater seaAxisLater 3 :=
  ⟨by decide, by decide, rfl, rfl, by decide⟩

/-- C111: a year later. -/
example {m r m' r' : DA (Fl ℝ)} {a1 a2 a3 a4 : Dict String}
    (hr : seasonalModel seaA = .ok ((m, a1), (r, a2)))
    (hr' : seasonalModel seaLater = .ok ((m', a3), (r', a4))) :
    Spec.atPoint r' (fun _ => 1) 2 = Spec.atPoint r (fun _ => 1) 2 :=
  (C111_years seaA_time seaLater_time seaAxis_valid (by decide) 1 rfl rfl
    (by simp [Spec.Leap, seaAxis]) hr hr' (fun _ => 1) (fun _ _ => rfl) 2 (by norm_num)).2

/-- C111: the decimal years differ by one. -/
example {m r m' r' : DA (Fl ℝ)} {a1 a2 a3 a4 : Dict String}
    (hr : seasonalModel seaA = .ok ((m, a1), (r, a2)))
    (hr' : seasonalModel seaLater = .ok ((m', a3), (r', a4))) :
    Spec.atPoint m' (fun _ => 1) 2 = Spec.atPoint m (fun _ => 1) 2 :=
  (C111_origin seaA_time seaLater_time seaAxis_valid (by decide) 1 (fun k => by
      fin_cases k <;> simp [Spec.yearsOf, seaAxis, seaAxisLater, Spec.dayNumber] <;> norm_num)
    hr hr' (fun _ => 1) (Or.inl ⟨_, seaA_series 1⟩) (fun _ _ => rfl) 2 (by norm_num)).1

/-- C112: three days of a year of 365 days. -/
example {m r : DA (Fl ℝ)} {a1 a2 : Dict String} (hr : seasonalModel seaA = .ok ((m, a1), (r, a2)))
    {dm dr : Deseasoned} {vm vr : DA (Fl ℝ)} (hdm : deseason seaA "time" "model" = .ok dm)
    (hdr : deseason seaA "time" "residuals" = .ok dr) (hvm : dm.values = .ok vm)
    (hvr : dr.values = .ok vr) : Spec.atPoint vr (fun _ => 1) 2 = Spec.atPoint r (fun _ => 1) 2 :=
  (C112_partial seaA_time seaA_covered (by unfold Spec.ValidTimes; decide) (by decide)
    (by simp [Spec.Leap, seaAxis]) (by
      intro k s s' h h'
      have hk : k < 2 := by
        by_contra hc
        rw [List.getElem?_eq_none (by change 3 ≤ k + 1; omega)] at h'
        cases h'
      interval_cases k <;> (cases h; cases h'; rfl))
    hr hdm hdr hvm hvr (fun _ => 1) (Or.inl ⟨_, seaA_series 1⟩) 2 (by norm_num)).2

end Momlevel.Props
