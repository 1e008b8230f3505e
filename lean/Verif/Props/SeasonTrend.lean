import Verif.Props.SeasonOrigin
import Verif.Props.TrendCases

/-!
# The linear trend of seasonal residuals (C114)
-/

set_option linter.unusedSectionVars false

namespace Momlevel.Props
open Momlevel

/-- Without leap days the decimal year of a whole hour is a linear function of time. -/
theorem noleap_decimal {s : Stamp} (h : s.date.Valid .noleap) (hw : 3600000000 ∣ s.us) :
    decimalYear .noleap s = 1 + ((s.toUs .noleap : Int) : ℝ) / 31536000000000 := by
  obtain ⟨w, hw⟩ := hw
  have ho := ord_dayOfYear h
  have hy : Date.ySum .noleap (s.date.year - 1) = 365 * (s.date.year - 1) := by
    generalize s.date.year - 1 = y
    induction y with
    | zero => rfl
    | succ y ih =>
      rw [Date.ySum_succ, ih, daysInYear_eq]
      simp [Spec.yearLength, Spec.Leap]
      ring
  have h1 : 1 ≤ s.date.year := h.1
  obtain ⟨y, hy1⟩ := Nat.exists_eq_add_of_le' h1
  rw [hy, hy1, Nat.add_sub_cancel] at ho
  have hor : (s.date.ord .noleap : ℝ) + 1 = 365 * y + dayOfYear .noleap s.date := by exact_mod_cast ho
  unfold decimalYear Stamp.toUs usPerDay
  rw [hw, Nat.mul_div_cancel_left _ (by norm_num), hy1]
  push_cast
  rw [show (dayOfYear .noleap s.date : ℝ) = (s.date.ord .noleap : ℝ) + 1 - 365 * y by linarith]
  field_simp
  ring

/-- On such an axis the positions used for trends are a linear function of the decimal years. -/
theorem noleap_position {ax : TimeAxis} {n : Nat} (hn : ax.stamps.length = n) (hcal : ax.cal = .noleap)
    (hv : Spec.ValidTimes ax) (hw : Spec.WholeHours ax) :
    ∃ c, ∀ k : Fin n, Spec.position (K := ℝ) (.cftime ax) k =
      31536000000000000 * Spec.yearsOf ax n k + c := by
  refine ⟨-31536000000000000 -
    1000 * ((Stamp.toUs ax.cal ⟨⟨1970, 1, 1⟩, 0⟩ : Int) : ℝ), fun k => ?_⟩
  rw [← decimalYears_eq hn (fun s hs => (hv s hs).1)]
  have hk : k.1 < ax.stamps.length := by omega
  have hm := List.getElem_mem hk
  unfold Spec.position decimalYears
  simp only
  rw [List.getD_eq_getElem?_getD, List.getElem?_map, List.getElem?_eq_getElem hk, Option.map_some,
    Option.getD_some, List.getD_eq_getElem?_getD, List.getElem?_eq_getElem hk, Option.getD_some]
  have h1 := (hv _ hm).1
  rw [hcal] at h1 ⊢
  rw [noleap_decimal h1 (hw _ hm)]
  push_cast
  field_simp
  ring

theorem misfit_sum {x : TrendArray ℝ} {ix : DimIndex ℝ} {n : Nat} {e : Env} {v : Fin n → ℝ}
    (hv : ∀ k : Fin n, Spec.along x "time" e k = .fin (v k)) (m q : ℝ) :
    Spec.misfit n (Spec.position ix) (Spec.along x "time" e) m q =
      ∑ k : Fin n, (v k - (m * Spec.position ix k + q)) ^ 2 := by
  unfold Spec.misfit Spec.overValid
  rw [← Fin.sum_univ_eq_sum_range
    (fun k => Spec.ifValid (Spec.along x "time" e k) (fun v => (v - (m * Spec.position ix k + q)) ^ 2))]
  refine Finset.sum_congr rfl (fun k _ => ?_)
  rw [hv k]
  rfl

/-- A series orthogonal to the constant and to the positions has slope and intercept zero. -/
theorem trend_zero {x s b : TrendArray ℝ} {ix : DimIndex ℝ} {n : Nat} {u : Option String} {c : ℝ}
    (h : Spec.HasAxis x "time" ix n) (hc : Spec.unitScale ix u = some c)
    (hs : calcLinearTrend x "time" u = .ok (s, b)) {e : Env} {v : Fin n → ℝ}
    (hv : ∀ k : Fin n, Spec.along x "time" e k = .fin (v k))
    (h0 : ∑ k, v k = 0) (h1 : ∑ k : Fin n, v k * Spec.position ix k = 0)
    {i j : Fin n} (hne : Spec.position ix i ≠ Spec.position ix j) :
    s.da.get e = .fin 0 ∧ b.da.get e = .fin 0 := by
  have ho : Spec.Ordinary n (Spec.along x "time" e) := fun k hk => Or.inr ⟨v ⟨k, hk⟩, hv ⟨k, hk⟩⟩
  have hmis := misfit_sum (ix := ix) hv
  have := C51_unique h hc hs ho i.2 j.2 (hv i) (hv j) hne (m := 0) (q := 0) (fun m' q' => by
    rw [hmis, hmis]
    have e1 : ∀ k : Fin n, (v k - (m' * Spec.position ix k + q')) ^ 2 =
        (v k - (0 * Spec.position ix k + 0)) ^ 2 - 2 * m' * (v k * Spec.position ix k) -
          2 * q' * v k + (m' * Spec.position ix k + q') ^ 2 := fun k => by ring
    simp only [e1]
    rw [Finset.sum_add_distrib, Finset.sum_sub_distrib, Finset.sum_sub_distrib, ← Finset.mul_sum,
      ← Finset.mul_sum, h0, h1]
    have : 0 ≤ ∑ k : Fin n, (m' * Spec.position ix k + q') ^ 2 :=
      Finset.sum_nonneg (fun k _ => sq_nonneg _)
    linarith)
  rw [zero_mul] at this
  exact this

/-- The residual of a fit is orthogonal to the constant and to any linear function of the times. -/
theorem fit_orthogonal {n : Nat} {t y m p : Fin n → ℝ} {a b : ℝ} (h : Spec.IsFit t y m)
    (hp : ∀ k, p k = a * t k + b) : ∑ k, (y k - m k) = 0 ∧ ∑ k, (y k - m k) * p k = 0 := by
  have h0 : ∑ k, (y k - m k) = 0 := by
    have := h.orthogonal 0
    simpa only [Spec.regressor, mul_one] using this
  refine ⟨h0, ?_⟩
  have h1 := h.orthogonal 1
  simp only [Spec.regressor] at h1
  set μ := (∑ j, t j) / (n : ℝ)
  have e1 : ∀ k, (y k - m k) * p k = a * ((y k - m k) * (t k - μ)) + (a * μ + b) * (y k - m k) :=
    fun k => by rw [hp k]; ring
  simp only [e1]
  rw [Finset.sum_add_distrib, ← Finset.mul_sum, ← Finset.mul_sum, h1, h0]
  ring

/-- C114, the part that holds (the full claim, for all calendars, is refuted by
`C114_counterexample`): in the calendar without leap years and for times on whole hours, the residual
of `seasonal_model` has slope and intercept zero in `calc_linear_trend`, in every unit. -/
theorem C114_partial {x : SeasonArray} {ax : TimeAxis} {n : Nat} (h : Spec.HasTime x ax n)
    (hi : Spec.Indexed x) (hcal : ax.cal = .noleap) (hv : Spec.ValidTimes ax)
    (hw : Spec.WholeHours ax) {m r : DA (Fl ℝ)} {a1 a2 : Dict String}
    (hr : seasonalModel x = .ok ((m, a1), (r, a2)))
    {tr s b : TrendArray ℝ} (htr : Spec.HasAxis tr "time" (.cftime ax) n) (hda : tr.da = r)
    {u : Option String} {c : ℝ} (hc : Spec.unitScale (K := ℝ) (.cftime ax) u = some c)
    (hs : calcLinearTrend tr "time" u = .ok (s, b)) (e : Env) {y : Fin n → ℝ}
    (hy : Spec.SeriesIs x.da e y)
    {i j : Fin n} (hne : Spec.position (K := ℝ) (.cftime ax) i ≠ Spec.position (.cftime ax) j) :
    s.da.get e = .fin 0 ∧ b.da.get e = .fin 0 := by
  obtain ⟨m', _, r', _, hr', -, -, hfit⟩ := C57_fit h (fun s hs => (hv s hs).1) hi
  rw [hr] at hr'
  cases hr'
  obtain ⟨z, hz, -, hrz⟩ := hfit e y hy
  obtain ⟨q, hq⟩ := noleap_position h.count hcal hv hw
  obtain ⟨o0, o1⟩ := fit_orthogonal hz hq
  refine trend_zero htr hc hs (v := fun k => y k - z k) (fun k => ?_) o0 o1 hne
  have := hrz k
  rw [← hda] at this
  exact this

/-- C114: the same for the residuals of `deseason` on daily data. -/
theorem C114_deseason {x : SeasonArray} {ax : TimeAxis} {n : Nat} (h : Spec.HasTime x ax n)
    (hcov : Spec.Covered x) (hcal : ax.cal = .noleap) (hv : Spec.ValidTimes ax)
    (hw : Spec.WholeHours ax) (hd : Spec.Daily ax) {dr : Deseasoned} {vr : DA (Fl ℝ)}
    (hr : deseason x "time" "residuals" = .ok dr) (hvr : dr.values = .ok vr)
    {tr s b : TrendArray ℝ} (htr : Spec.HasAxis tr "time" (.cftime ax) n) (hda : tr.da = vr)
    {u : Option String} {c : ℝ} (hc : Spec.unitScale (K := ℝ) (.cftime ax) u = some c)
    (hs : calcLinearTrend tr "time" u = .ok (s, b)) (e : Env) {y : Fin n → ℝ}
    (hy : Spec.SeriesIs x.da e y)
    {i j : Fin n} (hne : Spec.position (K := ℝ) (.cftime ax) i ≠ Spec.position (.cftime ax) j) :
    s.da.get e = .fin 0 ∧ b.da.get e = .fin 0 := by
  obtain ⟨_, r', _, v', -, hr', -, hv', -, -, hfit⟩ := C58_fit h hcov
  rw [hr] at hr'
  cases hr'
  rw [hvr] at hv'
  cases hv'
  obtain ⟨z, hz, -, hrz⟩ := hfit e y hy
  obtain ⟨q, hq⟩ := noleap_position h.count hcal hv hw
  obtain ⟨d, hd'⟩ := daily_years h.count hv (by rw [hcal]; decide)
    (by rw [hcal]; intro s _ hl; exact hl) hd
  obtain ⟨o0, o1⟩ := fit_orthogonal hz (p := fun k => Spec.position (.cftime ax) k)
    (a := 31536000000000000) (b := 31536000000000000 * d + q) (fun k => by
      rw [hq k, hd' k]; ring)
  refine trend_zero htr hc hs (v := fun k => y k - z k) (fun k => ?_) o0 o1 hne
  have := hrz k
  rw [← hda] at this
  exact this

/-- The first days of 24 months of the 360-day calendar, and a steady rise. -/
def risingAxis : TimeAxis :=
  ⟨.day360, (List.range 24).map (fun k => ⟨⟨1 + k / 12, k % 12 + 1, 1⟩, 0⟩)⟩

noncomputable def risingA : SeasonArray :=
  ⟨⟨[("time", 24)], fun e => .fin (e "time" : ℝ)⟩, [("time", risingAxis)], ["time"], [], none⟩

theorem risingA_time : Spec.HasTime risingA risingAxis 24 :=
  ⟨by decide, by decide, rfl, rfl, by decide⟩

theorem risingA_indexed : Spec.Indexed risingA :=
  ⟨by change ["time"].Nodup; decide, by change ∀ c ∈ ["time"], c ∈ ["time"]; decide⟩

theorem risingAxis_valid : Spec.ValidTimes risingAxis := by
  unfold Spec.ValidTimes
  decide

theorem risingA_series (e : Env) : Spec.SeriesIs risingA.da e (fun k : Fin 24 => ((k : Nat) : ℝ)) := by
  intro k
  change Fl.fin _ = _
  rw [Function.update_self]

theorem risingAxis_years : Spec.yearsOf risingAxis 24 =
    fun k : Fin 24 => (((k.1 / 12 : Nat) : ℝ) + 30 * ((k.1 % 12 : Nat) : ℝ) / 365) + 1 := by
  funext k
  fin_cases k <;> simp [Spec.yearsOf, risingAxis, Spec.dayNumber, Spec.monthLength] <;> norm_num

theorem risingAxis_us : ∀ k : Fin 24, (risingAxis.stamps.map (fun s =>
    (s.toUs .day360 - Stamp.toUs .day360 ⟨⟨1970, 1, 1⟩, 0⟩) * 1000)).getD k 0 =
      2592000000000000 * ((k : Nat) : Int) - Stamp.toUs .day360 ⟨⟨1970, 1, 1⟩, 0⟩ * 1000 := by
  decide +kernel

theorem risingAxis_position (k : Fin 24) : Spec.position (K := ℝ) (.cftime risingAxis) k =
    2592000000000000 * ((k : Nat) : ℝ) -
      ((Stamp.toUs .day360 ⟨⟨1970, 1, 1⟩, 0⟩ * 1000 : Int) : ℝ) := by
  have h := risingAxis_us k
  have hk : k.1 < risingAxis.stamps.length := k.2
  unfold Spec.position
  simp only
  rw [List.getD_eq_getElem?_getD, List.getElem?_map, List.getElem?_eq_getElem hk, Option.map_some,
    Option.getD_some] at h ⊢
  rw [show risingAxis.cal = .day360 from rfl, h]
  push_cast
  ring

/-- The steady rise is no combination of the regressors. -/
theorem rising_no_combination (a : Fin 6 → ℝ)
    (h : ∀ k : Fin 24, ((k : Nat) : ℝ) = ∑ j, a j * Spec.regressor (fun k : Fin 24 =>
      ((k.1 / 12 : Nat) : ℝ) + 30 * ((k.1 % 12 : Nat) : ℝ) / 365) k j) : False := by
  set t : Fin 24 → ℝ := fun k => ((k.1 / 12 : Nat) : ℝ) + 30 * ((k.1 % 12 : Nat) : ℝ) / 365 with ht
  set μ := (∑ j, t j) / ((24 : Nat) : ℝ) with hμ
  have hf : ∀ k : Fin 24, ((k : Nat) : ℝ) = a 0 + a 1 * (t k - μ) +
      a 2 * Real.sin (2 * Real.pi * t k) + a 3 * Real.cos (2 * Real.pi * t k) +
      a 4 * Real.sin (4 * Real.pi * t k) + a 5 * Real.cos (4 * Real.pi * t k) := by
    intro k
    rw [h k, regressor_sum]
  have t0 : t 0 = 0 := by simp [ht]
  have t12 : t 12 = 1 := by norm_num [ht]
  have e0 := hf 0
  have e12 := hf 12
  rw [t0] at e0
  rw [t12] at e12
  have c2 : Real.cos (2 * Real.pi * 1) = 1 := by rw [mul_one, Real.cos_two_pi]
  have s2 : Real.sin (2 * Real.pi * 1) = 0 := by rw [mul_one, Real.sin_two_pi]
  have c4 : Real.cos (4 * Real.pi * 1) = 1 := by
    have := Real.cos_nat_mul_two_pi 2
    push_cast at this
    rw [show 4 * Real.pi * 1 = 2 * (2 * Real.pi) by ring, this]
  have s4 : Real.sin (4 * Real.pi * 1) = 0 := by
    have := Real.sin_nat_mul_pi 4
    push_cast at this
    rw [mul_one, this]
  rw [c2, s2, c4, s4] at e12
  simp only [mul_zero, Real.sin_zero, Real.cos_zero] at e0
  have ha1 : a 1 = 12 := by
    norm_num at e0 e12
    linarith
  have hpi := Real.pi_pos
  have key : ∀ k : Nat, k ≤ 1 →
      -(a 0 - a 1 * μ) + (1 - 360 / 365) * ((k + 2 : Nat) : ℝ) = 0 := by
    intro k hk
    have := osc_two (osc_line (-(a 0 - a 1 * μ)) (1 - 360 / 365))
      (osc_wave (2 * Real.pi * 30 / 365) (a 2) (a 3))
      (osc_wave (4 * Real.pi * 30 / 365) (a 4) (a 5)) (k := k) (fun i hi => by
        have hki : k + i < 12 := by omega
        have hfi := hf ⟨k + i, by omega⟩
        have hti : t ⟨k + i, by omega⟩ = 30 * ((k + i : Nat) : ℝ) / 365 := by
          simp only [ht]
          rw [Nat.div_eq_of_lt hki, Nat.mod_eq_of_lt hki]
          simp
        rw [hti, ha1] at hfi
        rw [show 2 * Real.pi * (30 * ((k + i : Nat) : ℝ) / 365) =
            2 * Real.pi * 30 / 365 * ((k + i : Nat) : ℝ) by ring,
          show 4 * Real.pi * (30 * ((k + i : Nat) : ℝ) / 365) =
            4 * Real.pi * 30 / 365 * ((k + i : Nat) : ℝ) by ring] at hfi
        simp only at hfi ⊢
        rw [ha1]
        linarith)
    refine (mul_eq_zero.1 this).resolve_left (mul_ne_zero (sub_ne_zero.2 ?_) (sub_ne_zero.2 ?_))
    · exact cos_ne le_rfl hpi.le (by positivity) (by linarith) (by
        have : 0 < 2 * Real.pi * 30 / 365 := by positivity
        exact this.ne)
    · exact cos_ne le_rfl hpi.le (by positivity) (by linarith) (by
        have : 0 < 4 * Real.pi * 30 / 365 := by positivity
        exact this.ne)
  have k0 := key 0 (by norm_num)
  have k1 := key 1 le_rfl
  push_cast at k0 k1
  linarith

/-- C114, refuted: in the 360-day calendar the residual of two years of monthly values that rise
steadily has a linear trend. -/
theorem C114_counterexample : ∃ (x : SeasonArray) (ax : TimeAxis) (n : Nat) (m r : DA (Fl ℝ))
    (a1 a2 : Dict String) (s b : TrendArray ℝ) (e : Env) (y : Fin n → ℝ),
    Spec.HasTime x ax n ∧ Spec.Indexed x ∧ Spec.ValidTimes ax ∧ Spec.WholeHours ax ∧
      Spec.SeriesIs x.da e y ∧ seasonalModel x = .ok ((m, a1), (r, a2)) ∧
      Spec.HasAxis ⟨r, [("time", .cftime ax)], a2⟩ "time" (.cftime ax) n ∧
      calcLinearTrend ⟨r, [("time", .cftime ax)], a2⟩ "time" none = .ok (s, b) ∧
      s.da.get e ≠ .fin 0 := by
  obtain ⟨m, a1, r, a2, hr, hdims, -, hfit⟩ := C57_fit risingA_time
    (fun s hs => (risingAxis_valid s hs).1) risingA_indexed
  obtain ⟨z, hz, -, hrz⟩ := hfit (fun _ => 0) _ (risingA_series _)
  have hax : Spec.HasAxis (K := ℝ) ⟨r, [("time", .cftime risingAxis)], a2⟩ "time"
      (.cftime risingAxis) 24 :=
    ⟨by
      unfold DA.dimNames
      rw [hdims]
      decide, rfl, by
      change ("time", 24) ∈ r.dims
      rw [hdims]
      decide, rfl⟩
  have hoff : Spec.OffOrigin (K := ℝ) (.cftime risingAxis) 24 := by
    by_contra hcon
    unfold Spec.OffOrigin at hcon
    push Not at hcon
    have h0 := hcon 0 (by norm_num)
    have h1 := hcon 1 (by norm_num)
    have p0 := risingAxis_position 0
    have p1 := risingAxis_position 1
    simp only [Fin.val_zero, Fin.val_one] at p0 p1
    rw [h0] at p0
    rw [h1] at p1
    push_cast at p0 p1
    linarith
  obtain ⟨s, b, hs, -, -, hmin⟩ := C51_least_squares hax hoff (u := none) rfl
  refine ⟨risingA, risingAxis, 24, m, r, a1, a2, s, b, fun _ => 0, _, risingA_time, risingA_indexed,
    risingAxis_valid, ?_, risingA_series _, hr, hax, hs, ?_⟩
  · unfold Spec.WholeHours
    decide
  · have hal : ∀ k : Fin 24, Spec.along ⟨r, [("time", .cftime risingAxis)], a2⟩ "time" (fun _ => 0) k =
        .fin (((k : Nat) : ℝ) - z k) := hrz
    obtain ⟨sl, q, hsl, -, hle⟩ := hmin (fun _ => 0)
      (fun k hk => Or.inr ⟨_, hal ⟨k, hk⟩⟩) ⟨0, by norm_num, _, hal 0⟩
    intro hzero
    rw [hsl, mul_one] at hzero
    have hsl0 : sl = 0 := Fl.fin.inj hzero
    subst hsl0
    have o0 := (fit_orthogonal hz (p := fun _ => 0) (a := 0) (b := 0) (fun k => by ring)).1
    obtain ⟨a, ha⟩ := hz.combination
    have oz := orth_comb hz a
    simp only [← ha] at oz
    set v : Fin 24 → ℝ := fun k => ((k : Nat) : ℝ) - z k with hvdef
    have o0' : ∑ k, v k = 0 := o0
    have hS : ∑ k, v k * ((k : Nat) : ℝ) = ∑ k, v k ^ 2 := by
      have e1 : ∀ k : Fin 24, v k * ((k : Nat) : ℝ) = v k ^ 2 + v k * z k := fun k => by
        simp only [hvdef]; ring
      simp only [e1]
      rw [Finset.sum_add_distrib, show ∑ k, v k * z k = 0 from oz, add_zero]
    set S := ∑ k, v k ^ 2 with hSdef
    have hS0 : 0 ≤ S := Finset.sum_nonneg (fun k _ => sq_nonneg _)
    have hN : ∑ k : Fin 24, ((k : Nat) : ℝ) ^ 2 = 4324 := by
      rw [Fin.sum_univ_eq_sum_range (fun k => (k : ℝ) ^ 2)]
      norm_num [Finset.sum_range_succ]
    set P : ℝ := ((Stamp.toUs .day360 ⟨⟨1970, 1, 1⟩, 0⟩ * 1000 : Int) : ℝ) with hP
    have hl := hle (S / 4324 / 2592000000000000) (S / 4324 / 2592000000000000 * P)
    rw [misfit_sum hal, misfit_sum hal] at hl
    have e1 : ∀ k : Fin 24, (v k - (0 * Spec.position (K := ℝ) (.cftime risingAxis) k + q)) ^ 2 =
        v k ^ 2 - 2 * q * v k + q ^ 2 := fun k => by ring
    have e2 : ∀ k : Fin 24, (v k - (S / 4324 / 2592000000000000 *
        Spec.position (K := ℝ) (.cftime risingAxis) k + S / 4324 / 2592000000000000 * P)) ^ 2 =
        v k ^ 2 - 2 * (S / 4324) * (v k * ((k : Nat) : ℝ)) + (S / 4324) ^ 2 * ((k : Nat) : ℝ) ^ 2 :=
      fun k => by rw [risingAxis_position, ← hP]; ring
    have hl' : ∑ k : Fin 24, (v k - (0 * Spec.position (K := ℝ) (.cftime risingAxis) k + q)) ^ 2 ≤
      ∑ k : Fin 24, (v k - (S / 4324 / 2592000000000000 *
        Spec.position (K := ℝ) (.cftime risingAxis) k + S / 4324 / 2592000000000000 * P)) ^ 2 := hl
    simp only [e1, e2] at hl'
    rw [Finset.sum_add_distrib, Finset.sum_sub_distrib, ← Finset.mul_sum, o0',
      Finset.sum_add_distrib, Finset.sum_sub_distrib, ← Finset.mul_sum, ← Finset.mul_sum, hS, hN,
      ← hSdef, Finset.sum_const, Finset.card_univ, Fintype.card_fin, nsmul_eq_mul] at hl'
    have hq2 := sq_nonneg q
    have hSz : S = 0 := by
      push_cast at hl'
      nlinarith
    have hvz : ∀ k, v k = 0 := by
      intro k
      have := (Finset.sum_eq_zero_iff_of_nonneg (fun k _ => sq_nonneg (v k))).1 hSz k
        (Finset.mem_univ k)
      exact pow_eq_zero_iff (two_ne_zero) |>.1 this
    rw [risingAxis_years] at hz
    obtain ⟨a', ha'⟩ := ((isFit_shift_iff 1).1 hz).combination
    refine rising_no_combination a' (fun k => ?_)
    rw [← ha' k]
    have := hvz k
    simp only [hvdef] at this
    linarith

/-! ### Examples -/

theorem seaAxis_positions :
    Spec.position (K := ℝ) (.cftime seaAxis) (0 : Fin 3) ≠ Spec.position (.cftime seaAxis) (1 : Fin 3) := by
  obtain ⟨c, hc⟩ := noleap_position (ax := seaAxis) (n := 3) rfl rfl
    (by unfold Spec.ValidTimes; decide) (by unfold Spec.WholeHours; decide)
  rw [hc 0, hc 1]
  norm_num [Spec.yearsOf, seaAxis, Spec.dayNumber]

/-- C114: the residuals of the two series of three days. -/
example : ∃ m a1 r a2 s b, seasonalModel seaA = .ok ((m, a1), (r, a2)) ∧
    calcLinearTrend ⟨r, [("time", .cftime seaAxis)], a2⟩ "time" (some "yr") = .ok (s, b) ∧
      s.da.get (fun _ => 1) = .fin (0 : ℝ) := by
  obtain ⟨m, a1, r, a2, hr, hdims, -, -⟩ := C57_fit seaA_time seaAxis_valid seaA_indexed
  have hax : Spec.HasAxis (K := ℝ) ⟨r, [("time", .cftime seaAxis)], a2⟩ "time" (.cftime seaAxis) 3 :=
    ⟨by
      unfold DA.dimNames
      rw [hdims]
      decide, rfl, by
      change ("time", 3) ∈ r.dims
      rw [hdims]
      decide, rfl⟩
  obtain ⟨s, b, hs, -⟩ := calc_ok (K := ℝ) hax (u := some "yr") (c := 86400000000000 * 365) rfl
  exact ⟨m, a1, r, a2, s, b, hr, hs, (C114_partial seaA_time seaA_indexed rfl
    (by unfold Spec.ValidTimes; decide) (by unfold Spec.WholeHours; decide) hr hax rfl rfl hs
    (fun _ => 1) (seaA_series 1) seaAxis_positions).1⟩

end Momlevel.Props
