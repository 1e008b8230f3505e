import Verif.Props.DeseasonAttrs
import Mathlib.Tactic.FinCases

/-!
# Decimal times and names in the seasonal model (C60, C61, C70, C72, C73)
-/

set_option linter.unusedSectionVars false

namespace Momlevel.Props
open Momlevel

/-! ### C60: the length of the year -/

/-- C60, refuted: all scalars give the same result. -/
theorem C60_ignored {n : Nat} (ts : Fin n → Fl ℝ) (d d' : ℝ) :
    seasonalCycleModel ts (.scalar d) = seasonalCycleModel ts (.scalar d') := rfl

/-- C60, the part that holds (the full claim, for every scalar, is refuted by `C60_counterexample`):
the fit is at the times `k / d` for `d = 365`. -/
theorem C60_partial {n : Nat} (y : Fin n → ℝ) (d : ℝ) (hd : d = 365) :
    ∃ f, seasonalCycleModel (fun k => .fin (y k)) (.scalar d) = .ok f ∧
      ∃ z : Fin n → ℝ, (∀ k, f.smodel k = .fin (z k)) ∧
        Spec.IsFit (fun k : Fin n => (k : ℝ) / d) y z := by
  obtain ⟨f, hf, c, z, hz, _, _, hm, _⟩ := C57_cycle y
  refine ⟨f, (C60_ignored _ d 365.0).trans hf, z, hm, ?_⟩
  rw [hd]
  exact hz

theorem regressor_sum {n : Nat} (t : Fin n → ℝ) (k : Fin n) (a : Fin 6 → ℝ) :
    ∑ j, a j * Spec.regressor t k j = a 0 + a 1 * (t k - (∑ j, t j) / n) +
      a 2 * Real.sin (2 * Real.pi * t k) + a 3 * Real.cos (2 * Real.pi * t k) +
      a 4 * Real.sin (4 * Real.pi * t k) + a 5 * Real.cos (4 * Real.pi * t k) := by
  rw [Fin.sum_univ_six]
  simp only [Spec.regressor, mul_one]

theorem sum_three (d : ℝ) : (∑ j : Fin 3, ((j : Nat) : ℝ) / d) = 3 / d := by
  rw [Fin.sum_univ_three]
  simp only [Fin.val_zero, Fin.val_one, Fin.val_two]
  push_cast
  ring

/-- C60, refuted: for the series 0, 1, 0 and a year of one day, the model returned is not the
least-squares fit at the times `k / 1`. -/
theorem C60_counterexample :
    ∃ (y : Fin 3 → ℝ) (d : ℝ) (f : SeasonFit 3),
      seasonalCycleModel (fun k => .fin (y k)) (.scalar d) = .ok f ∧
      ∀ z : Fin 3 → ℝ, (∀ k, f.smodel k = .fin (z k)) →
        ¬ Spec.IsFit (fun k : Fin 3 => (k : ℝ) / d) y z := by
  obtain ⟨f, hf, c, z, hz, _, _, hm, _⟩ := C57_cycle (n := 3) ![0, 1, 0]
  refine ⟨![0, 1, 0], 1, f, (C60_ignored _ 1 365.0).trans hf, ?_⟩
  intro z' hz' hfit
  have hzz : z' = z := funext (fun k => by
    have := hz' k
    rw [hm k] at this
    exact (Fl.fin.inj this).symm)
  subst hzz
  -- at 365 days the series is reproduced
  set θ := 2 * Real.pi * (1 / 365 : ℝ) with hθ
  have hpi := Real.pi_pos
  have hs : 0 < Real.sin θ := Real.sin_pos_of_pos_of_lt_pi (by positivity) (by rw [hθ]; linarith)
  have hcos : 1 - Real.cos θ ≠ 0 := by
    intro hh
    have h1 : Real.cos θ = 1 := by linarith
    have := Real.sin_sq_add_cos_sq θ
    rw [h1] at this
    have : Real.sin θ ^ 2 = 0 := by linarith
    exact hs.ne' (pow_eq_zero_iff two_ne_zero |>.1 this)
  have hrep : Spec.IsFit (fun k : Fin 3 => (k : ℝ) / 365) ![0, 1, 0] ![0, 1, 0] := by
    refine ⟨⟨![-(Real.cos θ / (1 - Real.cos θ)), -365 * (Real.cos θ / (1 - Real.cos θ)),
      1 / (Real.sin θ * (1 - Real.cos θ)), 0, 0, 0], fun k => ?_⟩, fun j => by simp⟩
    have hs2 : Real.sin (2 * Real.pi * (2 / 365 : ℝ)) = 2 * Real.sin θ * Real.cos θ := by
      rw [← Real.sin_two_mul]
      congr 1
      rw [hθ]; ring
    have hs' := hs.ne'
    rw [regressor_sum, sum_three]
    fin_cases k
    · simp
      ring
    · simp only [show ((((⟨1, by decide⟩ : Fin 3) : Nat) : ℝ)) = 1 from Nat.cast_one, ← hθ]
      simp
      field_simp
      ring
    · simp only [show ((((⟨2, by decide⟩ : Fin 3) : Nat) : ℝ)) = 2 from rfl, hs2]
      simp
      field_simp
      ring
  have hz01 := fit_unique hz hrep
  subst hz01
  obtain ⟨a, ha⟩ := hfit.combination
  have reg : ∀ k : Fin 3, ∑ j, a j * Spec.regressor (fun k : Fin 3 => (k : ℝ) / 1) k j =
      a 0 + a 1 * (k - 1) + a 3 + a 5 := by
    intro k
    rw [regressor_sum, sum_three]
    have q1 : 2 * Real.pi * (((k : Nat) : ℝ) / 1) = ((k : Nat) : ℝ) * (2 * Real.pi) := by ring
    have q2 : 4 * Real.pi * (((k : Nat) : ℝ) / 1) = ((2 * k : Nat) : ℝ) * (2 * Real.pi) := by
      push_cast; ring
    have s1 : ∀ m : Nat, Real.sin ((m : ℝ) * (2 * Real.pi)) = 0 := fun m => by
      have := Real.sin_nat_mul_pi (m * 2)
      rw [← this]
      congr 1
      push_cast
      ring
    rw [q1, q2, s1, s1, Real.cos_nat_mul_two_pi, Real.cos_nat_mul_two_pi]
    push_cast
    ring
  have h0 := ha 0
  have h1 := ha 1
  have h2 := ha 2
  rw [reg] at h0 h1 h2
  have e0 : (![0, 1, 0] : Fin 3 → ℝ) 0 = 0 := rfl
  have e1 : (![0, 1, 0] : Fin 3 → ℝ) 1 = 1 := rfl
  have e2 : (![0, 1, 0] : Fin 3 → ℝ) 2 = 0 := rfl
  rw [e0] at h0
  rw [e1] at h1
  rw [e2] at h2
  norm_num at h0 h1 h2
  linarith

/-! ### C61: the times of `deseason` -/

/-- C61, the part that holds (the full claim, for all time axes, is refuted by `C61_counterexample`):
the decimal times increase when the years of all dates have the same length. -/
theorem C61_partial {ax : TimeAxis} {n : Nat} (hn : ax.stamps.length = n)
    (hy : (∀ s ∈ ax.stamps, Spec.Leap ax.cal s.date.year) ∨
      ∀ s ∈ ax.stamps, ¬ Spec.Leap ax.cal s.date.year) :
    ∃ t, decimalTime n (.array (yearDays ax)) = .ok t ∧ ∀ i j : Fin n, i < j → t i < t j := by
  refine ⟨_, decimalTime_axis hn, ?_⟩
  obtain ⟨d, hd0, hd⟩ : ∃ d : Nat, 0 < d ∧ ∀ k < n, Spec.daysOf ax k = d := by
    rcases hy with hy | hy
    · refine ⟨366, by norm_num, fun k hk => ?_⟩
      have hk' : k < ax.stamps.length := by omega
      unfold Spec.daysOf
      rw [List.getElem?_eq_getElem hk']
      exact if_pos (hy _ (List.getElem_mem hk'))
    · refine ⟨365, by norm_num, fun k hk => ?_⟩
      have hk' : k < ax.stamps.length := by omega
      unfold Spec.daysOf
      rw [List.getElem?_eq_getElem hk']
      exact if_neg (hy _ (List.getElem_mem hk'))
  intro i j hij
  unfold Spec.sampleYears
  rw [hd i i.2, hd j j.2]
  have : ((i : Nat) : ℝ) < ((j : Nat) : ℝ) := Nat.cast_lt.2 hij
  exact div_lt_div_of_pos_right this (Nat.cast_pos.2 hd0)

/-- C61, refuted: whenever, after more than 366 samples, a sample of a leap year follows one of a
common year, the decimal time goes back. -/
theorem C61_decreases {ax : TimeAxis} {n k : Nat} (hn : ax.stamps.length = n) (hk : k + 1 < n)
    (hlong : 366 < k + 1) {a b : Stamp} (ha : ax.stamps[k]? = some a)
    (hb : ax.stamps[k + 1]? = some b) (hca : ¬ Spec.Leap ax.cal a.date.year)
    (hcb : Spec.Leap ax.cal b.date.year) :
    ∃ t, decimalTime n (.array (yearDays ax)) = .ok t ∧
      t ⟨k + 1, hk⟩ < t ⟨k, Nat.lt_of_succ_lt hk⟩ := by
  refine ⟨_, decimalTime_axis hn, ?_⟩
  unfold Spec.sampleYears Spec.daysOf
  rw [ha, hb]
  simp only [if_neg hca, if_pos hcb]
  have : (366 : ℝ) < ((k + 1 : Nat) : ℝ) := by exact_mod_cast hlong
  push_cast at this ⊢
  rw [div_lt_div_iff₀ (by norm_num) (by norm_num)]
  linarith

theorem daysOf_cases (ax : TimeAxis) (k : Nat) : Spec.daysOf ax k = 365 ∨ Spec.daysOf ax k = 366 := by
  unfold Spec.daysOf
  split
  · exact Or.inl rfl
  · split
    · exact Or.inr rfl
    · exact Or.inl rfl

theorem daysOf_leap {ax : TimeAxis} {k : Nat} {s : Stamp} (h : ax.stamps[k]? = some s) :
    Spec.daysOf ax k = 366 ↔ Spec.Leap ax.cal s.date.year := by
  unfold Spec.daysOf
  rw [h]
  by_cases hl : Spec.Leap ax.cal s.date.year
  · simp [hl]
  · simp [hl]

/-- The exact condition: the decimal times increase if and only if, from sample number 365 (counted from
zero) on, no sample of a common year is followed by one of a leap year. -/
theorem C61_iff {ax : TimeAxis} {n : Nat} (hn : ax.stamps.length = n) :
    ∃ t, decimalTime n (.array (yearDays ax)) = .ok t ∧
      ((∀ i j : Fin n, i < j → t i < t j) ↔
        ∀ (k : Nat) (a b : Stamp), 365 ≤ k → ax.stamps[k]? = some a → ax.stamps[k + 1]? = some b →
          Spec.Leap ax.cal b.date.year → Spec.Leap ax.cal a.date.year) := by
  refine ⟨_, decimalTime_axis hn, ?_⟩
  have step : ∀ k : Nat, ((k : ℝ) / Spec.daysOf ax k < ((k + 1 : Nat) : ℝ) / Spec.daysOf ax (k + 1) ↔
      ¬ (365 ≤ k ∧ Spec.daysOf ax k = 365 ∧ Spec.daysOf ax (k + 1) = 366)) := by
    intro k
    rcases daysOf_cases ax k with h1 | h1 <;> rcases daysOf_cases ax (k + 1) with h2 | h2 <;>
      rw [h1, h2, div_lt_div_iff₀ (by norm_num) (by norm_num)]
    · norm_num
    · have : ((k : ℝ) * ((366 : ℕ) : ℝ) < ((k + 1 : ℕ) : ℝ) * ((365 : ℕ) : ℝ)) ↔ k < 365 := by
        rw [← Nat.cast_mul, ← Nat.cast_mul, Nat.cast_lt]
        omega
      rw [this]
      simp
    · have : (0 : ℝ) ≤ k := Nat.cast_nonneg k
      norm_num
      linarith
    · norm_num
  constructor
  · intro h k a b hk ha hb hlb
    by_contra hla
    have hkn : k + 1 < n := by rw [← hn]; exact (List.getElem?_eq_some_iff.1 hb).1
    have := h ⟨k, by omega⟩ ⟨k + 1, hkn⟩ (Nat.lt_succ_self k)
    refine (step k).1 this ⟨hk, ?_, (daysOf_leap hb).2 hlb⟩
    exact (daysOf_cases ax k).resolve_right (fun h' => hla ((daysOf_leap ha).1 h'))
  · intro h i j hij
    have key : ∀ m k : Nat, k + m + 1 < n →
        (k : ℝ) / Spec.daysOf ax k < ((k + m + 1 : Nat) : ℝ) / Spec.daysOf ax (k + m + 1) := by
      intro m k hk
      have one : ∀ k, k + 1 < n →
          (k : ℝ) / Spec.daysOf ax k < ((k + 1 : Nat) : ℝ) / Spec.daysOf ax (k + 1) := by
        intro k hk
        rw [step]
        rintro ⟨h0, h1, h2⟩
        have ha : ax.stamps[k]? = some (ax.stamps[k]'(by omega)) := List.getElem?_eq_getElem _
        have hb : ax.stamps[k + 1]? = some (ax.stamps[k + 1]'(by omega)) := List.getElem?_eq_getElem _
        have := (daysOf_leap ha).2 (h k _ _ h0 ha hb ((daysOf_leap hb).1 h2))
        omega
      induction m with
      | zero => exact one k hk
      | succ m ih => exact (ih (by omega)).trans (one (k + m + 1) hk)
    obtain ⟨m, hm⟩ := Nat.exists_eq_add_of_lt (show (i : Nat) < j from hij)
    have := key m i (by rw [← hm]; exact j.2)
    show (i : ℝ) / Spec.daysOf ax i < (j : ℝ) / Spec.daysOf ax j
    rw [hm]
    exact this

/-- One day short of the bound: the first sample of a leap year may be number 365. -/
example {ax : TimeAxis} (hn : ax.stamps.length = 366) :
    ∃ t, decimalTime 366 (.array (yearDays ax)) = .ok t ∧ ∀ i j : Fin 366, i < j → t i < t j := by
  obtain ⟨t, h1, h2⟩ := C61_iff hn
  refine ⟨t, h1, h2.2 (fun k a b hk _ hb _ => ?_)⟩
  have := (List.getElem?_eq_some_iff.1 hb).1
  omega

/-- C61, refuted: on the daily axis of the Gregorian calendar that starts with year 2 the decimal
time goes back at 1 January of year 4. -/
theorem C61_counterexample :
    ∃ (ax : TimeAxis) (n : Nat) (t : Fin n → ℝ) (i j : Fin n),
      ax.stamps = dayStarts .prolepticGregorian 2 n ∧ ax.cal = .prolepticGregorian ∧
      decimalTime n (.array (yearDays ax)) = .ok t ∧ i < j ∧ t j < t i := by
  obtain ⟨l, hl⟩ : ∃ l, l = dayStarts .prolepticGregorian 2 731 := ⟨_, rfl⟩
  have hlen : l.length = 731 := by
    rw [hl]; unfold dayStarts; rw [List.length_map, List.length_range]
  have hy : ∀ k < 731, l[k]? =
      some (Stamp.midnight (Date.addDays .prolepticGregorian ⟨2, 1, 1⟩ k)) := by
    intro k hk
    rw [hl]
    unfold dayStarts
    rw [List.getElem?_map, List.getElem?_range hk]
    rfl
  have hv : (Date.mk 2 1 1).Valid .prolepticGregorian := by decide
  have hyear : ∀ k, 365 ≤ k → k < 730 →
      (Date.addDays .prolepticGregorian ⟨2, 1, 1⟩ k).year = 3 := by
    intro k h1 h2
    have ho := Date.ord_addDays hv k
    have hv' := Date.valid_addDays hv k
    have e1 : (Date.mk 2 1 1).ord .prolepticGregorian = 365 := by decide
    have e2 : (Date.mk 3 1 1).ord .prolepticGregorian = 730 := by decide
    have e3 : (Date.mk (3 + 1) 1 1).ord .prolepticGregorian = 1095 := by decide
    exact Date.year_of_ord hv' (by norm_num) (by rw [ho, e1, e2]; omega)
      (by rw [ho, e1, e3]; omega)
  have hyear4 : (Date.addDays .prolepticGregorian ⟨2, 1, 1⟩ 730).year = 4 := by
    have ho := Date.ord_addDays hv 730
    have hv' := Date.valid_addDays hv 730
    have e1 : (Date.mk 2 1 1).ord .prolepticGregorian = 365 := by decide
    have e3 : (Date.mk 4 1 1).ord .prolepticGregorian = 1095 := by decide
    have e4 : (Date.mk (4 + 1) 1 1).ord .prolepticGregorian = 1461 := by decide
    exact Date.year_of_ord hv' (by norm_num) (by rw [ho, e1, e3])
      (by rw [ho, e1, e4]; omega)
  obtain ⟨t, ht, hlt⟩ := C61_decreases
    (ax := ⟨.prolepticGregorian, l⟩) (n := 731) (k := 729)
    hlen (by norm_num) (by norm_num) (hy 729 (by norm_num)) (hy 730 (by norm_num))
    (by
      rw [show (Stamp.midnight (Date.addDays .prolepticGregorian ⟨2, 1, 1⟩ 729)).date.year = 3 from
        hyear 729 (by norm_num) (by norm_num)]
      change ¬ Spec.Leap .prolepticGregorian 3
      decide)
    (by
      rw [show (Stamp.midnight (Date.addDays .prolepticGregorian ⟨2, 1, 1⟩ 730)).date.year = 4 from
        hyear4]
      change Spec.Leap .prolepticGregorian 4
      decide)
  exact ⟨⟨.prolepticGregorian, l⟩, 731, t, ⟨729, by norm_num⟩, ⟨730, by norm_num⟩, hl, rfl, ht,
    Fin.mk_lt_mk.2 (by norm_num), hlt⟩

/-! ### C70, C72: names -/

/-- C70, refuted: with any other `tcoord` than "time" `seasonal_model` fails. -/
theorem C70_fails (x : SeasonArray) {tcoord : String} (h : tcoord ≠ "time") :
    ∃ er, seasonalModel x tcoord = .error er := by
  unfold seasonalModel
  cases timeCoord x tcoord with
  | error er => exact ⟨er, rfl⟩
  | ok ax =>
    have : checkTimeDim tcoord = .error .valueError := if_neg h
    simp only [ok_bind, this, error_bind]
    exact ⟨_, rfl⟩

/-- C70, which error: a KeyError for an unknown name, an AttributeError for a dimension without dates, a ValueError
for dates along a dimension of another name. -/
theorem C70_errors (x : SeasonArray) {tcoord : String} (h : tcoord ≠ "time") :
    seasonalModel x tcoord = .error (if (x.axes.lookup tcoord).isSome then .valueError
      else if tcoord ∈ x.da.dimNames then .attributeError else .keyError) := by
  unfold seasonalModel timeCoord
  cases x.axes.lookup tcoord with
  | none =>
    by_cases hm : tcoord ∈ x.da.dimNames
    · simp [hm, error_bind]
    · simp [hm, error_bind]
  | some ax =>
    have : checkTimeDim tcoord = .error .valueError := if_neg h
    simp [ok_bind, this]

/-- The three cases: dates along "t", a dimension "x" without dates, no dimension "y". -/
example : ∃ x : SeasonArray, seasonalModel x "t" = .error .valueError ∧
    seasonalModel x "x" = .error .attributeError ∧ seasonalModel x "y" = .error .keyError := by
  refine ⟨{ da := ⟨[("t", 1), ("x", 2)], fun _ => .fin 0⟩
            axes := [("t", ⟨.noleap, [⟨⟨2000, 1, 1⟩, 0⟩]⟩)]
            indexOrder := []
            attrs := []
            chunks := none }, ?_, ?_, ?_⟩
  · rw [C70_errors _ (by decide)]; simp [List.lookup]
  · rw [C70_errors _ (by decide)]; simp [List.lookup, DA.dimNames]
  · rw [C70_errors _ (by decide)]; simp [List.lookup, DA.dimNames]

/-- C72: the model and the residuals of `seasonal_model` are labelled after the input: the names get a
suffix or a prefix, with defaults when the input has none, and the units are kept. -/
theorem C72_labels {x : SeasonArray} {tcoord : String} {m r : DA (Fl ℝ)} {am ar : Dict String}
    (h : seasonalModel x tcoord = .ok ((m, am), (r, ar))) :
    (am.lookup "standard_name" = some (match x.attrs.lookup "standard_name" with
        | some s => s ++ "_smodel" | none => "smodel") ∧
      ar.lookup "standard_name" = some (match x.attrs.lookup "standard_name" with
        | some s => s ++ "_sresid" | none => "sresid")) ∧
    (am.lookup "long_name" = some (match x.attrs.lookup "long_name" with
        | some s => "Seasonal model, " ++ s | none => "Seasonal model") ∧
      ar.lookup "long_name" = some (match x.attrs.lookup "long_name" with
        | some s => "Seasonal residuals, " ++ s | none => "Seasonal residuals")) ∧
    am.lookup "units" = some ((x.attrs.lookup "units").getD "") ∧
    ar.lookup "units" = some ((x.attrs.lookup "units").getD "") := by
  unfold seasonalModel at h
  obtain ⟨ax, _, h⟩ := bind_ok.1 h
  obtain ⟨_, _, h⟩ := bind_ok.1 h
  cases h
  unfold seasonLabels
  refine ⟨⟨?_, ?_⟩, ⟨?_, ?_⟩, ?_, ?_⟩
  · cases x.attrs.lookup "standard_name" <;> rfl
  · cases x.attrs.lookup "standard_name" <;> rfl
  · cases x.attrs.lookup "long_name" <;> rfl
  · cases x.attrs.lookup "long_name" <;> rfl
  · cases x.attrs.lookup "units" <;> rfl
  · cases x.attrs.lookup "units" <;> rfl

/-! ### C73: the decimal years of `seasonal_model` -/

/-- Hours since the start of the year, counted in whole hours. -/
def hourOfYear (c : Calendar) (s : Stamp) : Nat := 24 * (dayOfYear c s.date - 1) + s.us / 3600000000

theorem day_pos {c : Calendar} {d : Date} (h : d.Valid c) : 1 ≤ dayOfYear c d := by
  unfold dayOfYear
  have := h.2.2.2.1
  omega

theorem decimalYear_eq {c : Calendar} {s : Stamp} (h : s.date.Valid c) :
    decimalYear c s = s.date.year + (hourOfYear c s : ℝ) / 8760 := by
  unfold decimalYear hourOfYear
  have h1 : 1 ≤ dayOfYear c s.date := day_pos h
  generalize s.us / 3600000000 = u
  obtain ⟨w, hw⟩ := Nat.exists_eq_add_of_le' h1
  rw [hw]
  push_cast [Nat.add_sub_cancel]
  ring

theorem ord_dayOfYear {c : Calendar} {d : Date} (h : d.Valid c) :
    d.ord c + 1 = Date.ySum c (d.year - 1) + dayOfYear c d := by
  have := h.2.2.2.1
  unfold Date.ord dayOfYear Date.ySum
  omega

/-- C73, the part that holds (the full claim, for all calendars, is refuted by `C73_counterexample`):
in years without a leap day, later whole hours get larger decimal years. -/
theorem C73_partial {c : Calendar} {a b : Stamp} (ha : a.date.Valid c) (hb : b.date.Valid c)
    (hau : a.us < 86400000000) (hbu : b.us < 86400000000)
    (hl : ¬ Spec.Leap c a.date.year)
    (h : a.toUs c / 3600000000 < b.toUs c / 3600000000) : decimalYear c a < decimalYear c b := by
  have oa := ord_dayOfYear ha
  have ob := ord_dayOfYear hb
  have ba := (Date.ord_bounds ha).2.2
  have bb := (Date.ord_bounds hb).2.2
  have hy1 : 1 ≤ a.date.year := ha.1
  have hy2 : 1 ≤ b.date.year := hb.1
  have hsucc : Date.ySum c a.date.year = Date.ySum c (a.date.year - 1) + daysInYear c a.date.year := by
    obtain ⟨y, hy⟩ := Nat.exists_eq_add_of_le' hy1
    rw [hy, Date.ySum_succ]
    rfl
  have hlen : daysInYear c a.date.year ≤ 365 := by
    rw [daysInYear_eq]
    unfold Spec.yearLength
    rw [if_neg hl]
    split <;> norm_num
  rw [decimalYear_eq ha, decimalYear_eq hb]
  have hhours : ∀ s : Stamp, s.toUs c / 3600000000 =
      ((24 * s.date.ord c + s.us / 3600000000 : Nat) : Int) := by
    intro s
    unfold Stamp.toUs usPerDay
    generalize s.date.ord c = o
    generalize s.us = u
    omega
  rw [hhours a, hhours b, Nat.cast_lt] at h
  have hN : hourOfYear c a < 8760 := by
    unfold hourOfYear
    omega
  have hcase : a.date.year < b.date.year ∨
      (a.date.year = b.date.year ∧ hourOfYear c a < hourOfYear c b) := by
    rcases Nat.lt_trichotomy a.date.year b.date.year with hc | hc | hc
    · exact Or.inl hc
    · refine Or.inr ⟨hc, ?_⟩
      have p1 := day_pos ha
      have p2 := day_pos hb
      unfold hourOfYear
      rw [hc] at oa
      omega
    · exfalso
      have := Date.ySum_mono c (show b.date.year ≤ a.date.year - 1 by omega)
      have := (Date.ord_bounds ha).1
      omega
  rcases hcase with hc | ⟨hc, hh⟩
  · have h1 : ((a.date.year : ℝ)) + 1 ≤ (b.date.year : ℝ) := by exact_mod_cast hc
    have h2 : (hourOfYear c a : ℝ) / 8760 < 1 := by
      rw [div_lt_one (by norm_num)]
      exact_mod_cast hN
    have h3 : (0 : ℝ) ≤ (hourOfYear c b : ℝ) / 8760 := by positivity
    linarith
  · rw [hc]
    have : (hourOfYear c a : ℝ) < hourOfYear c b := Nat.cast_lt.2 hh
    have := div_lt_div_of_pos_right this (by norm_num : (0 : ℝ) < 8760)
    linarith

/-- C73, refuted: in every calendar with leap days, midnight of 31 December of a leap year and midnight
of the next day get the same decimal year, and from noon of 31 December to the next midnight it goes
back. -/
theorem C73_counterexample {c : Calendar} {y : Nat} (hc : c ≠ .day360) (hy : 1 ≤ y)
    (hl : Spec.Leap c y) :
    decimalYear c ⟨⟨y, 12, 31⟩, 0⟩ = decimalYear c ⟨⟨y + 1, 1, 1⟩, 0⟩ ∧
      decimalYear c ⟨⟨y + 1, 1, 1⟩, 0⟩ < decimalYear c ⟨⟨y, 12, 31⟩, 43200000000⟩ ∧
      Stamp.toUs c ⟨⟨y, 12, 31⟩, 43200000000⟩ < Stamp.toUs c ⟨⟨y + 1, 1, 1⟩, 0⟩ := by
  have hlb := (isLeap_iff c y).2 hl
  have hd : dayOfYear c ⟨y, 12, 31⟩ = 366 := by
    unfold dayOfYear daysInMonth
    cases c <;> simp_all [List.range_succ]
  have hd1 : dayOfYear c ⟨y + 1, 1, 1⟩ = 1 := rfl
  have v1 : (Date.mk y 12 31).Valid c := by
    refine ⟨hy, by norm_num, by norm_num, by norm_num, ?_⟩
    unfold daysInMonth
    cases c <;> simp_all
  have v2 : (Date.mk (y + 1) 1 1).Valid c := Date.valid_first c (by omega) (by norm_num) (by norm_num)
  have hord : (Date.mk (y + 1) 1 1).ord c = (Date.mk y 12 31).ord c + 1 := by
    have : (Date.mk y 12 31).next c = ⟨y + 1, 1, 1⟩ := by
      unfold Date.next daysInMonth
      cases c <;> simp_all
    rw [← this]
    exact Date.ord_next v1
  refine ⟨?_, ?_, ?_⟩
  · unfold decimalYear
    simp only [hd, hd1]
    push_cast
    norm_num
  · unfold decimalYear
    simp only [hd, hd1]
    push_cast
    norm_num
  · unfold Stamp.toUs usPerDay
    simp only [hord]
    generalize (Date.mk y 12 31).ord c = o
    omega

/-- The exact condition: of two times in different whole hours the later one gets the larger decimal
year unless the earlier one is on 31 December of a leap year and the later one on the next day at the
same hour of the day or before. -/
theorem C73_iff {c : Calendar} {a b : Stamp} (ha : a.date.Valid c) (hb : b.date.Valid c)
    (hau : a.us < 86400000000) (hbu : b.us < 86400000000)
    (h : a.toUs c / 3600000000 < b.toUs c / 3600000000) :
    decimalYear c a < decimalYear c b ↔
      ¬ (Spec.Leap c a.date.year ∧ a.date.month = 12 ∧ a.date.day = 31 ∧
        b.date = ⟨a.date.year + 1, 1, 1⟩ ∧ b.us / 3600000000 ≤ a.us / 3600000000) := by
  by_cases hl : Spec.Leap c a.date.year
  swap
  · exact ⟨fun _ hc => hl hc.1, fun _ => C73_partial ha hb hau hbu hl h⟩
  have hlb := (isLeap_iff c a.date.year).2 hl
  have hlast : dayOfYear c ⟨a.date.year, 12, 31⟩ = 366 := by
    unfold dayOfYear daysInMonth
    cases c <;> simp_all [List.range_succ, Spec.Leap]
  have vlast : (Date.mk a.date.year 12 31).Valid c := by
    refine ⟨ha.1, by norm_num, by norm_num, by norm_num, ?_⟩
    unfold daysInMonth
    cases c <;> simp_all [Spec.Leap]
  have vfirst : (Date.mk (a.date.year + 1) 1 1).Valid c :=
    Date.valid_first c (by omega) (by norm_num) (by norm_num)
  have hfirst : dayOfYear c ⟨a.date.year + 1, 1, 1⟩ = 1 := rfl
  have oa := ord_dayOfYear ha
  have ob := ord_dayOfYear hb
  have ol := ord_dayOfYear vlast
  have of := ord_dayOfYear vfirst
  have ba := (Date.ord_bounds ha).2.2
  have bb := (Date.ord_bounds hb).2.2
  have hy1 : 1 ≤ a.date.year := ha.1
  have hy2 : 1 ≤ b.date.year := hb.1
  have p1 := day_pos ha
  have p2 := day_pos hb
  have hsucc : Date.ySum c a.date.year = Date.ySum c (a.date.year - 1) + daysInYear c a.date.year := by
    obtain ⟨y, hy⟩ := Nat.exists_eq_add_of_le' hy1
    rw [hy, Date.ySum_succ]
    rfl
  have hlen : daysInYear c a.date.year ≤ 366 := by
    rw [daysInYear_eq]
    unfold Spec.yearLength
    split
    · norm_num
    · norm_num
  have hhours : ∀ s : Stamp, s.toUs c / 3600000000 =
      ((24 * s.date.ord c + s.us / 3600000000 : Nat) : Int) := by
    intro s
    unfold Stamp.toUs usPerDay
    generalize s.date.ord c = o
    generalize s.us = u
    omega
  rw [hhours a, hhours b, Nat.cast_lt] at h
  have hua : a.us / 3600000000 < 24 := by omega
  have hub : b.us / 3600000000 < 24 := by omega
  have hord : (a.date.month = 12 ∧ a.date.day = 31) ↔ dayOfYear c a.date = 366 := by
    constructor
    · rintro ⟨h1, h2⟩
      have : a.date = ⟨a.date.year, 12, 31⟩ := by
        rcases hd : a.date with ⟨y, m, d⟩
        rw [hd] at h1 h2
        simp only at h1 h2
        rw [h1, h2]
      rw [this]
      exact hlast
    · intro h1
      have : a.date = ⟨a.date.year, 12, 31⟩ := by
        apply Date.ord_injective ha vlast
        simp only at ol
        omega
      exact ⟨by rw [this], by rw [this]⟩
  have hbd : b.date = ⟨a.date.year + 1, 1, 1⟩ ↔ b.date.year = a.date.year + 1 ∧ dayOfYear c b.date = 1 := by
    constructor
    · intro h1
      rw [h1]
      exact ⟨rfl, hfirst⟩
    · rintro ⟨h1, h2⟩
      apply Date.ord_injective hb vfirst
      simp only at of
      rw [h1] at ob
      omega
  have hlt : decimalYear c a < decimalYear c b ↔
      8760 * a.date.year + hourOfYear c a < 8760 * b.date.year + hourOfYear c b := by
    rw [decimalYear_eq ha, decimalYear_eq hb, ← Nat.cast_lt (α := ℝ)]
    push_cast
    constructor <;> intro h1 <;> linarith
  rw [hlt, ← and_assoc (a := a.date.month = 12), hord, hbd]
  have hle : b.date.year < a.date.year → False := by
    intro hc
    have := Date.ySum_mono c (show b.date.year ≤ a.date.year - 1 by omega)
    have := (Date.ord_bounds ha).1
    omega
  have hsame : b.date.year = a.date.year →
      a.date.ord c - dayOfYear c a.date = b.date.ord c - dayOfYear c b.date ∧
      b.date.ord c + 1 = Date.ySum c (a.date.year - 1) + dayOfYear c b.date := by
    intro hc
    rw [hc] at ob
    omega
  have hDa : dayOfYear c a.date ≤ 366 := by omega
  unfold hourOfYear
  constructor
  · rintro h1 ⟨-, h2, ⟨h3, h4⟩, h5⟩
    rw [h2, h3, h4] at h1
    omega
  · intro h1
    rcases Nat.lt_trichotomy b.date.year a.date.year with hc | hc | hc
    · exact (hle hc).elim
    · have := hsame hc
      rw [hc]
      omega
    · by_cases h2 : dayOfYear c a.date = 366
      · by_cases h3 : b.date.year = a.date.year + 1 ∧ dayOfYear c b.date = 1
        · have : ¬ b.us / 3600000000 ≤ a.us / 3600000000 := fun h4 => h1 ⟨hl, h2, h3, h4⟩
          omega
        · omega
      · omega

/-- From noon on 31 December 2000 to one in the afternoon of 1 January the decimal year grows. -/
example : decimalYear .prolepticGregorian ⟨⟨2000, 12, 31⟩, 43200000000⟩ <
    decimalYear .prolepticGregorian ⟨⟨2001, 1, 1⟩, 46800000000⟩ := by
  have v1 : (Date.mk 2000 12 31).Valid .prolepticGregorian := by decide
  have v2 : (Date.mk 2001 1 1).Valid .prolepticGregorian := by decide
  refine (C73_iff v1 v2 (by norm_num) (by norm_num) ?_).2 (by norm_num)
  have hord : (Date.mk 2001 1 1).ord .prolepticGregorian
      = (Date.mk 2000 12 31).ord .prolepticGregorian + 1 := by
    have : (Date.mk 2000 12 31).next .prolepticGregorian = ⟨2001, 1, 1⟩ := by decide
    rw [← this]
    exact Date.ord_next v1
  unfold Stamp.toUs usPerDay
  simp only [hord]
  generalize (Date.mk 2000 12 31).ord .prolepticGregorian = o
  omega

/-- C60_ignored and C60_partial: 360 days give what 365 days give. -/
example : ∃ f, seasonalCycleModel (fun k : Fin 4 => .fin ((k : Nat) : ℝ)) (.scalar 360) = .ok f ∧
    ∃ z : Fin 4 → ℝ, (∀ k, f.smodel k = .fin (z k)) ∧
      Spec.IsFit (fun k : Fin 4 => ((k : Nat) : ℝ) / 365) (fun k => ((k : Nat) : ℝ)) z := by
  rw [C60_ignored _ 360 365]
  exact C60_partial _ 365 rfl

end Momlevel.Props
