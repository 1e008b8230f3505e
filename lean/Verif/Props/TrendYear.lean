import Verif.Props.TrendCases
import Verif.Props.SeasonTimes

/-!
# Trends per year in calendars of different year lengths (C115)
-/

set_option linter.unusedSectionVars false

namespace Momlevel.Props
open Momlevel

variable {K : Type} [Field K] [LinearOrder K] [IsStrictOrderedRing K]

/-- The position of a date on its axis. -/
theorem position_stamp {ax : TimeAxis} {k : Nat} {s : Stamp} (h : ax.stamps[k]? = some s) :
    Spec.position (K := K) (.cftime ax) k =
      (((s.toUs ax.cal - Stamp.toUs ax.cal ⟨⟨1970, 1, 1⟩, 0⟩) * 1000 : Int) : K) := by
  unfold Spec.position
  simp only
  rw [List.getD_eq_getElem?_getD, List.getElem?_map, h]
  rfl

/-- The days from a date to the same date of the next year. -/
theorem year_later {c : Calendar} {s s' : Stamp} (h : s.date.Valid c)
    (hd : s'.date = ⟨s.date.year + 1, s.date.month, s.date.day⟩) (hu : s'.us = s.us)
    (hl : Spec.Leap c (s.date.year + 1) ↔ Spec.Leap c s.date.year) :
    s'.toUs c - s.toUs c = Spec.yearLength c s.date.year * 86400000000 := by
  have hord : s'.date.ord c = s.date.ord c + Spec.yearLength c s.date.year := by
    have hy : 1 ≤ s.date.year := h.1
    have hm : ∀ m, daysInMonth c (s.date.year + 1) m = daysInMonth c s.date.year m := by
      intro m
      have : isLeap c (s.date.year + 1) = isLeap c s.date.year := by
        rw [Bool.eq_iff_iff, isLeap_iff, isLeap_iff]
        exact hl
      unfold daysInMonth
      cases c <;> simp only [this]
    rw [hd]
    unfold Date.ord
    simp only [hm]
    rw [← daysInYear_eq, Nat.add_sub_cancel]
    have : ((List.range s.date.year).map (fun y => daysInYear c (y + 1))).sum =
        ((List.range (s.date.year - 1)).map (fun y => daysInYear c (y + 1))).sum +
          daysInYear c s.date.year := by
      obtain ⟨y, hy'⟩ := Nat.exists_eq_add_of_le' hy
      rw [hy', Nat.add_sub_cancel, List.range_succ, List.map_append, List.sum_append]
      simp
    omega
  unfold Stamp.toUs usPerDay
  rw [hord, hu]
  push_cast
  ring

/-- The trend in units of "yr" of a series that is linear in time, from two of its values: the change
between them times 365 days over the time between them. -/
theorem C115_value {x s b : TrendArray K} {dim : String} {ax : TimeAxis} {n : Nat}
    (h : Spec.HasAxis x dim (.cftime ax) n) (hs : calcLinearTrend x dim (some "yr") = .ok (s, b))
    {e : Env} {m q : K} (hlin : ∀ k < n, Spec.along x dim e k =
      .fin (m * Spec.position (.cftime ax) k + q))
    {i j : Nat} (hi : i < n) (hj : j < n) {si sj : Stamp} (hsi : ax.stamps[i]? = some si)
    (hsj : ax.stamps[j]? = some sj) {days : Nat} (hdays : days ≠ 0)
    (hgap : sj.toUs ax.cal - si.toUs ax.cal = days * 86400000000) {vi vj : K}
    (hvi : Spec.along x dim e i = .fin vi) (hvj : Spec.along x dim e j = .fin vj) :
    s.da.get e = .fin ((vj - vi) * 365 / days) := by
  have hd0 : (days : K) ≠ 0 := Nat.cast_ne_zero.2 hdays
  have hpos : Spec.position (K := K) (.cftime ax) j - Spec.position (.cftime ax) i =
      days * 86400000000000 := by
    rw [position_stamp hsj, position_stamp hsi, ← Int.cast_sub]
    rw [show (sj.toUs ax.cal - Stamp.toUs ax.cal ⟨⟨1970, 1, 1⟩, 0⟩) * 1000 -
      (si.toUs ax.cal - Stamp.toUs ax.cal ⟨⟨1970, 1, 1⟩, 0⟩) * 1000 =
        (days : Int) * 86400000000000 by linarith]
    push_cast
    ring
  have hne : Spec.position (K := K) (.cftime ax) i ≠ Spec.position (.cftime ax) j := by
    intro hc
    rw [hc, sub_self] at hpos
    exact (mul_ne_zero hd0 (by norm_num)) hpos.symm
  have key := (C51_exact h (u := some "yr") (c := 86400000000000 * 365) rfl hs
    (fun k hk => Or.inr (hlin k hk)) hi hj (by rw [hvi]; simp) (by rw [hvj]; simp) hne).1
  rw [key]
  have e1 : vi = m * Spec.position (.cftime ax) i + q :=
    Fl.fin.inj (hvi.symm.trans (hlin i hi))
  have e2 : vj = m * Spec.position (.cftime ax) j + q :=
    Fl.fin.inj (hvj.symm.trans (hlin j hj))
  congr 1
  rw [eq_div_iff hd0, e1, e2]
  linear_combination -(m * 365) * hpos

/-- The exact condition for C115: of a series linear in time with different values at the two dates,
the trend per "yr" is the change from a date to the same date of the next year exactly when that year
has 365 days. -/
theorem C115_iff {x s b : TrendArray K} {dim : String} {ax : TimeAxis} {n : Nat}
    (h : Spec.HasAxis x dim (.cftime ax) n) (hs : calcLinearTrend x dim (some "yr") = .ok (s, b))
    {e : Env} {m q : K} (hlin : ∀ k < n, Spec.along x dim e k =
      .fin (m * Spec.position (.cftime ax) k + q))
    {i j : Nat} (hi : i < n) (hj : j < n) {si sj : Stamp} (hsi : ax.stamps[i]? = some si)
    (hsj : ax.stamps[j]? = some sj) (hv : si.date.Valid ax.cal)
    (hd : sj.date = ⟨si.date.year + 1, si.date.month, si.date.day⟩) (hu : sj.us = si.us)
    (hl : Spec.Leap ax.cal (si.date.year + 1) ↔ Spec.Leap ax.cal si.date.year) {vi vj : K}
    (hvi : Spec.along x dim e i = .fin vi) (hvj : Spec.along x dim e j = .fin vj) (hne : vi ≠ vj) :
    s.da.get e = .fin (vj - vi) ↔ Spec.yearLength ax.cal si.date.year = 365 := by
  have hy : Spec.yearLength ax.cal si.date.year ≠ 0 := by
    unfold Spec.yearLength
    split
    · norm_num
    · split <;> norm_num
  rw [C115_value h hs hlin hi hj hsi hsj hy (year_later hv hd hu hl) hvi hvj]
  have h0 : (Spec.yearLength ax.cal si.date.year : K) ≠ 0 := Nat.cast_ne_zero.2 hy
  have hdiff : vj - vi ≠ 0 := sub_ne_zero.2 hne.symm
  constructor
  · intro h1
    have h2 : (vj - vi) * 365 / (Spec.yearLength ax.cal si.date.year : K) = vj - vi := Fl.fin.inj h1
    rw [div_eq_iff h0] at h2
    have h3 := mul_left_cancel₀ hdiff h2
    have h4 : ((365 : Nat) : K) = (Spec.yearLength ax.cal si.date.year : K) := by
      rw [← h3]; norm_num
    exact (Nat.cast_injective h4).symm
  · intro h1
    rw [h1]
    congr 1
    push_cast
    exact mul_div_cancel_right₀ _ (by norm_num)

/-- C115, the part that holds (the full claim, for all calendars, is refuted by
`C115_counterexample`): in the calendar without leap years the trend per "yr" of a series linear in
time is its change from any date to the same date of the next year. -/
theorem C115_partial {x s b : TrendArray K} {dim : String} {ax : TimeAxis} {n : Nat}
    (hcal : ax.cal = .noleap)
    (h : Spec.HasAxis x dim (.cftime ax) n) (hs : calcLinearTrend x dim (some "yr") = .ok (s, b))
    {e : Env} {m q : K} (hlin : ∀ k < n, Spec.along x dim e k =
      .fin (m * Spec.position (.cftime ax) k + q))
    {i j : Nat} (hi : i < n) (hj : j < n) {si sj : Stamp} (hsi : ax.stamps[i]? = some si)
    (hsj : ax.stamps[j]? = some sj) (hv : si.date.Valid ax.cal)
    (hd : sj.date = ⟨si.date.year + 1, si.date.month, si.date.day⟩) (hu : sj.us = si.us) {vi vj : K}
    (hvi : Spec.along x dim e i = .fin vi) (hvj : Spec.along x dim e j = .fin vj) :
    s.da.get e = .fin (vj - vi) := by
  have hy : Spec.yearLength ax.cal si.date.year = 365 := by
    rw [hcal]
    rfl
  rw [C115_value h hs hlin hi hj hsi hsj (by rw [hy]; norm_num) (year_later hv hd hu
    (by rw [hcal]; exact Iff.rfl)) hvi hvj, hy]
  congr 1
  push_cast
  exact mul_div_cancel_right₀ _ (by norm_num)

/-- Three successive first days of the year in a calendar, with values rising by one from year to
year. -/
def yearsAxis (c : Calendar) : TimeAxis :=
  ⟨c, [⟨⟨1, 1, 1⟩, 0⟩, ⟨⟨2, 1, 1⟩, 0⟩, ⟨⟨3, 1, 1⟩, 0⟩]⟩

def yearsT (c : Calendar) : TrendArray ℚ :=
  ⟨⟨[("time", 3)], fun e => .fin (e "time" : ℚ)⟩, [("time", .cftime (yearsAxis c))], []⟩

theorem yearsT_axis (c : Calendar) : Spec.HasAxis (yearsT c) "time" (.cftime (yearsAxis c)) 3 :=
  ⟨by simp [yearsT, DA.dimNames], rfl, by simp [yearsT], rfl⟩

theorem yearsT_along (c : Calendar) (e : Env) (k : Nat) :
    Spec.along (yearsT c) "time" e k = .fin (k : ℚ) := by
  unfold Spec.along yearsT
  simp only [Function.update_self]

/-- The series is linear in time in calendars with years of one length. -/
theorem yearsT_linear {c : Calendar} {L : Nat} (hL : L ≠ 0)
    (h : ∀ k < 3, ((yearsAxis c).stamps.map (fun s => s.toUs c)).getD k 0 =
      ((L * 86400000000 * k : Nat) : Int)) (e : Env) :
    ∀ k < 3, Spec.along (yearsT c) "time" e k =
      .fin (1 / (L * 86400000000000) * Spec.position (.cftime (yearsAxis c)) k +
        ((Stamp.toUs c ⟨⟨1970, 1, 1⟩, 0⟩ : Int) : ℚ) * 1000 / (L * 86400000000000)) := by
  intro k hk
  rw [yearsT_along]
  have hL0 : (L : ℚ) ≠ 0 := Nat.cast_ne_zero.2 hL
  have hk' : k < (yearsAxis c).stamps.length := hk
  have h1 := h k hk
  rw [List.getD_eq_getElem?_getD, List.getElem?_map, List.getElem?_eq_getElem hk'] at h1
  rw [position_stamp (List.getElem?_eq_getElem hk')]
  have h2 : (yearsAxis c).stamps[k].toUs c = ((L * 86400000000 * k : Nat) : Int) := h1
  rw [show (yearsAxis c).cal = c from rfl, h2]
  congr 1
  push_cast
  field_simp
  ring

/-- C115, refuted: in the 360-day calendar a series that rises by one from every first day of the year
to the next, linearly in time, has a trend of 73/72 per "yr". -/
theorem C115_counterexample : ∃ (x s b : TrendArray ℚ) (ax : TimeAxis) (e : Env) (m q : ℚ),
    Spec.HasAxis x "time" (.cftime ax) 3 ∧ calcLinearTrend x "time" (some "yr") = .ok (s, b) ∧
      (∀ k < 3, Spec.along x "time" e k = .fin (m * Spec.position (.cftime ax) k + q)) ∧
      ax.stamps = [⟨⟨1, 1, 1⟩, 0⟩, ⟨⟨2, 1, 1⟩, 0⟩, ⟨⟨3, 1, 1⟩, 0⟩] ∧
      (∀ k < 3, Spec.along x "time" e k = .fin (k : ℚ)) ∧ s.da.get e = .fin (73 / 72) := by
  obtain ⟨s, b, hs, -⟩ := calc_ok (yearsT_axis .day360) (u := some "yr") (c := 86400000000000 * 365) rfl
  have hlin := yearsT_linear (c := .day360) (L := 360) (by norm_num) (by decide) (fun _ => 0)
  refine ⟨yearsT .day360, s, b, yearsAxis .day360, fun _ => 0, _, _, yearsT_axis _, hs, hlin, rfl,
    fun k _ => yearsT_along _ _ k, ?_⟩
  rw [C115_value (yearsT_axis .day360) hs hlin (i := 0) (j := 1) (by norm_num) (by norm_num) rfl rfl
    (days := 360) (by norm_num) (by decide) (yearsT_along _ _ 0) (yearsT_along _ _ 1)]
  norm_num

/-- C115: a rise of one per year in the calendar without leap years. -/
example {s b : TrendArray ℚ}
    (hs : calcLinearTrend (yearsT .noleap) "time" (some "yr") = .ok (s, b)) :
    s.da.get (fun _ => 0) = .fin (((1 : Nat) : ℚ) - ((0 : Nat) : ℚ)) :=
  C115_partial rfl (yearsT_axis .noleap) hs
    (yearsT_linear (c := .noleap) (L := 365) (by norm_num) (by decide) (fun _ => 0))
    (i := 0) (j := 1) (by norm_num) (by norm_num) rfl rfl (by decide) rfl rfl
    (yearsT_along _ _ 0) (yearsT_along _ _ 1)

/-- C115: the condition in the calendar of leap years only. -/
example {s b : TrendArray ℚ}
    (hs : calcLinearTrend (yearsT .allLeap) "time" (some "yr") = .ok (s, b)) :
    s.da.get (fun _ => 0) ≠ .fin (((1 : Nat) : ℚ) - ((0 : Nat) : ℚ)) := by
  rw [Ne, C115_iff (yearsT_axis .allLeap) hs
    (yearsT_linear (c := .allLeap) (L := 366) (by norm_num) (by decide) (fun _ => 0))
    (i := 0) (j := 1) (by norm_num) (by norm_num) rfl rfl (by decide) rfl rfl Iff.rfl
    (yearsT_along _ _ 0) (yearsT_along _ _ 1) (by norm_num)]
  decide

end Momlevel.Props
