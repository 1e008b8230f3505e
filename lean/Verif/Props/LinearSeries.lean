import Verif.Props.DailyAnnual
import Verif.Props.TrendYear
import Verif.Props.CycleStats
import Verif.Props.TimeStub

/-! # C135: averages in time of a series that is linear in time -/

set_option linter.unusedSectionVars false

namespace Momlevel.Props
open Momlevel Momlevel.Fl Momlevel.Spec

/-! ### Centres of months and years -/

/-- The days before month `m + 1` of a year. -/
def daysBefore (c : Calendar) (y m : Nat) : Nat := ∑ k ∈ Finset.range m, monthLength c y (k + 1)

theorem dayOfYear_before (c : Calendar) (d : Date) :
    Spec.dayOfYear c d = daysBefore c d.year (d.month - 1) + d.day := by
  unfold Spec.dayOfYear daysBefore
  rw [Fl.sum_map_range]

/-- The months of a year, each weighted with its length, balance in the middle of the year. -/
theorem months_balance (c : Calendar) (y n : Nat) :
    ∑ m ∈ Finset.range n, monthLength c y (m + 1) * (2 * daysBefore c y m + monthLength c y (m + 1))
      = daysBefore c y n * daysBefore c y n := by
  induction n with
  | zero => simp [daysBefore]
  | succ n ih =>
    have h : daysBefore c y (n + 1) = daysBefore c y n + monthLength c y (n + 1) := by
      unfold daysBefore
      rw [Finset.sum_range_succ]
    rw [Finset.sum_range_succ, ih, h]
    ring

theorem daysBefore_year (c : Calendar) (y : Nat) : daysBefore c y 12 = yearLength c y := sum_monthLength c y

theorem toUs_before {c : Calendar} {s : Stamp} (h : s.date.Valid c) :
    2 * s.toUs c = ((2 * (daysBeforeYear c s.date.year + daysBefore c s.date.year (s.date.month - 1)) * 86400000000
      + 2 * ((s.date.day - 1) * 86400000000 + s.us) : Nat) : Int) := by
  have h1 : 1 ≤ s.date.day := h.2.2.2.1
  rw [toUs_elapsed h, elapsed, dayOfYear_before, Nat.add_sub_assoc h1]
  push_cast
  ring

theorem toUs_midMonth {c : Calendar} {y m : Nat} {s : Stamp} (h : IsMidMonth c y m s) :
    2 * s.toUs c = ((2 * daysBeforeYear c y + (2 * daysBefore c y (m - 1) + monthLength c y m)) * 86400000000 : Nat) := by
  obtain ⟨hv, rfl, rfl, -, h⟩ := h
  rw [toUs_before hv, h]
  push_cast
  ring

theorem toUs_midYear {c : Calendar} {y : Nat} {s : Stamp} (h : IsMidYear c y s) :
    2 * s.toUs c = ((2 * daysBeforeYear c y + yearLength c y) * 86400000000 : Nat) := by
  obtain ⟨hv, rfl, -, h⟩ := h
  have h1 : 1 ≤ s.date.day := hv.2.2.2.1
  rw [toUs_before hv]
  rw [dayOfYear_before, Nat.add_sub_assoc h1] at h
  have h' : 2 * daysBefore c s.date.year (s.date.month - 1) * 86400000000
      + 2 * ((s.date.day - 1) * 86400000000 + s.us) = yearLength c s.date.year * 86400000000 := by
    rw [← h]; ring
  have h'' : ((2 * daysBefore c s.date.year (s.date.month - 1) * 86400000000
      + 2 * ((s.date.day - 1) * 86400000000 + s.us) : Nat) : Int) = ((yearLength c s.date.year * 86400000000 : Nat) : Int) := by
    exact_mod_cast h'
  push_cast at h'' ⊢
  linarith

/-- A middle of a month is determined by its year and month. -/
theorem midMonth_unique {c : Calendar} {y m : Nat} {s s' : Stamp} (h : IsMidMonth c y m s)
    (h' : IsMidMonth c y m s') : s = s' := by
  obtain ⟨v, hy, hm, hu, h⟩ := h
  obtain ⟨v', hy', hm', hu', h'⟩ := h'
  have h1 : 1 ≤ s.date.day := v.2.2.2.1
  have h1' : 1 ≤ s'.date.day := v'.2.2.2.1
  have hd : s.date.day = s'.date.day := by omega
  have hus : s.us = s'.us := by omega
  cases s with
  | mk d u =>
    cases s' with
    | mk d' u' =>
      cases d
      cases d'
      simp_all

/-- One sample in the middle of each month: every month of a year with twelve samples has exactly one. -/
theorem one_per_month {ax : TimeAxis} (g : GoodAxis ax) (hnd : ax.stamps.Nodup)
    (hmid : ∀ s ∈ ax.stamps, IsMidMonth ax.cal s.date.year s.date.month s) {y : Nat}
    (h12 : (inYear ax.stamps y).card = 12) {m : Nat} (hm : m < 12) :
    (inYearMonth ax.stamps y (m + 1)).card = 1 := by
  have hle : ∀ m, (inYearMonth ax.stamps y m).card ≤ 1 := by
    intro m
    rw [Finset.card_le_one]
    intro i hi j hj
    obtain ⟨li, yi, mi⟩ := mem_inYearMonth.1 hi
    obtain ⟨lj, yj, mj⟩ := mem_inYearMonth.1 hj
    have a := hmid _ (List.getElem_mem li)
    have b := hmid _ (List.getElem_mem lj)
    rw [yi, mi] at a
    rw [yj, mj] at b
    exact (hnd.getElem_inj_iff).1 (midMonth_unique a b)
  have hsum : ∑ k ∈ Finset.range 12, (inYearMonth ax.stamps y (k + 1)).card = 12 := by
    have := sum_inYear g y (fun _ => 1)
    simp only [Finset.sum_const, smul_eq_mul, mul_one] at this
    rw [← this, h12]
  by_contra hne
  have hlt : (inYearMonth ax.stamps y (m + 1)).card < 1 := lt_of_le_of_ne (hle _) hne
  have : ∑ k ∈ Finset.range 12, (inYearMonth ax.stamps y (k + 1)).card < ∑ _k ∈ Finset.range 12, 1 :=
    Finset.sum_lt_sum (fun k _ => hle _) ⟨m, Finset.mem_range.2 hm, hlt⟩
  simp only [Finset.sum_const, Finset.card_range, smul_eq_mul, mul_one] at this
  omega

/-- The centre of the samples of a year, weighted with the lengths of the months, is the middle of the year. -/
theorem year_centre {ax : TimeAxis} (g : GoodAxis ax) (hnd : ax.stamps.Nodup)
    (hmid : ∀ s ∈ ax.stamps, IsMidMonth ax.cal s.date.year s.date.month s) {y : Nat}
    (h12 : (inYear ax.stamps y).card = 12) {s : Stamp} (hs : IsMidYear ax.cal y s) :
    ∑ i ∈ inYear ax.stamps y, (monthDays ax.cal ax.stamps i : Int)
        * (2 * (ax.stamps.getD i midMonths.default).toUs ax.cal)
      = yearLength ax.cal y * (2 * s.toUs ax.cal) ∧
    ∑ i ∈ inYear ax.stamps y, monthDays ax.cal ax.stamps i = yearLength ax.cal y := by
  have hd : ∀ m < 12, ∀ i ∈ inYearMonth ax.stamps y (m + 1), monthDays ax.cal ax.stamps i = monthLength ax.cal y (m + 1) ∧
      2 * (ax.stamps.getD i midMonths.default).toUs ax.cal = ((2 * daysBeforeYear ax.cal y
        + (2 * daysBefore ax.cal y m + monthLength ax.cal y (m + 1))) * 86400000000 : Nat) := by
    intro m hm i hi
    obtain ⟨li, yi, mi⟩ := mem_inYearMonth.1 hi
    have a := hmid _ (List.getElem_mem li)
    rw [yi, mi] at a
    constructor
    · simp [monthDays, List.getElem?_eq_getElem li, yi, mi]
    · rw [List.getD_eq_getElem?_getD, List.getElem?_eq_getElem li, Option.getD_some, toUs_midMonth a]
      simp
  have hc := fun m (hm : m < 12) => one_per_month g hnd hmid h12 hm
  constructor
  · rw [sum_inYear g, toUs_midYear hs]
    have : ∀ m ∈ Finset.range 12, ∑ i ∈ inYearMonth ax.stamps y (m + 1), (monthDays ax.cal ax.stamps i : Int)
        * (2 * (ax.stamps.getD i midMonths.default).toUs ax.cal)
        = ((monthLength ax.cal y (m + 1) * (2 * daysBeforeYear ax.cal y) * 86400000000
          + monthLength ax.cal y (m + 1) * (2 * daysBefore ax.cal y m + monthLength ax.cal y (m + 1)) * 86400000000 : Nat) : Int) := by
      intro m hm
      have hm := Finset.mem_range.1 hm
      rw [Finset.sum_congr rfl (fun i hi => by rw [(hd m hm i hi).1, (hd m hm i hi).2]), Finset.sum_const, hc m hm,
        one_smul]
      push_cast
      ring
    rw [Finset.sum_congr rfl this, ← Nat.cast_sum, Finset.sum_add_distrib, ← Finset.sum_mul, ← Finset.sum_mul,
      ← Finset.sum_mul, months_balance, sum_monthLength, daysBefore_year]
    push_cast
    ring
  · rw [sum_inYear g, ← sum_monthLength]
    refine Finset.sum_congr rfl (fun m hm => ?_)
    have hm := Finset.mem_range.1 hm
    rw [Finset.sum_congr rfl (fun i hi => (hd m hm i hi).1), Finset.sum_const, hc m hm, one_smul]

/-- The centre of the days of a month, sampled at the time of day `u`, is as far from the middle of the month as `u`
from noon. -/
theorem month_centre {ax : TimeAxis} (g : CompleteDaily ax) {u : Nat} (hu : ∀ s ∈ ax.stamps, s.us = u) {s0 : Stamp}
    (h0 : s0 ∈ ax.stamps) {m : Nat} (h1 : 1 ≤ m) (h2 : m ≤ 12) {s : Stamp} (hs : IsMidMonth ax.cal s0.date.year m s) :
    ∑ i ∈ inYearMonth ax.stamps s0.date.year m, 2 * (ax.stamps.getD i midMonths.default).toUs ax.cal
      = monthLength ax.cal s0.date.year m * (2 * s.toUs ax.cal + (2 * u - 86400000000)) := by
  have hsum : ∑ i ∈ inYearMonth ax.stamps s0.date.year m, 2 * (ax.stamps.getD i midMonths.default).toUs ax.cal
      = ∑ k ∈ Finset.range (daysInMonth ax.cal s0.date.year m),
        ((2 * (daysBeforeYear ax.cal s0.date.year + daysBefore ax.cal s0.date.year (m - 1)) * 86400000000
          + 2 * (k * 86400000000 + u) : Nat) : Int) := by
    refine Finset.sum_bij (fun i _ => (ax.stamps.getD i midMonths.default).date.day - 1) ?_ ?_ ?_ ?_
    · intro i hi
      obtain ⟨hl, hy, hm⟩ := mem_inYearMonth.1 hi
      obtain ⟨-, -, -, v4, v5⟩ := g.valid _ (List.getElem_mem hl)
      rw [hy, hm] at v5
      simp only [List.getD_eq_getElem?_getD, List.getElem?_eq_getElem hl, Option.getD_some, Finset.mem_range]
      omega
    · intro i hi j hj he
      obtain ⟨hl, hy, hm⟩ := mem_inYearMonth.1 hi
      obtain ⟨hl', hy', hm'⟩ := mem_inYearMonth.1 hj
      have hv := (g.valid _ (List.getElem_mem hl)).2.2.2.1
      have hv' := (g.valid _ (List.getElem_mem hl')).2.2.2.1
      simp only [List.getD_eq_getElem?_getD, List.getElem?_eq_getElem hl,
        List.getElem?_eq_getElem hl', Option.getD_some] at he
      have hd : ax.stamps[i].date = ax.stamps[j].date := by
        have : ax.stamps[i].date.day = ax.stamps[j].date.day := by omega
        calc ax.stamps[i].date = ⟨ax.stamps[i].date.year, ax.stamps[i].date.month, ax.stamps[i].date.day⟩ := rfl
          _ = ax.stamps[j].date := by rw [hy, hm, this, ← hy', ← hm']
      have hi' : i < (ax.stamps.map (fun s => s.date)).length := by simpa using hl
      have hj' : j < (ax.stamps.map (fun s => s.date)).length := by simpa using hl'
      exact (g.once.getElem_inj_iff (hi := hi') (hj := hj')).1 (by simpa using hd)
    · intro k hk
      rw [Finset.mem_range] at hk
      obtain ⟨s', hs', hd⟩ := g.all s0 h0 ⟨s0.date.year, m, k + 1⟩
        ⟨(g.valid s0 h0).1, h1, h2, by simp, hk⟩ rfl
      obtain ⟨i, hi, rfl⟩ := List.getElem_of_mem hs'
      refine ⟨i, mem_inYearMonth.2 ⟨hi, by rw [hd], by rw [hd]⟩, ?_⟩
      simp [List.getD_eq_getElem?_getD, List.getElem?_eq_getElem hi, hd]
    · intro i hi
      obtain ⟨hl, hy, hm⟩ := mem_inYearMonth.1 hi
      simp only [List.getD_eq_getElem?_getD, List.getElem?_eq_getElem hl, Option.getD_some]
      rw [toUs_before (g.valid _ (List.getElem_mem hl)), hy, hm, hu _ (List.getElem_mem hl)]
  have tri : ∀ n : Nat, ∀ a b : Int, ∑ k ∈ Finset.range n, (a + 2 * (k * 86400000000 + b))
      = n * (a + n * 86400000000 + 2 * b - 86400000000) := by
    intro n a b
    induction n with
    | zero => simp
    | succ n ih =>
      rw [Finset.sum_range_succ, ih]
      push_cast
      ring
  rw [hsum, toUs_midMonth hs, daysInMonth_eq _ _ h1 h2]
  push_cast
  have := tri (monthLength ax.cal s0.date.year m)
    (2 * ((daysBeforeYear ax.cal s0.date.year : Int) + daysBefore ax.cal s0.date.year (m - 1)) * 86400000000) u
  rw [this]
  ring

/-! ### The claims -/

variable {K : Type} [Field K] [LinearOrder K] [IsStrictOrderedRing K]

/-- At the point `e` the samples of `x` lie on the line with slope `m` (per nanosecond) and value `q` at the start of
1970: every sample is the value of that line at the time stamped on it. -/
def OnLine (x : Timed (DA (Fl K))) (tc : String) (e : Env) (m q : K) : Prop :=
  ∃ ax, x.axes.lookup tc = some ax ∧ ∀ i < ax.stamps.length,
    x.obj.get (Function.update e tc i) = fin (m * position (.cftime ax) i + q)

/-- The position in terms of the stamp. -/
theorem position_getD {ax : TimeAxis} {i : Nat} (hi : i < ax.stamps.length) :
    position (K := K) (.cftime ax) i =
      (((ax.stamps.getD i midMonths.default).toUs ax.cal : Int) - (Stamp.toUs ax.cal ⟨⟨1970, 1, 1⟩, 0⟩ : Int) : K) * 1000 := by
  rw [position_stamp (List.getElem?_eq_getElem hi), List.getD_eq_getElem?_getD, List.getElem?_eq_getElem hi,
    Option.getD_some]
  push_cast
  ring

/-- The weighted mean of samples on a line is the line at their centre. -/
theorem weightedMean_line {S : Finset Nat} {w : Nat → Nat} {v : Nat → Fl K} {r : Fl K} {m q c : K} {p : Nat → K}
    (hr : IsWeightedMean S w v r) (hv : ∀ i ∈ S, v i = fin (m * p i + q)) (hw : (∑ i ∈ S, (w i : K)) ≠ 0)
    (hc : ∑ i ∈ S, (w i : K) * p i = (∑ i ∈ S, (w i : K)) * c) : r = fin (m * c + q) := by
  have hp : present S v = S := Finset.filter_true_of_mem (fun i hi => by rw [hv i hi]; simp)
  have hS : S.Nonempty := by
    rw [Finset.nonempty_iff_ne_empty]
    rintro rfl
    simp at hw
  rcases hr with ⟨hn, -⟩ | ⟨-, a, rfl, h⟩
  · obtain ⟨i, hi⟩ := hS
    have := hn i hi
    rw [hv i hi] at this
    cases this
  · rw [hp] at h
    congr 1
    refine mul_right_cancel₀ hw ?_
    rw [h, Finset.sum_congr rfl (fun i hi => by rw [hv i hi, val0_fin])]
    have : ∀ i, (w i : K) * (m * p i + q) = m * ((w i : K) * p i) + q * w i := fun i => by ring
    rw [Finset.sum_congr rfl (fun i _ => this i), Finset.sum_add_distrib, ← Finset.mul_sum, ← Finset.mul_sum, hc]
    ring

/-- The mean of samples on a line is the line at their centre. -/
theorem mean_line {S : Finset Nat} {v : Nat → Fl K} {r : Fl K} {m q c : K} {p : Nat → K}
    (hr : IsMean S v r) (hv : ∀ i ∈ S, v i = fin (m * p i + q)) (hS : S.Nonempty)
    (hc : ∑ i ∈ S, p i = S.card * c) : r = fin (m * c + q) := by
  refine weightedMean_line (w := fun _ => 1) (p := p) ?_ hv ?_ ?_
  · rcases hr with h | ⟨h, a, h1, h2⟩
    · exact Or.inl h
    · refine Or.inr ⟨h, a, h1, ?_⟩
      simpa using h2
  · simpa using hS.card_pos.ne'
  · simpa using hc

theorem yearLength_ne (c : Calendar) (y : Nat) : yearLength c y ≠ 0 := by
  unfold yearLength
  split_ifs <;> norm_num

theorem monthLength_ne (c : Calendar) (y : Nat) {m : Nat} (h1 : 1 ≤ m) (h2 : m ≤ 12) : monthLength c y m ≠ 0 := by
  rw [← daysInMonth_eq _ _ h1 h2]
  unfold daysInMonth
  split
  · norm_num
  · split_ifs <;> norm_num

/-- Annual averages of monthly samples, stamped at the middle of the months, of a linear series lie on the same line:
the value of each year is that of the line at the time stamped on it. -/
theorem C135_annual {x r : Timed (DA (Fl K))} {ax : TimeAxis} (hx : x.axes.lookup "time" = some ax) (g : GoodAxis ax)
    (hnd : ax.stamps.Nodup) (hmid : ∀ s ∈ ax.stamps, IsMidMonth ax.cal s.date.year s.date.month s)
    (hF : ∀ e, FN (x.obj.get e)) (hr : annualAverage x "time" = .ok r) {e : Env} {m q : K}
    (hl : OnLine x "time" e m q) : OnLine r "time" e m q := by
  obtain ⟨ax', hx', hl⟩ := hl
  rw [hx] at hx'
  cases Option.some.inj hx'
  have h12 : ∀ s ∈ ax.stamps, (inYear ax.stamps s.date.year).card = 12 := by
    by_contra hcon
    have := (C38_twelve (x := x) hx g.nonempty).2 hcon
    rw [hr] at this
    cases this
  obtain ⟨ys, -, hys, -, ⟨t, ht, hcal, hlen, hmy⟩, hv⟩ := C38_value hx g hF hr
  refine ⟨t, by rw [ht]; rfl, fun k hk => ?_⟩
  have hk' : k < ys.length := hlen ▸ hk
  have hyk : ys[k]? = some ys[k] := List.getElem?_eq_getElem hk'
  have hm := hmy k _ _ hyk (List.getElem?_eq_getElem hk)
  have hmean := hv (Function.update e "time" k) ys[k] (by rw [Function.update_self]; exact hyk)
  obtain ⟨s, hs, hsy⟩ := (hys ys[k]).1 (List.getElem_mem _)
  have hcard : (inYear ax.stamps ys[k]).card = 12 := hsy ▸ h12 s hs
  obtain ⟨hc1, hc2⟩ := year_centre g hnd hmid hcard hm
  have hlen0 : ∀ i ∈ inYear ax.stamps ys[k], i < ax.stamps.length := fun i hi => (mem_inYear.1 hi).1
  have hY : (∑ i ∈ inYear ax.stamps ys[k], (monthDays ax.cal ax.stamps i : K)) = (yearLength ax.cal ys[k] : K) := by
    rw [← Nat.cast_sum, hc2]
  refine weightedMean_line (p := fun i => position (.cftime ax) i) hmean (fun i hi => ?_) ?_ ?_
  · simp only [Function.update_idem]
    exact hl i (hlen0 i hi)
  · rw [hY]
    exact_mod_cast yearLength_ne _ _
  · have hc1' : (∑ i ∈ inYear ax.stamps ys[k], (monthDays ax.cal ax.stamps i : K)
        * (2 * ((ax.stamps.getD i midMonths.default).toUs ax.cal : Int) : K))
        = yearLength ax.cal ys[k] * (2 * ((t.stamps[k].toUs ax.cal : Int) : K)) := by
      exact_mod_cast congrArg (Int.cast : Int → K) hc1
    have ht' : position (K := K) (.cftime t) k = (((t.stamps[k]).toUs ax.cal : Int) -
        (Stamp.toUs ax.cal ⟨⟨1970, 1, 1⟩, 0⟩ : Int) : K) * 1000 := by
      rw [position_stamp (List.getElem?_eq_getElem hk), hcal]
      push_cast
      ring
    have h1 : ∀ i ∈ inYear ax.stamps ys[k], (monthDays ax.cal ax.stamps i : K) * position (.cftime ax) i
        = 500 * ((monthDays ax.cal ax.stamps i : K) * (2 * ((ax.stamps.getD i midMonths.default).toUs ax.cal : Int) : K))
          - 1000 * (Stamp.toUs ax.cal ⟨⟨1970, 1, 1⟩, 0⟩ : Int) * monthDays ax.cal ax.stamps i := fun i hi => by
      rw [position_getD (hlen0 i hi)]; ring
    rw [ht', Finset.sum_congr rfl h1, Finset.sum_sub_distrib, ← Finset.mul_sum, ← Finset.mul_sum, hc1', hY]
    ring

/-- Monthly averages of complete daily samples of a linear series, all stamped at the same time of day `u`
(microseconds after midnight), lie on the line that belongs to a clock set back by the distance of `u` from noon. -/
theorem C135_monthly {x r : Timed (DA (Fl K))} {tc : String} {ax : TimeAxis} (hx : x.axes.lookup tc = some ax)
    (g : CompleteDaily ax) {u : Nat} (hu : ∀ s ∈ ax.stamps, s.us = u) (hF : ∀ e, FN (x.obj.get e))
    (hr : monthlyAverage x tc = .ok r) {e : Env} {m q : K} (hl : OnLine x tc e m q) :
    OnLine r tc e m (q + m * (((u : K) - 43200000000) * 1000)) := by
  obtain ⟨ax', hx', hl⟩ := hl
  rw [hx] at hx'
  cases Option.some.inj hx'
  obtain ⟨ys, -, hys, -, ⟨t, ht, hcal, hlen, hmm⟩, hv⟩ := C41_value hx g.toGoodAxis hF hr
  refine ⟨t, by rw [ht]; simp [List.lookup], fun k hk => ?_⟩
  have hk' : k / 12 < ys.length := by
    have : k < 12 * ys.length := hlen ▸ hk
    omega
  have hyk : ys[k / 12]? = some ys[k / 12] := List.getElem?_eq_getElem hk'
  have hm := hmm k _ _ hyk (List.getElem?_eq_getElem hk)
  have hmean := hv (Function.update e tc k) ys[k / 12] (by rw [Function.update_self]; exact hyk)
  simp only [Function.update_self] at hmean
  obtain ⟨s, hs, hsy⟩ := (hys ys[k / 12]).1 (List.getElem_mem _)
  have h1 : 1 ≤ k % 12 + 1 := by omega
  have h2 : k % 12 + 1 ≤ 12 := by omega
  rw [← hsy] at hm hmean
  have hc := month_centre g hu hs h1 h2 hm
  have hcard := card_inYearMonth g hs h1 h2
  have hlen0 : ∀ i ∈ inYearMonth ax.stamps s.date.year (k % 12 + 1), i < ax.stamps.length :=
    fun i hi => (mem_inYearMonth.1 hi).1
  have ht' : position (K := K) (.cftime t) k = (((t.stamps[k]).toUs ax.cal : Int) -
      (Stamp.toUs ax.cal ⟨⟨1970, 1, 1⟩, 0⟩ : Int) : K) * 1000 := by
    rw [position_stamp (List.getElem?_eq_getElem hk), hcal]
    push_cast
    ring
  have := mean_line (c := position (.cftime t) k + ((u : K) - 43200000000) * 1000) (m := m) (q := q)
    (p := fun i => position (.cftime ax) i) hmean (fun i hi => ?_) ?_ ?_
  · rw [this]
    congr 1
    ring
  · simp only [Function.update_idem]
    exact hl i (hlen0 i hi)
  · rw [← Finset.card_pos, hcard]
    exact Nat.pos_of_ne_zero (monthLength_ne _ _ h1 h2)
  · have hc' : (∑ i ∈ inYearMonth ax.stamps s.date.year (k % 12 + 1),
        (2 * ((ax.stamps.getD i midMonths.default).toUs ax.cal : Int) : K))
        = monthLength ax.cal s.date.year (k % 12 + 1) * (2 * ((t.stamps[k].toUs ax.cal : Int) : K)
          + (2 * u - 86400000000)) := by
      exact_mod_cast congrArg (Int.cast : Int → K) hc
    have h3 : ∀ i ∈ inYearMonth ax.stamps s.date.year (k % 12 + 1), position (K := K) (.cftime ax) i
        = 500 * (2 * ((ax.stamps.getD i midMonths.default).toUs ax.cal : Int) : K)
          - 1000 * (Stamp.toUs ax.cal ⟨⟨1970, 1, 1⟩, 0⟩ : Int) := fun i hi => by
      rw [position_getD (hlen0 i hi)]; ring
    rw [ht', Finset.sum_congr rfl h3, Finset.sum_sub_distrib, ← Finset.mul_sum, hc', Finset.sum_const, hcard, nsmul_eq_mul]
    ring

/-- Daily samples at noon: the monthly averages lie on the line of the data. -/
theorem C135_noon {x r : Timed (DA (Fl K))} {tc : String} {ax : TimeAxis} (hx : x.axes.lookup tc = some ax)
    (g : CompleteDaily ax) (hu : ∀ s ∈ ax.stamps, s.us = 43200000000) (hF : ∀ e, FN (x.obj.get e))
    (hr : monthlyAverage x tc = .ok r) {e : Env} {m q : K} (hl : OnLine x tc e m q) : OnLine r tc e m q := by
  have h := C135_monthly hx g hu hF hr hl
  have e0 : q + m * ((((43200000000 : Nat) : K) - 43200000000) * 1000) = q := by
    push_cast
    ring
  rwa [e0] at h

/-- Daily samples of a series with a slope, at any other time of day: no monthly average lies on the line of the
data.  At midnight, where `generate_daily_timeaxis` puts them, they lag half a day behind. -/
theorem C135_not_noon {x r : Timed (DA (Fl K))} {tc : String} {ax : TimeAxis} (hx : x.axes.lookup tc = some ax)
    (g : CompleteDaily ax) {u : Nat} (hu : ∀ s ∈ ax.stamps, s.us = u) (hF : ∀ e, FN (x.obj.get e))
    (hr : monthlyAverage x tc = .ok r) {e : Env} {m q : K} (hl : OnLine x tc e m q) (hm : m ≠ 0)
    (hnoon : u ≠ 43200000000) {t : TimeAxis} (ht : r.axes.lookup tc = some t) {k : Nat} (hk : k < t.stamps.length) :
    r.obj.get (Function.update e tc k) ≠ fin (m * position (.cftime t) k + q) := by
  obtain ⟨t', ht', h⟩ := C135_monthly hx g hu hF hr hl
  rw [ht] at ht'
  cases Option.some.inj ht'
  rw [h k hk]
  intro h'
  have h1 : m * (((u : K) - 43200000000) * 1000) = 0 := by
    have := Fl.fin.inj h'
    linarith
  have h2 : (u : K) - 43200000000 = 0 := by
    rcases mul_eq_zero.1 h1 with h | h
    · exact absurd h hm
    · rcases mul_eq_zero.1 h with h | h
      · exact h
      · norm_num at h
  exact hnoon (by exact_mod_cast sub_eq_zero.1 h2)

/-- The trend of a linear series is its slope, the intercept its value at the start of 1970. -/
theorem trend_of_line {x : Timed (DA (Fl K))} {tc : String} {ax : TimeAxis} (hx : x.axes.lookup tc = some ax)
    {e : Env} {m q : K} (hl : OnLine x tc e m q) {attrs : List (String × String)} {s b : TrendArray K}
    {units : Option String} {c : K} (hd : x.obj.dimNames.Nodup) (hdim : (tc, ax.stamps.length) ∈ x.obj.dims)
    (hc : unitScale (.cftime ax : DimIndex K) units = some c)
    (hs : calcLinearTrend ⟨x.obj, [(tc, .cftime ax)], attrs⟩ tc units = .ok (s, b))
    {i j : Nat} {si sj : Stamp} (hi : ax.stamps[i]? = some si) (hj : ax.stamps[j]? = some sj)
    (hne : si.toUs ax.cal ≠ sj.toUs ax.cal) : s.da.get e = fin (m * c) ∧ b.da.get e = fin q := by
  obtain ⟨ax', hx', hl⟩ := hl
  rw [hx] at hx'
  cases Option.some.inj hx'
  have hi' : i < ax.stamps.length := (List.getElem?_eq_some_iff.1 hi).1
  have hj' : j < ax.stamps.length := (List.getElem?_eq_some_iff.1 hj).1
  have hal : ∀ k < ax.stamps.length, Spec.along (K := K) ⟨x.obj, [(tc, .cftime ax)], attrs⟩ tc e k =
      fin (m * position (.cftime ax) k + q) := fun k hk => hl k hk
  refine C51_exact (ix := .cftime ax) (n := ax.stamps.length) ⟨hd, by simp [List.lookup], hdim, rfl⟩ hc hs
    (fun k hk => Or.inr (hal k hk)) hi' hj' (by rw [hal i hi']; simp) (by rw [hal j hj']; simp) ?_
  rw [position_stamp hi, position_stamp hj]
  intro h
  have h := Int.cast_injective (α := K) h
  omega

/-- Different days are different times. -/
theorem toUs_ne {c : Calendar} {s s' : Stamp} (h : s.date.Valid c) (h' : s'.date.Valid c) (hu : s.us < 86400000000)
    (hu' : s'.us < 86400000000) (hne : s.date ≠ s'.date) : s.toUs c ≠ s'.toUs c := by
  rw [toUs_elapsed h, toUs_elapsed h', elapsed_eq h, elapsed_eq h']
  intro he
  have he : s.date.ord c * 86400000000 + s.us = s'.date.ord c * 86400000000 + s'.us := by exact_mod_cast he
  exact hne (Date.ord_injective h h' (by omega))

/-- The trend of the annual averages of monthly samples of a linear series in two or more years is the trend of
the samples. -/
theorem C135_trend_annual {x r : Timed (DA (Fl K))} {ax t : TimeAxis} (hx : x.axes.lookup "time" = some ax)
    (g : GoodAxis ax) (hnd : ax.stamps.Nodup) (hmid : ∀ s ∈ ax.stamps, IsMidMonth ax.cal s.date.year s.date.month s)
    (hF : ∀ e, FN (x.obj.get e)) (hdims : x.obj.dimNames.Nodup) (hr : annualAverage x "time" = .ok r)
    (ht : r.axes.lookup "time" = some t) {s1 s2 : Stamp} (h1 : s1 ∈ ax.stamps) (h2 : s2 ∈ ax.stamps)
    (hy : s1.date.year ≠ s2.date.year) {e : Env} {m q : K} (hl : OnLine x "time" e m q)
    {attrs attrs' : List (String × String)} {units : Option String} {s b s' b' : TrendArray K} {c : K}
    (hc : unitScale (.cftime ax : DimIndex K) units = some c)
    (hdim : ("time", ax.stamps.length) ∈ x.obj.dims)
    (hs : calcLinearTrend ⟨x.obj, [("time", .cftime ax)], attrs⟩ "time" units = .ok (s, b))
    (hs' : calcLinearTrend ⟨r.obj, [("time", .cftime t)], attrs'⟩ "time" units = .ok (s', b')) :
    (s.da.get e = fin (m * c) ∧ b.da.get e = fin q) ∧ s'.da.get e = fin (m * c) ∧ b'.da.get e = fin q := by
  have hl' := C135_annual hx g hnd hmid hF hr hl
  obtain ⟨ys, -, hys, hrd, ⟨t', ht', hcal, hlen, hmy⟩, -⟩ := C38_value hx g hF hr
  have htt : t' = t := by
    rw [ht'] at ht
    simpa [List.lookup] using ht
  subst htt
  constructor
  · obtain ⟨i, hi⟩ := List.getElem?_of_mem h1
    obtain ⟨j, hj⟩ := List.getElem?_of_mem h2
    refine trend_of_line hx hl hdims hdim hc hs hi hj ?_
    exact toUs_ne (g.valid _ h1) (g.valid _ h2) (hmid _ h1).2.2.2.1 (hmid _ h2).2.2.2.1 (fun h => hy (by rw [h]))
  · obtain ⟨i, hi⟩ := List.getElem?_of_mem ((hys _).2 ⟨s1, h1, rfl⟩)
    obtain ⟨j, hj⟩ := List.getElem?_of_mem ((hys _).2 ⟨s2, h2, rfl⟩)
    have hi' : i < t'.stamps.length := hlen ▸ (List.getElem?_eq_some_iff.1 hi).1
    have hj' : j < t'.stamps.length := hlen ▸ (List.getElem?_eq_some_iff.1 hj).1
    have m1 := hmy i _ _ hi (List.getElem?_eq_getElem hi')
    have m2 := hmy j _ _ hj (List.getElem?_eq_getElem hj')
    have hdims' : r.obj.dimNames.Nodup := by
      unfold DA.dimNames
      rw [hrd]
      simp only [List.map_cons, List.nodup_cons]
      refine ⟨by simp [List.mem_map], ?_⟩
      exact (List.Sublist.map _ List.filter_sublist).nodup hdims
    refine trend_of_line ht hl' hdims' (by rw [hrd, hlen]; simp) (by cases units <;> exact hc) hs'
      (List.getElem?_eq_getElem hi') (List.getElem?_eq_getElem hj') ?_
    rw [hcal]
    exact toUs_ne m1.1 m2.1 m1.2.2.1 m2.2.2.1 (fun h => hy (by rw [← m1.2.1, ← m2.2.1, h]))

/-- The trend of the monthly averages of complete daily samples of a linear series is the trend of the samples; the
intercept is that of the samples only at noon. -/
theorem C135_trend_monthly {x r : Timed (DA (Fl K))} {tc : String} {ax t : TimeAxis}
    (hx : x.axes.lookup tc = some ax) (g : CompleteDaily ax) {u : Nat} (hu : ∀ s ∈ ax.stamps, s.us = u)
    (hF : ∀ e, FN (x.obj.get e)) (hdims : x.obj.dimNames.Nodup) (hr : monthlyAverage x tc = .ok r)
    (ht : r.axes.lookup tc = some t) {e : Env} {m q : K} (hl : OnLine x tc e m q)
    {attrs : List (String × String)} {units : Option String} {s b : TrendArray K} {c : K}
    (hc : unitScale (.cftime ax : DimIndex K) units = some c)
    (hs : calcLinearTrend ⟨r.obj, [(tc, .cftime t)], attrs⟩ tc units = .ok (s, b)) :
    s.da.get e = fin (m * c) ∧ b.da.get e = fin (q + m * (((u : K) - 43200000000) * 1000)) := by
  have hl' := C135_monthly hx g hu hF hr hl
  obtain ⟨ys, -, hys, hrd, ⟨t', ht', hcal, hlen, hmm⟩, -⟩ := C41_value hx g.toGoodAxis hF hr
  have htt : t' = t := by
    rw [ht'] at ht
    simpa [List.lookup] using ht
  subst htt
  obtain ⟨s0, h0⟩ := List.exists_mem_of_ne_nil _ g.nonempty
  have hne : ys ≠ [] := List.ne_nil_of_mem ((hys _).2 ⟨s0, h0, rfl⟩)
  have hpos : 0 < ys.length := List.length_pos_iff.2 hne
  have hy0 : ys[0]? = some ys[0] := List.getElem?_eq_getElem hpos
  have hi' : 0 < t'.stamps.length := by omega
  have hj' : 1 < t'.stamps.length := by omega
  have m1 := hmm 0 ys[0] _ hy0 (List.getElem?_eq_getElem hi')
  have m2 := hmm 1 ys[0] _ hy0 (List.getElem?_eq_getElem hj')
  have hdims' : r.obj.dimNames.Nodup := by
    unfold DA.dimNames
    rw [hrd]
    simp only [List.map_cons, List.nodup_cons]
    refine ⟨by simp [List.mem_map], ?_⟩
    exact (List.Sublist.map _ List.filter_sublist).nodup hdims
  refine trend_of_line ht hl' hdims' (by rw [hrd, hlen]; simp) (by cases units <;> exact hc) hs
    (List.getElem?_eq_getElem hi') (List.getElem?_eq_getElem hj') ?_
  rw [hcal]
  refine toUs_ne m1.1 m2.1 m1.2.2.2.1 m2.2.2.2.1 (fun h => ?_)
  have := m1.2.2.1
  rw [h, m2.2.2.1] at this
  omega

/-! ### Worked examples -/

/-- Two years of mid-month stamps of the 360-day calendar. -/
def lineAx : TimeAxis := ⟨.day360, (List.range 24).map (fun k => ⟨⟨2001 + k / 12, k % 12 + 1, 16⟩, 0⟩)⟩

/-- The line `2 t + 3`, sampled at them. -/
def lineT : Timed (DA (Fl ℚ)) where
  obj := ⟨[("time", 24)], fun e => fin (2 * position (.cftime lineAx) (e "time") + 3)⟩
  axes := [("time", lineAx)]

theorem lineAx_good : GoodAxis lineAx := by
  refine ⟨by simp [lineAx, List.range_succ], fun s hs => ?_⟩
  obtain ⟨k, hk, rfl⟩ := List.mem_map.1 hs
  refine ⟨?_, ?_, ?_, ?_, ?_⟩ <;> simp [lineAx, daysInMonth] <;> omega

theorem lineAx_mid : ∀ s ∈ lineAx.stamps, IsMidMonth lineAx.cal s.date.year s.date.month s := by
  intro s hs
  refine ⟨lineAx_good.valid s hs, rfl, rfl, ?_⟩
  obtain ⟨k, hk, rfl⟩ := List.mem_map.1 hs
  have h30 : monthLength lineAx.cal (2001 + k / 12) (k % 12 + 1) = 30 := by simp [lineAx, monthLength]
  show 0 < 86400000000 ∧ 2 * ((16 - 1) * 86400000000 + 0) = monthLength _ _ _ * 86400000000
  rw [h30]
  norm_num

theorem lineAx_nodup : lineAx.stamps.Nodup := by
  refine List.Nodup.map_on (fun a _ b _ h => ?_) List.nodup_range
  simp only [Stamp.mk.injEq, Date.mk.injEq] at h
  omega

theorem lineT_on (e : Env) : OnLine lineT "time" e 2 3 :=
  ⟨lineAx, by simp [lineT], fun i _ => by simp [lineT]⟩

theorem lineT_ok : ∃ r, annualAverage lineT "time" = .ok r := by
  refine (C38_twelve (x := lineT) (ax := lineAx) (by simp [lineT]) lineAx_good.nonempty).1 ?_
  decide

/-- Two annual averages of the line `2 t + 3`, both on that line. -/
example : ∃ r, annualAverage lineT "time" = .ok r ∧ ∀ e, OnLine r "time" e 2 3 := by
  obtain ⟨r, hr⟩ := lineT_ok
  exact ⟨r, hr, fun e => C135_annual (ax := lineAx) (by simp [lineT]) lineAx_good lineAx_nodup lineAx_mid
    (fun _ => by simp [lineT]) hr (lineT_on e)⟩

/-- Their trend is that of the line: per year of 365 days, twice the nanoseconds of such a year. -/
example : ∃ r t s' b', annualAverage lineT "time" = .ok r ∧ r.axes.lookup "time" = some t ∧
    calcLinearTrend ⟨r.obj, [("time", .cftime t)], []⟩ "time" (some "yr") = .ok (s', b') ∧
      ∀ e, s'.da.get e = fin (2 * 31536000000000000) ∧ b'.da.get e = fin 3 := by
  obtain ⟨r, hr⟩ := lineT_ok
  have hx : lineT.axes.lookup "time" = some lineAx := by simp [lineT]
  have hF : ∀ e, FN (lineT.obj.get e) := fun _ => by simp [lineT]
  obtain ⟨ys, -, -, hrd, ⟨t, ht, -, hlen, -⟩, -⟩ := C38_value hx lineAx_good hF hr
  have ht' : r.axes.lookup "time" = some t := by rw [ht]; simp
  have hc : unitScale (.cftime lineAx : DimIndex ℚ) (some "yr") = some 31536000000000000 := by
    norm_num [unitScale, nsPer, nsIn]
    simp
  have hA : HasAxis (K := ℚ) ⟨lineT.obj, [("time", .cftime lineAx)], []⟩ "time" (.cftime lineAx) 24 :=
    ⟨by simp [lineT, DA.dimNames], by simp, by simp [lineT], by simp [lineAx, pointCount]⟩
  have hA' : HasAxis (K := ℚ) ⟨r.obj, [("time", .cftime t)], []⟩ "time" (.cftime t) ys.length :=
    ⟨by simp [DA.dimNames, hrd, lineT], by simp, by simp [hrd], by simp [pointCount, hlen]⟩
  obtain ⟨s, b, hs, -⟩ := calc_ok hA (u := some "yr") (c := 31536000000000000) hc
  obtain ⟨s', b', hs', -⟩ := calc_ok hA' (u := some "yr") (c := 31536000000000000) hc
  refine ⟨r, t, s', b', hr, ht', hs', fun e => ?_⟩
  exact (C135_trend_annual hx lineAx_good lineAx_nodup lineAx_mid hF (by simp [lineT, DA.dimNames]) hr ht'
    (s1 := ⟨⟨2001, 1, 16⟩, 0⟩) (s2 := ⟨⟨2002, 1, 16⟩, 0⟩)
    (List.mem_map.2 ⟨0, by simp, rfl⟩) (List.mem_map.2 ⟨12, by simp, rfl⟩) (by simp) (lineT_on e) hc
    (by simp [lineT, lineAx]) hs hs').2

attribute [local irreducible] generateDailyTimeaxis

/-- The line `2 t + 3`, sampled at every midnight of two years. -/
def lineD (c : Calendar) : Timed (DA (Fl ℚ)) where
  obj := ⟨[("time", daysOfYears c 1979 2)],
    fun e => fin (2 * position (.cftime ⟨c, generateDailyTimeaxis 1979 2 c⟩) (e "time") + 3)⟩
  axes := [("time", ⟨c, generateDailyTimeaxis 1979 2 c⟩)]

theorem lineD_on (c : Calendar) (e : Env) : OnLine (lineD c) "time" e 2 3 :=
  ⟨⟨c, generateDailyTimeaxis 1979 2 c⟩, by simp [lineD], fun i _ => by simp [lineD]⟩

/-- The averages of its months lie half a day (`43200` s, of a slope of two per nanosecond) below the line. -/
example (c : Calendar) : ∃ r, monthlyAverage (lineD c) "time" = .ok r ∧
    ∀ e, OnLine r "time" e 2 (3 - 86400000000000) := by
  have hx : (lineD c).axes.lookup "time" = some ⟨c, generateDailyTimeaxis 1979 2 c⟩ := by simp [lineD]
  have g := daily_complete c (y := 1979) (n := 2) (by norm_num) (by norm_num)
  have hF : ∀ e, FN ((lineD c).obj.get e) := fun _ => by simp [lineD]
  obtain ⟨r, r2, hr, -⟩ := C39_daily hx g (fun e => ⟨_, rfl⟩)
  refine ⟨r, hr, fun e => ?_⟩
  have h := C135_monthly hx g (u := 0) (fun s hs => ((daily_members c (by norm_num) 2 s).1 hs).1) hF hr (lineD_on c e)
  have h0 : (3 : ℚ) + 2 * (((0 : Nat) - 43200000000) * 1000) = 3 - 86400000000000 := by norm_num
  rwa [h0] at h

end Momlevel.Props
