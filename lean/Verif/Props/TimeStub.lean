import Verif.Model.TimeStub
import Verif.Props.DailyAnnual

/-! # C62, C63: time axes for test data -/

set_option linter.unusedSectionVars false

namespace Momlevel.Props
open Momlevel Momlevel.Fl Momlevel.Spec

/-- Total length of `n` years from `y` on. -/
def daysOfYears (c : Calendar) (y n : Nat) : Nat :=
  ((List.range n).map (fun k => yearLength c (y + k))).sum

theorem daysOfYears_succ (c : Calendar) (y n : Nat) :
    daysOfYears c y (n + 1) = daysOfYears c y n + yearLength c (y + n) := by
  simp [daysOfYears, List.range_succ]

theorem ord_years (c : Calendar) {y : Nat} (hy : 1 ≤ y) (n : Nat) :
    (Date.mk (y + n) 1 1).ord c = (Date.mk y 1 1).ord c + daysOfYears c y n := by
  induction n with
  | zero => rfl
  | succ n ih =>
    rw [daysOfYears_succ, ← daysInYear_eq, ← Nat.add_assoc, ← Nat.add_assoc, ← ih]
    exact ord_next_year c (by omega)

theorem daysOfYears_le (c : Calendar) (y n : Nat) : daysOfYears c y n ≤ 366 * n := by
  induction n with
  | zero => exact le_refl _
  | succ n ih =>
    have := daysInYear_le c (y + n)
    rw [daysInYear_eq] at this
    rw [daysOfYears_succ]
    omega

theorem filter_range_lt {M N : Nat} (h : N ≤ M) (p : Nat → Bool) (hp : ∀ k < M, p k = decide (k < N)) :
    (List.range M).filter p = List.range N := by
  obtain ⟨d, rfl⟩ := Nat.exists_eq_add_of_le h
  rw [List.range_add, List.filter_append, List.filter_eq_self.2, List.filter_eq_nil_iff.2,
    List.append_nil]
  · intro k hk
    obtain ⟨j, hj, rfl⟩ := List.mem_map.1 hk
    have := List.mem_range.1 hj
    rw [hp _ (by omega)]
    simp
  · intro k hk
    have := List.mem_range.1 hk
    rw [hp k (by omega)]
    simpa using this

/-- The list as consecutive days. -/
theorem daily_eq (c : Calendar) {y : Nat} (hy : 1 ≤ y) (n : Nat) :
    generateDailyTimeaxis y n c = (List.range (daysOfYears c y n)).map
      (fun k => Stamp.midnight (Date.addDays c ⟨y, 1, 1⟩ k)) := by
  have hv := Date.valid_first c hy (le_refl 1) (show 1 ≤ 12 by omega)
  have hve := Date.valid_first c (show 1 ≤ y + n by omega) (le_refl 1) (show 1 ≤ 12 by omega)
  rw [generateDailyTimeaxis, List.filter_map, filter_range_lt (daysOfYears_le c y n), List.map_map]
  · rfl
  · intro k _
    simp only [Function.comp]
    have h1 := Date.lt_iff_ord (Date.valid_addDays hv k) hve
    rw [Date.ord_addDays hv, ord_years c hy] at h1
    by_cases h : k < daysOfYears c y n
    · rw [decide_eq_true h]; exact h1.2 (by omega)
    · rw [decide_eq_false h, ← Bool.not_eq_true, h1]; omega

/-- The members of the axis, with the model's notion of a valid date. -/
theorem daily_members (c : Calendar) {y : Nat} (hy : 1 ≤ y) (n : Nat) (s : Stamp) :
    s ∈ generateDailyTimeaxis y n c ↔
      s.us = 0 ∧ s.date.Valid c ∧ y ≤ s.date.year ∧ s.date.year < y + n := by
  have hv := Date.valid_first c hy (le_refl 1) (show 1 ≤ 12 by omega)
  have hve := Date.valid_first c (show 1 ≤ y + n by omega) (le_refl 1) (show 1 ≤ 12 by omega)
  rw [daily_eq c hy, List.mem_map]
  have hlow : ∀ d : Date, d.Valid c → (y ≤ d.year ↔ (Date.mk y 1 1).ord c ≤ d.ord c) := by
    intro d hd
    rw [← Date.le_iff_ord hv hd]
    obtain ⟨d1, d2, d3, d4, d5⟩ := hd
    simp only [Date.le, Date.lt, Bool.not_eq_true', Bool.or_eq_false_iff, decide_eq_false_iff_not,
      Bool.and_eq_false_iff, beq_eq_false_iff_ne]
    omega
  have hhigh : ∀ d : Date, d.Valid c → (d.year < y + n ↔ d.ord c < (Date.mk (y + n) 1 1).ord c) := by
    intro d hd
    rw [← Date.lt_iff_ord hd hve]
    obtain ⟨d1, d2, d3, d4, d5⟩ := hd
    simp only [Date.lt, Bool.or_eq_true, decide_eq_true_eq, Bool.and_eq_true, beq_iff_eq]
    omega
  constructor
  · rintro ⟨k, hk, rfl⟩
    have hd := Date.valid_addDays hv k
    have := List.mem_range.1 hk
    refine ⟨rfl, hd, (hlow _ hd).2 ?_, (hhigh _ hd).2 ?_⟩
    · show _ ≤ (Date.addDays c ⟨y, 1, 1⟩ k).ord c
      rw [Date.ord_addDays hv]; omega
    · show (Date.addDays c ⟨y, 1, 1⟩ k).ord c < _
      rw [Date.ord_addDays hv, ord_years c hy]; omega
  · rintro ⟨h0, hd, h1, h2⟩
    rw [hlow _ hd] at h1
    rw [hhigh _ hd, ord_years c hy] at h2
    refine ⟨s.date.ord c - (Date.mk y 1 1).ord c, List.mem_range.2 (by omega), ?_⟩
    obtain ⟨d, u⟩ := s
    simp only at *
    subst h0
    rw [Date.addDays_eq_ofOrd hv, Nat.add_sub_cancel' h1, Date.ofOrd_ord hd]
    rfl

/-- `generate_daily_timeaxis` lists exactly the days of the years `start_year`, …,
`start_year + nyears - 1` (as many in each month as the calendar has), each at midnight. -/
theorem C62_members (c : Calendar) {y : Nat} (hy : 1 ≤ y) (n : Nat) (s : Stamp) :
    s ∈ generateDailyTimeaxis y n c ↔
      s.us = 0 ∧ (y ≤ s.date.year ∧ s.date.year < y + n) ∧ (1 ≤ s.date.month ∧ s.date.month ≤ 12) ∧
        1 ≤ s.date.day ∧ s.date.day ≤ monthLength c s.date.year s.date.month := by
  rw [daily_members c hy]
  constructor
  · rintro ⟨h0, ⟨-, h2, h3, h4, h5⟩, h6, h7⟩
    rw [daysInMonth_eq c _ h2 h3] at h5
    exact ⟨h0, ⟨h6, h7⟩, ⟨h2, h3⟩, h4, h5⟩
  · rintro ⟨h0, ⟨h6, h7⟩, ⟨h2, h3⟩, h4, h5⟩
    rw [← daysInMonth_eq c _ h2 h3] at h5
    exact ⟨h0, ⟨by omega, h2, h3, h4, h5⟩, h6, h7⟩

/-- 31 August is on the axis, 31 September is not. -/
example (c : Calendar) (h : c ≠ .day360) : (⟨⟨2001, 8, 31⟩, 0⟩ : Stamp) ∈ generateDailyTimeaxis 2000 5 c
    ∧ (⟨⟨2001, 9, 31⟩, 0⟩ : Stamp) ∉ generateDailyTimeaxis 2000 5 c := by
  rw [C62_members c (by omega), C62_members c (by omega)]
  simp [monthLength, h]

/-- The days come in strictly increasing order (so each occurs once), beginning with 1 January of
`start_year`, and there are as many as the years have days. -/
theorem C62_order (c : Calendar) {y : Nat} (hy : 1 ≤ y) (n : Nat) :
    (generateDailyTimeaxis y n c).Pairwise (fun a b => a.date.lt b.date = true) ∧
    (generateDailyTimeaxis y n c).length
      = ((List.range n).map (fun k => yearLength c (y + k))).sum ∧
    (1 ≤ n → (generateDailyTimeaxis y n c).head? = some ⟨⟨y, 1, 1⟩, 0⟩) := by
  have hv := Date.valid_first c hy (le_refl 1) (show 1 ≤ 12 by omega)
  rw [daily_eq c hy]
  refine ⟨?_, by simp [daysOfYears], ?_⟩
  · rw [List.pairwise_map]
    refine List.pairwise_lt_range.imp (fun {a b} hab => ?_)
    show Date.lt _ _ = true
    rw [Stamp.midnight, Stamp.midnight,
      Date.lt_iff_ord (Date.valid_addDays hv a) (Date.valid_addDays hv b), Date.ord_addDays hv,
      Date.ord_addDays hv]
    omega
  · intro hn
    obtain ⟨m, rfl⟩ := Nat.exists_eq_add_of_le' hn
    have h1 := daysInYear_pos c (y + m)
    rw [daysInYear_eq] at h1
    have h2 := daysOfYears_succ c y m
    obtain ⟨d, hd⟩ := Nat.exists_eq_add_of_le' (show 1 ≤ daysOfYears c y (m + 1) by omega)
    rw [hd, List.range_succ_eq_map]
    rfl

/-- Two leap years in the Gregorian calendar around 1900 and 2000: 1899-1900 have 730 days, 1999-2000
have 731. -/
example : (generateDailyTimeaxis 1899 2 .prolepticGregorian).length = 730 ∧
    (generateDailyTimeaxis 1999 2 .prolepticGregorian).length = 731 := by
  rw [(C62_order .prolepticGregorian (by omega) 2).2.1,
    (C62_order .prolepticGregorian (by omega) 2).2.1]
  decide

/-- The generated daily axis is complete daily data in the sense of `C39_daily`. -/
theorem daily_complete (c : Calendar) {y n : Nat} (hy : 1 ≤ y) (hn : 1 ≤ n) :
    CompleteDaily ⟨c, generateDailyTimeaxis y n c⟩ := by
  have h62 := C62_order c hy n
  refine ⟨⟨?_, ?_⟩, ?_, ?_⟩
  · intro h
    have := h62.2.2 hn
    simp only at h
    rw [h] at this
    simp at this
  · intro s hs
    exact ((daily_members c hy n s).1 hs).2.1
  · show (List.map _ _).Nodup
    rw [List.Nodup, List.pairwise_map]
    refine h62.1.imp (fun {a b} h e => ?_)
    rw [e] at h
    simp [Date.lt] at h
  · intro s hs d hd hyear
    have := (daily_members c hy n s).1 hs
    refine ⟨⟨d, 0⟩, (daily_members c hy n _).2 ⟨rfl, hd, ?_, ?_⟩, rfl⟩
    · show y ≤ d.year
      omega
    · show d.year < y + n
      omega

/-- `C39_daily` on any generated daily axis and any finite values. -/
example (c : Calendar) {y n : Nat} (hy : 1 ≤ y) (hn : 1 ≤ n) (f : Env → ℚ) :
    ∃ r1 r2, monthlyAverage (⟨⟨[("time", daysOfYears c y n)], fun e => fin (f e)⟩,
        [("time", ⟨c, generateDailyTimeaxis y n c⟩)]⟩ : Timed (DA (Fl ℚ))) "time" = .ok r1 ∧
      annualAverage r1 "time" = .ok r2 := by
  obtain ⟨r1, r2, h1, h2, -⟩ := C39_daily (x := ⟨⟨[("time", daysOfYears c y n)], fun e => fin (f e)⟩,
    [("time", ⟨c, generateDailyTimeaxis y n c⟩)]⟩) (tc := "time") (K := ℚ) rfl
    (daily_complete c hy hn) (fun e => ⟨_, rfl⟩)
  exact ⟨r1, r2, h1, h2⟩

/-! ### C63 -/

theorem elapsed_eq {c : Calendar} {s : Stamp} (h : s.date.Valid c) :
    elapsed c s = s.date.ord c * 86400000000 + s.us := by
  have h1 : daysBeforeYear c s.date.year + (dayOfYear c s.date - 1) = s.date.ord c := by
    rw [dayOfYear, ← mSum_eq c _ (show s.date.month - 1 ≤ 12 by have := h.2.2.1; omega),
      ← Date.ySum_eq, Date.ord_eq]
    have := h.2.2.2.1
    omega
  rw [elapsed, h1]

/-- `b` is a list of midnights at valid dates in increasing order. -/
structure GoodBounds (c : Calendar) (b : List Stamp) : Prop where
  midnight : ∀ s ∈ b, s.us = 0 ∧ s.date.Valid c
  lt : ∀ (k : Nat) (h : k + 1 < b.length), (b[k]'(by omega)).date.ord c < b[k + 1].date.ord c

theorem stamp_midnight {s : Stamp} (h : s.us = 0) : s = Stamp.midnight s.date := by
  obtain ⟨d, u⟩ := s
  simp only at h
  rw [h]; rfl

theorem stub_of_bounds {c : Calendar} {b : List Stamp} (g : GoodBounds c b) {y n : Nat}
    {freq : String} (hb : stubBounds y n c freq = .ok b) :
    ∃ st, generateTimeStub y n c freq = .ok st ∧ st.calendar = c ∧
      st.time.length = b.length - 1 ∧ st.time_bnds.length = b.length - 1 ∧
      st.average_T1.length = b.length - 1 ∧ st.average_T2.length = b.length - 1 ∧
      st.average_DT.length = b.length - 1 ∧
      ∀ (k : Nat) (h : k + 1 < b.length),
        st.time_bnds[k]? = some (b[k]'(by omega), b[k + 1]) ∧
        st.average_T1[k]? = some (b[k]'(by omega)) ∧ st.average_T2[k]? = some b[k + 1] ∧
        (∃ t, st.time[k]? = some t ∧
          2 * elapsed c t = elapsed c (b[k]'(by omega)) + elapsed c b[k + 1]) ∧
        ∃ dt, st.average_DT[k]? = some dt ∧ 0 < dt ∧
          dt = (elapsed c b[k + 1] : Int) - elapsed c (b[k]'(by omega)) := by
  have hz : ∀ (k : Nat) (h : k + 1 < b.length),
      (b.dropLast.zip b.tail)[k]? = some (b[k]'(by omega), b[k + 1]) := by
    intro k h
    rw [List.getElem?_eq_getElem (by simp; omega)]
    simp
  have hzl : (b.dropLast.zip b.tail).length = b.length - 1 := by simp
  refine ⟨_, by simp only [generateTimeStub, hb, ok_bind]; rfl, rfl, ?_, ?_, ?_, ?_, ?_, ?_⟩
  · simp
  · simp
  · simp
  · simp
  · simp
  intro k h
  have m0 := g.midnight _ (List.getElem_mem (show k < b.length by omega))
  have m1 := g.midnight _ (List.getElem_mem h)
  have hlt := g.lt k h
  have e0 := stamp_midnight m0.1
  have e1 := stamp_midnight m1.1
  have hmid := midpoint_midnight hlt.le
  rw [← e0, ← e1] at hmid
  refine ⟨hz k h, ?_, ?_, ⟨midpoint c b[k] b[k + 1], ?_, ?_⟩,
    ⟨b[k + 1].toUs c - b[k].toUs c, ?_, ?_, ?_⟩⟩
  · rw [List.getElem?_map, hz k h]; rfl
  · rw [List.getElem?_map, hz k h]; rfl
  · rw [List.getElem?_map, hz k h]; rfl
  · rw [elapsed_eq m0.2, elapsed_eq m1.2, m0.1, m1.1, hmid, elapsed_eq (Date.valid_ofOrd c _),
      Date.ord_ofOrd]
    simp only
    omega
  · rw [List.getElem?_map, List.zip_map', List.getElem?_map, hz k h]; rfl
  · simp only [Stamp.toUs, m0.1, m1.1, usPerDay]
    push_cast
    omega
  · simp only [Stamp.toUs, usPerDay]
    rw [elapsed_eq m0.2, elapsed_eq m1.2]

theorem telescope {l : List Int} {f : Nat → Int}
    (h : ∀ k, k < l.length → l[k]? = some (f (k + 1) - f k)) : l.sum = f l.length - f 0 := by
  have e : l = (List.range l.length).map (fun k => f (k + 1) - f k) := by
    refine List.ext_getElem (by simp) (fun i h1 h2 => ?_)
    have := h i h1
    rw [List.getElem?_eq_getElem h1, Option.some.injEq] at this
    simp [this]
  rw [e, Fl.sum_map_range, Finset.sum_range_sub]
  simp

/-- What `generate_time_stub` returns for bounds `b` (a list of midnights): contiguous bounds, the two
end points, each time halfway between its bounds, and positive lengths that add up to the whole. -/
def StubFor (c : Calendar) (b : List Stamp) (st : TimeStub) : Prop :=
  st.time.length = b.length - 1 ∧ st.time_bnds.length = b.length - 1 ∧
  st.average_T1.length = b.length - 1 ∧ st.average_T2.length = b.length - 1 ∧
  st.average_DT.length = b.length - 1 ∧
  (∀ (k : Nat) (h : k + 1 < b.length),
    st.time_bnds[k]? = some (b[k]'(by omega), b[k + 1]) ∧
    st.average_T1[k]? = some (b[k]'(by omega)) ∧ st.average_T2[k]? = some b[k + 1] ∧
    (∃ t, st.time[k]? = some t ∧
      2 * elapsed c t = elapsed c (b[k]'(by omega)) + elapsed c b[k + 1]) ∧
    ∃ dt, st.average_DT[k]? = some dt ∧ 0 < dt ∧
      dt = (elapsed c b[k + 1] : Int) - elapsed c (b[k]'(by omega)))

theorem sum_average_DT {c : Calendar} {b : List Stamp} {st : TimeStub} (h : StubFor c b st)
    {first last : Stamp} (h0 : b[0]? = some first) (h1 : b[b.length - 1]? = some last) :
    st.average_DT.sum = (elapsed c last : Int) - elapsed c first := by
  obtain ⟨-, -, -, -, hl, hk⟩ := h
  have := telescope (l := st.average_DT) (f := fun k => (elapsed c (b.getD k midMonths.default) : Int))
    (fun k hk' => by
      obtain ⟨-, -, -, -, dt, h1, -, h2⟩ := hk k (by omega)
      rw [h1, h2]
      simp [List.getD_eq_getElem?_getD, show k < b.length by omega, show k + 1 < b.length by omega])
  rw [this, hl]
  simp [List.getD_eq_getElem?_getD, h0, h1]

/-- Monthly stubs: `12 * nyears` points whose bounds are the month starts from 1 January of
`start_year` to 1 January of `start_year + nyears`. -/
theorem C63_monthly (c : Calendar) {y : Nat} (hy : 1 ≤ y) (n : Nat) :
    ∃ st b, generateTimeStub y n c "MS" = .ok st ∧ b.length = 12 * n + 1 ∧
      (∀ k, k ≤ 12 * n → b[k]? = some ⟨⟨y + k / 12, k % 12 + 1, 1⟩, 0⟩) ∧
      b[0]? = some ⟨⟨y, 1, 1⟩, 0⟩ ∧ b[12 * n]? = some ⟨⟨y + n, 1, 1⟩, 0⟩ ∧
      StubFor c b st ∧
      st.average_DT.sum
        = ((((List.range n).map (fun k => yearLength c (y + k))).sum * 86400000000 : Nat) : Int) := by
  have hv : ∀ k, (Date.mk (y + k / 12) (k % 12 + 1) 1).Valid c := fun k =>
    Date.valid_first c (by omega) (by omega) (by omega)
  have hget : ∀ k, k < n * 12 + 1 →
      (monthStarts y (n * 12 + 1))[k]? = some ⟨⟨y + k / 12, k % 12 + 1, 1⟩, 0⟩ := by
    intro k hk
    rw [monthStarts, List.getElem?_map, List.getElem?_range hk]; rfl
  have hlen : (monthStarts y (n * 12 + 1)).length = n * 12 + 1 := by simp [monthStarts]
  have g : GoodBounds c (monthStarts y (n * 12 + 1)) := by
    refine ⟨fun s hs => ?_, fun k h => ?_⟩
    · simp only [monthStarts, List.mem_map, List.mem_range] at hs
      obtain ⟨k, -, rfl⟩ := hs
      exact ⟨rfl, hv k⟩
    · have h1 := hget k (by omega)
      have h2 := hget (k + 1) (by omega)
      rw [List.getElem?_eq_getElem (by omega), Option.some.injEq] at h1 h2
      rw [h1, h2]
      have := ord_next_month c (show 1 ≤ y + k / 12 by omega) (show k % 12 < 12 by omega)
      have e1 : y + k / 12 + (k % 12 + 1) / 12 = y + (k + 1) / 12 := by omega
      have e2 : (k % 12 + 1) % 12 = (k + 1) % 12 := by omega
      rw [e1, e2] at this
      have hp := daysInMonth_pos c (y + k / 12) (k % 12 + 1)
      simp only [this]
      omega
  obtain ⟨st, hst, -, l1, l2, l3, l4, l5, hk⟩ := stub_of_bounds g (y := y) (n := n) (freq := "MS") rfl
  have hS : StubFor c (monthStarts y (n * 12 + 1)) st := ⟨l1, l2, l3, l4, l5, hk⟩
  have h0 : (monthStarts y (n * 12 + 1))[0]? = some ⟨⟨y, 1, 1⟩, 0⟩ := hget 0 (by omega)
  have h1 : (monthStarts y (n * 12 + 1))[12 * n]? = some ⟨⟨y + n, 1, 1⟩, 0⟩ := by
    rw [hget _ (by omega)]
    have e1 : 12 * n / 12 = n := by omega
    have e2 : 12 * n % 12 = 0 := by omega
    rw [e1, e2]
  refine ⟨st, _, hst, by omega, fun k hk => hget k (by omega), h0, h1, hS, ?_⟩
  have e : (monthStarts y (n * 12 + 1)).length - 1 = 12 * n := by omega
  rw [sum_average_DT hS h0 (by rw [e]; exact h1),
    elapsed_eq (Date.valid_first c (show 1 ≤ y + n by omega) (le_refl 1) (by omega)),
    elapsed_eq (Date.valid_first c hy (le_refl 1) (by omega)), ord_years c hy]
  simp only [daysOfYears]
  push_cast
  ring

/-- Daily stubs: one point per day of the years, bounds from 1 January of `start_year` to 1 January
of `start_year + nyears`, every interval one day long. -/
theorem C63_daily (c : Calendar) {y : Nat} (hy : 1 ≤ y) (n : Nat) :
    ∃ st b, generateTimeStub y n c "D" = .ok st ∧
      b.length = ((List.range n).map (fun k => yearLength c (y + k))).sum + 1 ∧
      b[0]? = some ⟨⟨y, 1, 1⟩, 0⟩ ∧ b[b.length - 1]? = some ⟨⟨y + n, 1, 1⟩, 0⟩ ∧
      StubFor c b st ∧ (∀ dt ∈ st.average_DT, dt = 86400000000) ∧
      st.average_DT.sum
        = ((((List.range n).map (fun k => yearLength c (y + k))).sum * 86400000000 : Nat) : Int) := by
  have hv := Date.valid_first c hy (le_refl 1) (show 1 ≤ 12 by omega)
  have hve := Date.valid_first c (show 1 ≤ y + n by omega) (le_refl 1) (show 1 ≤ 12 by omega)
  have hb : stubBounds y n c "D" = .ok ((List.range (daysOfYears c y n + 1)).map
      (fun k => Stamp.midnight (Date.addDays c ⟨y, 1, 1⟩ k))) := by
    have hle := daysOfYears_le c y n
    rw [stubBounds, if_neg (by decide), if_pos rfl, dayStarts, List.filter_map,
      filter_range_lt (show daysOfYears c y n + 1 ≤ n * 366 + 1 by omega)]
    intro k _
    simp only [Function.comp, Stamp.midnight]
    have h1 := Date.le_iff_ord (Date.valid_addDays hv k) hve
    rw [Date.ord_addDays hv, ord_years c hy] at h1
    by_cases h : k < daysOfYears c y n + 1
    · rw [decide_eq_true h]; exact h1.2 (by omega)
    · rw [decide_eq_false h, ← Bool.not_eq_true, h1]; omega
  generalize hB : (List.range (daysOfYears c y n + 1)).map
      (fun k => Stamp.midnight (Date.addDays c ⟨y, 1, 1⟩ k)) = b at hb
  have hlen : b.length = daysOfYears c y n + 1 := by rw [← hB]; simp
  have hget : ∀ k, k < daysOfYears c y n + 1 →
      b[k]? = some (Stamp.midnight (Date.addDays c ⟨y, 1, 1⟩ k)) := by
    intro k hk
    rw [← hB, List.getElem?_map, List.getElem?_range hk]; rfl
  have hord : ∀ (k : Nat) (h : k < b.length),
      b[k].date.ord c = (Date.mk y 1 1).ord c + k ∧ b[k].us = 0 ∧ b[k].date.Valid c := by
    intro k h
    have h1 := hget k (by omega)
    rw [List.getElem?_eq_getElem h, Option.some.injEq] at h1
    rw [h1]
    exact ⟨Date.ord_addDays hv k, rfl, Date.valid_addDays hv k⟩
  have g : GoodBounds c b := by
    refine ⟨fun s hs => ?_, fun k h => ?_⟩
    · obtain ⟨k, hk, rfl⟩ := List.getElem_of_mem hs
      exact (hord k hk).2
    · rw [(hord k (by omega)).1, (hord (k + 1) h).1]
      omega
  obtain ⟨st, hst, -, l1, l2, l3, l4, l5, hk⟩ := stub_of_bounds g hb
  have hS : StubFor c b st := ⟨l1, l2, l3, l4, l5, hk⟩
  have h0 : b[0]? = some ⟨⟨y, 1, 1⟩, 0⟩ := hget 0 (by omega)
  have h1 : b[b.length - 1]? = some ⟨⟨y + n, 1, 1⟩, 0⟩ := by
    rw [hget _ (by omega), hlen, Nat.add_sub_cancel, Date.addDays_eq_ofOrd hv, ← ord_years c hy,
      Date.ofOrd_ord hve]
    rfl
  refine ⟨st, b, hst, hlen, h0, h1, hS, ?_, ?_⟩
  · intro dt hdt
    obtain ⟨k, hk', rfl⟩ := List.getElem_of_mem hdt
    obtain ⟨-, -, -, -, dt, h1, -, h2⟩ := hk k (by omega)
    rw [List.getElem?_eq_getElem hk', Option.some.injEq] at h1
    have o0 := hord k (by omega)
    have o1 := hord (k + 1) (by omega)
    rw [h1, h2, elapsed_eq o0.2.2, elapsed_eq o1.2.2, o0.1, o1.1, o0.2.1, o1.2.1]
    push_cast
    ring
  · rw [sum_average_DT hS h0 h1, elapsed_eq hve, elapsed_eq hv, ord_years c hy]
    simp only [daysOfYears]
    push_cast
    ring

/-- Any other frequency raises a ValueError. -/
theorem C63_frequency (y n : Nat) (c : Calendar) {freq : String} (h1 : freq ≠ "MS") (h2 : freq ≠ "D") :
    generateTimeStub y n c freq = .error .valueError := by
  simp only [generateTimeStub, stubBounds, if_neg h1, if_neg h2, error_bind]

/-- The stub records the calendar it was made for. -/
theorem C63_calendar {y n : Nat} {c : Calendar} {freq : String} {st : TimeStub}
    (h : generateTimeStub y n c freq = .ok st) : st.calendar = c := by
  unfold generateTimeStub at h
  cases hb : stubBounds y n c freq with
  | error e => rw [hb, error_bind] at h; cases h
  | ok b =>
    rw [hb, ok_bind] at h
    cases h
    rfl

/-- Five years of monthly data in the 360-day calendar have 60 points. -/
example : ∃ st, generateTimeStub 1981 5 .day360 "MS" = .ok st ∧ st.time.length = 60 ∧ st.calendar = .day360 ∧
    st.average_DT.sum = 1800 * 86400000000 := by
  obtain ⟨st, b, h, hl, -, -, -, hS, hsum⟩ := C63_monthly .day360 (y := 1981) (by omega) 5
  refine ⟨st, h, by rw [hS.1, hl], C63_calendar h, by rw [hsum]; decide⟩

/-- Yearly stubs are not supported. -/
example : generateTimeStub 1981 5 .noleap "YS" = .error .valueError :=
  C63_frequency _ _ _ (by decide) (by decide)

end Momlevel.Props
