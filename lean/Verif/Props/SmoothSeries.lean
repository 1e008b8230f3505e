import Verif.Props.LinearSeries
import Verif.Lemmas.MidpointRule

/-! # C160: averages in time of a smooth series -/

set_option linter.unusedSectionVars false

namespace Momlevel.Props
open Momlevel Momlevel.Fl Momlevel.Spec

/-- Nanoseconds from the start of 1970 to a stamp. -/
def instant (c : Calendar) (s : Stamp) : ℝ :=
  (((s.toUs c : Int) : ℝ) - ((Stamp.toUs c ⟨⟨1970, 1, 1⟩, 0⟩ : Int) : ℝ)) * 1000

/-- The nanoseconds of a day. -/
def dayNs : ℝ := 86400000000000

/-- At the point `e` the samples of `x` are those of the function `f` of time. -/
def OnCurve (x : Timed (DA (Fl ℝ))) (tc : String) (e : Env) (f : ℝ → ℝ) : Prop :=
  ∃ ax, x.axes.lookup tc = some ax ∧ ∀ (i : Nat) (s : Stamp), ax.stamps[i]? = some s →
    x.obj.get (Function.update e tc i) = fin (f (instant ax.cal s))

/-- The average of the derivative of `F` over the `d` days after `t`. -/
noncomputable def meanOver (F : ℝ → ℝ) (t : ℝ) (d : Nat) : ℝ := (F (t + d * dayNs) - F t) / (d * dayNs)

theorem instant_first {c : Calendar} {y m : Nat} (hy : 1 ≤ y) (h1 : 1 ≤ m) (h2 : m ≤ 12) :
    instant c ⟨⟨y, m, 1⟩, 0⟩ = ((daysBeforeYear c y + daysBefore c y (m - 1) : Nat) : ℝ) * dayNs
      - ((Stamp.toUs c ⟨⟨1970, 1, 1⟩, 0⟩ : Int) : ℝ) * 1000 := by
  have hv : (Stamp.date ⟨⟨y, m, 1⟩, 0⟩).Valid c := by
    refine ⟨hy, h1, h2, le_rfl, ?_⟩
    rw [daysInMonth_eq _ _ h1 h2]
    exact Nat.pos_of_ne_zero (monthLength_ne c y h1 h2)
  have h := congrArg (Int.cast : Int → ℝ) (toUs_before (s := ⟨⟨y, m, 1⟩, 0⟩) hv)
  push_cast at h
  unfold instant dayNs
  push_cast
  linarith

theorem daysBefore_succ (c : Calendar) (y m : Nat) : daysBefore c y (m + 1) = daysBefore c y m + monthLength c y (m + 1) := by
  unfold daysBefore
  rw [Finset.sum_range_succ]

theorem instant_midMonth {c : Calendar} {y m : Nat} {s : Stamp} (h : IsMidMonth c y m s) :
    instant c s = ((daysBeforeYear c y + daysBefore c y (m - 1) : Nat) : ℝ) * dayNs + monthLength c y m * dayNs / 2
      - ((Stamp.toUs c ⟨⟨1970, 1, 1⟩, 0⟩ : Int) : ℝ) * 1000 := by
  have h := congrArg (Int.cast : Int → ℝ) (toUs_midMonth h)
  push_cast at h
  unfold instant dayNs
  push_cast
  linarith

theorem weightedMean_all {S : Finset Nat} {w : Nat → Nat} {v : Nat → Fl ℝ} {r : Fl ℝ} {p : Nat → ℝ}
    (hr : IsWeightedMean S w v r) (hv : ∀ i ∈ S, v i = fin (p i)) (hS : S.Nonempty) :
    ∃ a, r = fin a ∧ a * ∑ i ∈ S, (w i : ℝ) = ∑ i ∈ S, (w i : ℝ) * p i := by
  have hp : present S v = S := Finset.filter_true_of_mem (fun i hi => by rw [hv i hi]; simp)
  rcases hr with ⟨hn, -⟩ | ⟨-, a, rfl, h⟩
  · obtain ⟨i, hi⟩ := hS
    have := hn i hi
    rw [hv i hi] at this
    cases this
  · rw [hp] at h
    exact ⟨a, rfl, by rw [h]; exact Finset.sum_congr rfl (fun i hi => by rw [hv i hi, val0_fin])⟩

theorem mean_all {S : Finset Nat} {v : Nat → Fl ℝ} {r : Fl ℝ} {p : Nat → ℝ}
    (hr : IsMean S v r) (hv : ∀ i ∈ S, v i = fin (p i)) (hS : S.Nonempty) :
    ∃ a, r = fin a ∧ a * S.card = ∑ i ∈ S, p i := by
  obtain ⟨a, h1, h2⟩ := weightedMean_all (w := fun _ => 1) (p := p) (by
    rcases hr with h | ⟨h, a, h1, h2⟩
    · exact Or.inl h
    · exact Or.inr ⟨h, a, h1, by simpa using h2⟩) hv hS
  exact ⟨a, h1, by simpa using h2⟩

theorem monthLength_le31 (c : Calendar) (y m : Nat) : monthLength c y m ≤ 31 := by
  unfold monthLength
  have all : ∀ (l : List Nat), (∀ d ∈ l, d ≤ 31) → ∀ i, l.getD i 0 ≤ 31 := fun l h i => by
    rw [List.getD_eq_getElem?_getD]
    cases hi : l[i]? with
    | none => simp
    | some d => exact h d (List.mem_of_getElem? hi)
  split
  · norm_num
  · split_ifs <;> exact all _ (by decide) _

/-- C160 (annual averages): of monthly samples, stamped at the middle of the months, of a function with second derivative
at most `M` (per square nanosecond); the average of every year is that of the function over the year, up to `M/24` times
the square of 31 days. -/
theorem C160_annual {x r : Timed (DA (Fl ℝ))} {ax : TimeAxis} (hx : x.axes.lookup "time" = some ax) (g : GoodAxis ax)
    (hnd : ax.stamps.Nodup) (hmid : ∀ s ∈ ax.stamps, IsMidMonth ax.cal s.date.year s.date.month s)
    (hF : ∀ e, FN (x.obj.get e)) (hr : annualAverage x "time" = .ok r) {e : Env} {F f f1 f2 : ℝ → ℝ} {M : ℝ}
    (hl : OnCurve x "time" e f) :
    ∃ t, r.axes.lookup "time" = some t ∧ ∀ (k : Nat) (s : Stamp), t.stamps[k]? = some s →
      ∀ t0, t0 = instant ax.cal ⟨⟨s.date.year, 1, 1⟩, 0⟩ →
      Smooth F f f1 f2 t0 (t0 + yearLength ax.cal s.date.year * dayNs) M →
      ∃ a, r.obj.get (Function.update e "time" k) = fin a ∧
        |a - meanOver F t0 (yearLength ax.cal s.date.year)| ≤ M / 24 * (31 * dayNs) ^ 2 := by
  obtain ⟨ax', hx', hl⟩ := hl
  rw [hx] at hx'
  cases Option.some.inj hx'
  have h12 : ∀ s ∈ ax.stamps, (inYear ax.stamps s.date.year).card = 12 := by
    by_contra hcon
    have := (C38_twelve (x := x) hx g.nonempty).2 hcon
    rw [hr] at this
    cases this
  obtain ⟨ys, -, hys, -, ⟨t, ht, hcal, hlen, hmy⟩, hv⟩ := C38_value hx g hF hr
  refine ⟨t, by rw [ht]; rfl, fun k s hks t0 ht0 hsm => ?_⟩
  have hk : k < t.stamps.length := (List.getElem?_eq_some_iff.1 hks).1
  have hk' : k < ys.length := hlen ▸ hk
  have hyk : ys[k]? = some ys[k] := List.getElem?_eq_getElem hk'
  obtain ⟨-, hyear, -⟩ := hmy k _ _ hyk hks
  have hmean := hv (Function.update e "time" k) ys[k] (by rw [Function.update_self]; exact hyk)
  obtain ⟨s', hs', hsy⟩ := (hys ys[k]).1 (List.getElem_mem _)
  have hcard : (inYear ax.stamps ys[k]).card = 12 := hsy ▸ h12 s' hs'
  have hy1 : 1 ≤ ys[k] := hsy ▸ (g.valid s' hs').1
  rw [hyear] at ht0 hsm ⊢
  generalize ys[k] = y at *
  set c := ax.cal with hc
  have h1 := fun m (hm : m < 12) => one_per_month g hnd hmid hcard hm
  set X : Nat → ℝ := fun m => t0 + (daysBefore c y m : ℝ) * dayNs with hX
  set C : Nat → ℝ := fun m => (X m + X (m + 1)) / 2 with hC
  have hst : ∀ m < 12, ∀ i ∈ inYearMonth ax.stamps y (m + 1), monthDays c ax.stamps i = monthLength c y (m + 1) ∧
      x.obj.get (Function.update (Function.update e "time" k) "time" i) = fin (f (C m)) := by
    intro m hm i hi
    obtain ⟨li, yi, mi⟩ := mem_inYearMonth.1 hi
    have a := hmid _ (List.getElem_mem li)
    rw [yi, mi] at a
    refine ⟨by simp [monthDays, List.getElem?_eq_getElem li, yi, mi], ?_⟩
    rw [Function.update_idem, hl i _ (List.getElem?_eq_getElem li), instant_midMonth a]
    congr 2
    simp only [hC, hX, ht0, daysBefore_succ]
    rw [instant_first hy1 le_rfl (by norm_num)]
    simp [daysBefore]
    ring
  have hval : ∀ i ∈ inYear ax.stamps y, x.obj.get (Function.update (Function.update e "time" k) "time" i)
      = fin (f (C ((ax.stamps.getD i midMonths.default).date.month - 1))) := by
    intro i hi
    obtain ⟨li, yi⟩ := mem_inYear.1 hi
    have hv := g.valid _ (List.getElem_mem li)
    obtain ⟨-, m1, m2, -⟩ := hv
    rw [List.getD_eq_getElem?_getD, List.getElem?_eq_getElem li, Option.getD_some]
    exact (hst (ax.stamps[i].date.month - 1) (by omega) i (mem_inYearMonth.2 ⟨li, yi, by omega⟩)).2
  obtain ⟨a, ha, hsum⟩ := weightedMean_all hmean hval (by rw [← Finset.card_pos, hcard]; norm_num)
  refine ⟨a, ha, ?_⟩
  have e1 : ∑ i ∈ inYear ax.stamps y, (monthDays c ax.stamps i : ℝ) = (yearLength c y : ℝ) := by
    rw [sum_inYear g, ← daysBefore_year, daysBefore, Nat.cast_sum]
    refine Finset.sum_congr rfl (fun m hm => ?_)
    have hm := Finset.mem_range.1 hm
    rw [Finset.sum_congr rfl (fun i hi => by rw [(hst m hm i hi).1]), Finset.sum_const, h1 m hm, one_smul]
  have e2 : ∑ i ∈ inYear ax.stamps y, (monthDays c ax.stamps i : ℝ)
        * f (C ((ax.stamps.getD i midMonths.default).date.month - 1))
      = ∑ m ∈ Finset.range 12, (monthLength c y (m + 1) : ℝ) * f (C m) := by
    rw [sum_inYear g]
    refine Finset.sum_congr rfl (fun m hm => ?_)
    have hm := Finset.mem_range.1 hm
    rw [Finset.sum_congr rfl (fun i hi => by
      obtain ⟨li, yi, mi⟩ := mem_inYearMonth.1 hi
      rw [(hst m hm i hi).1, List.getD_eq_getElem?_getD, List.getElem?_eq_getElem li, Option.getD_some, mi,
        Nat.add_sub_cancel]), Finset.sum_const, h1 m hm, one_smul]
  rw [e1, e2] at hsum
  have hd : (0 : ℝ) < dayNs := by norm_num [dayNs]
  have hw : ∀ m, X (m + 1) - X m = monthLength c y (m + 1) * dayNs := fun m => by
    simp only [hX, daysBefore_succ]; push_cast; ring
  have X0 : X 0 = t0 := by simp [hX, daysBefore]
  have X12 : X 12 = t0 + yearLength c y * dayNs := by simp only [hX, daysBefore_year]
  have Q := midpoint_sum (x := X) (c := C) (m := 12) (F := F) (g := f) (g1 := f1) (g2 := f2) (M := M)
    (fun m _ => by have := hw m; nlinarith [mul_nonneg (Nat.cast_nonneg (α := ℝ) (monthLength c y (m + 1))) hd.le])
    (fun m _ => rfl) (by rw [X0, X12]; exact hsm)
  have hM : 0 ≤ M := (abs_nonneg _).trans (hsm.bound t0 le_rfl (by
    have : (0 : ℝ) ≤ yearLength c y * dayNs := by positivity
    linarith))
  have hN : (0 : ℝ) < yearLength c y * dayNs := by
    have : (0 : ℝ) < yearLength c y := by exact_mod_cast Nat.pos_of_ne_zero (yearLength_ne c y)
    positivity
  have e3 : ∑ m ∈ Finset.range 12, (X (m + 1) - X m) * f (C m) = a * (yearLength c y * dayNs) := by
    rw [show a * (yearLength c y * dayNs) = a * yearLength c y * dayNs by ring, hsum, Finset.sum_mul]
    exact Finset.sum_congr rfl (fun m _ => by rw [hw]; ring)
  have e4 : ∑ m ∈ Finset.range 12, (X (m + 1) - X m) ^ 3 ≤ (31 * dayNs) ^ 2 * (yearLength c y * dayNs) := by
    rw [← daysBefore_year, daysBefore, Nat.cast_sum, Finset.sum_mul, Finset.mul_sum]
    refine Finset.sum_le_sum (fun m _ => ?_)
    rw [hw]
    have l31 : (monthLength c y (m + 1) : ℝ) ≤ 31 := by exact_mod_cast monthLength_le31 c y (m + 1)
    have l0 : (0 : ℝ) ≤ monthLength c y (m + 1) := Nat.cast_nonneg _
    have : (monthLength c y (m + 1) * dayNs) ^ 2 ≤ (31 * dayNs) ^ 2 :=
      pow_le_pow_left₀ (by positivity) (mul_le_mul_of_nonneg_right l31 hd.le) 2
    calc (monthLength c y (m + 1) * dayNs : ℝ) ^ 3 = (monthLength c y (m + 1) * dayNs) ^ 2 * (monthLength c y (m + 1) * dayNs) := by ring
      _ ≤ _ := mul_le_mul_of_nonneg_right this (by positivity)
  rw [e3, X0, X12] at Q
  have e5 : a - meanOver F t0 (yearLength c y)
      = (a * (yearLength c y * dayNs) - (F (t0 + yearLength c y * dayNs) - F t0)) / (yearLength c y * dayNs) := by
    unfold meanOver
    rw [sub_div (a * _), mul_div_cancel_right₀ _ hN.ne']
  rw [e5, abs_div, abs_of_pos hN, div_le_iff₀ hN]
  refine Q.trans ?_
  calc M / 24 * ∑ m ∈ Finset.range 12, (X (m + 1) - X m) ^ 3 ≤ M / 24 * ((31 * dayNs) ^ 2 * (yearLength c y * dayNs)) :=
        mul_le_mul_of_nonneg_left e4 (by positivity)
    _ = _ := by ring

/-- The samples of a month, day by day. -/
theorem month_days {ax : TimeAxis} (g : CompleteDaily ax) {s0 : Stamp}
    (h0 : s0 ∈ ax.stamps) {m : Nat} (h1 : 1 ≤ m) (h2 : m ≤ 12) (φ : Nat → ℝ) :
    ∑ i ∈ inYearMonth ax.stamps s0.date.year m, φ ((ax.stamps.getD i midMonths.default).date.day - 1)
      = ∑ k ∈ Finset.range (monthLength ax.cal s0.date.year m), φ k := by
  rw [← daysInMonth_eq _ _ h1 h2]
  refine Finset.sum_bij (fun i _ => (ax.stamps.getD i midMonths.default).date.day - 1) ?_ ?_ ?_ ?_
  · intro i hi
    obtain ⟨hl, hy, hm⟩ := mem_inYearMonth.1 hi
    obtain ⟨-, -, -, v4, v5⟩ := g.valid _ (List.getElem_mem hl)
    rw [hy, hm] at v5
    simp only [List.getD_eq_getElem?_getD, List.getElem?_eq_getElem hl, Option.getD_some, Finset.mem_range]
    omega
  · intro i hi j hj he
    obtain ⟨hl, hy, hm⟩ := mem_inYearMonth.1 hi
    obtain ⟨hl', hy', hm'⟩ := mem_inYearMonth.1 hj
    have hv := (g.valid _ (List.getElem_mem hl)).2.2.2.1
    have hv' := (g.valid _ (List.getElem_mem hl')).2.2.2.1
    simp only [List.getD_eq_getElem?_getD, List.getElem?_eq_getElem hl,
      List.getElem?_eq_getElem hl', Option.getD_some] at he
    have hd : ax.stamps[i].date = ax.stamps[j].date := by
      have : ax.stamps[i].date.day = ax.stamps[j].date.day := by omega
      calc ax.stamps[i].date = ⟨ax.stamps[i].date.year, ax.stamps[i].date.month, ax.stamps[i].date.day⟩ := rfl
        _ = ax.stamps[j].date := by rw [hy, hm, this, ← hy', ← hm']
    have hi' : i < (ax.stamps.map (fun s => s.date)).length := by simpa using hl
    have hj' : j < (ax.stamps.map (fun s => s.date)).length := by simpa using hl'
    exact (g.once.getElem_inj_iff (hi := hi') (hj := hj')).1 (by simpa using hd)
  · intro k hk
    rw [Finset.mem_range] at hk
    obtain ⟨s', hs', hd⟩ := g.all s0 h0 ⟨s0.date.year, m, k + 1⟩
      ⟨(g.valid s0 h0).1, h1, h2, by simp, hk⟩ rfl
    obtain ⟨i, hi, rfl⟩ := List.getElem_of_mem hs'
    refine ⟨i, mem_inYearMonth.2 ⟨hi, by rw [hd], by rw [hd]⟩, ?_⟩
    simp [List.getD_eq_getElem?_getD, List.getElem?_eq_getElem hi, hd]
  · intro i hi
    rfl

/-- C160 (monthly averages): of complete daily samples at noon of such a function; the average of every month is that of
the function over the month, up to `M/24` times the square of a day. -/
theorem C160_monthly {x r : Timed (DA (Fl ℝ))} {tc : String} {ax : TimeAxis} (hx : x.axes.lookup tc = some ax)
    (g : CompleteDaily ax) (hu : ∀ s ∈ ax.stamps, s.us = 43200000000) (hF : ∀ e, FN (x.obj.get e))
    (hr : monthlyAverage x tc = .ok r) {e : Env} {F f f1 f2 : ℝ → ℝ} {M : ℝ} (hl : OnCurve x tc e f) :
    ∃ t, r.axes.lookup tc = some t ∧ ∀ (k : Nat) (s : Stamp), t.stamps[k]? = some s →
      ∀ t0, t0 = instant ax.cal ⟨⟨s.date.year, s.date.month, 1⟩, 0⟩ →
      Smooth F f f1 f2 t0 (t0 + monthLength ax.cal s.date.year s.date.month * dayNs) M →
      ∃ a, r.obj.get (Function.update e tc k) = fin a ∧
        |a - meanOver F t0 (monthLength ax.cal s.date.year s.date.month)| ≤ M / 24 * dayNs ^ 2 := by
  obtain ⟨ax', hx', hl⟩ := hl
  rw [hx] at hx'
  cases Option.some.inj hx'
  obtain ⟨ys, -, hys, -, ⟨t, ht, hcal, hlen, hmm⟩, hv⟩ := C41_value hx g.toGoodAxis hF hr
  refine ⟨t, by rw [ht]; simp [List.lookup], fun k s hks t0 ht0 hsm => ?_⟩
  have hk : k < t.stamps.length := (List.getElem?_eq_some_iff.1 hks).1
  have hk' : k / 12 < ys.length := by
    have : k < 12 * ys.length := hlen ▸ hk
    omega
  have hyk : ys[k / 12]? = some ys[k / 12] := List.getElem?_eq_getElem hk'
  obtain ⟨-, hyear, hmonth, -⟩ := hmm k _ _ hyk hks
  have hmean := hv (Function.update e tc k) ys[k / 12] (by rw [Function.update_self]; exact hyk)
  simp only [Function.update_self] at hmean
  obtain ⟨s', hs', hsy⟩ := (hys ys[k / 12]).1 (List.getElem_mem _)
  have h1 : 1 ≤ k % 12 + 1 := by omega
  have h2 : k % 12 + 1 ≤ 12 := by omega
  rw [hyear, hmonth] at ht0 hsm ⊢
  rw [← hsy] at hmean ht0 hsm ⊢
  have hy1 : 1 ≤ s'.date.year := (g.valid s' hs').1
  have hcard := card_inYearMonth g hs' h1 h2
  have days := month_days g hs' h1 h2
  generalize hm : k % 12 + 1 = m at *
  set c := ax.cal with hc
  set y := s'.date.year with hy
  set N := monthLength c y m with hN
  have hN0 : 0 < N := Nat.pos_of_ne_zero (monthLength_ne _ _ h1 h2)
  set X : Nat → ℝ := fun j => t0 + (j : ℝ) * dayNs with hX
  set C : Nat → ℝ := fun j => (X j + X (j + 1)) / 2 with hC
  obtain ⟨a, ha, hsum⟩ := mean_all (p := fun i => f (C ((ax.stamps.getD i midMonths.default).date.day - 1))) hmean
    (fun i hi => by
      obtain ⟨li, yi, mi⟩ := mem_inYearMonth.1 hi
      have v := g.valid _ (List.getElem_mem li)
      have d1 : 1 ≤ ax.stamps[i].date.day := v.2.2.2.1
      have hT := congrArg (Int.cast : Int → ℝ) (toUs_before v)
      simp only [Function.update_idem]
      rw [hl i _ (List.getElem?_eq_getElem li), List.getD_eq_getElem?_getD, List.getElem?_eq_getElem li,
        Option.getD_some]
      congr 2
      simp only [hC, hX, ht0]
      rw [instant_first hy1 h1 h2]
      rw [yi, mi, hu _ (List.getElem_mem li)] at hT
      unfold instant
      push_cast [Nat.cast_sub d1] at hT ⊢
      unfold dayNs
      linarith) (by rw [← Finset.card_pos, hcard]; exact hN0)
  refine ⟨a, ha, ?_⟩
  rw [hcard, days (fun j => f (C j))] at hsum
  have hd : (0 : ℝ) < dayNs := by norm_num [dayNs]
  have hNd : (0 : ℝ) < N * dayNs := by
    have : (0 : ℝ) < N := by exact_mod_cast hN0
    positivity
  have hw : ∀ j, X (j + 1) - X j = dayNs := fun j => by simp only [hX]; push_cast; ring
  have X0 : X 0 = t0 := by simp [hX]
  have Q := midpoint_sum (x := X) (c := C) (m := N) (F := F) (g := f) (g1 := f1) (g2 := f2) (M := M)
    (fun j _ => by linarith [hw j]) (fun j _ => rfl) (by rw [X0]; exact hsm)
  rw [Finset.sum_congr rfl (fun j _ => by rw [hw j]), ← Finset.mul_sum, ← hsum, X0,
    Finset.sum_congr (s₁ := Finset.range N) (f := fun k => (X (k + 1) - X k) ^ 3) (g := fun _ => dayNs ^ 3) rfl
      (fun j _ => by rw [hw j]), Finset.sum_const, Finset.card_range, nsmul_eq_mul] at Q
  have e5 : a - meanOver F t0 N = (dayNs * (a * N) - (F (t0 + N * dayNs) - F t0)) / (N * dayNs) := by
    unfold meanOver; field_simp
  rw [e5, abs_div, abs_of_pos hNd, div_le_iff₀ hNd]
  refine Q.trans (le_of_eq ?_)
  ring

/-! ### Worked examples -/

/-- The square of the time, sampled in the middle of the months of two years. -/
noncomputable def sqT : Timed (DA (Fl ℝ)) where
  obj := ⟨[("time", 24)], fun e => fin (instant lineAx.cal (lineAx.stamps.getD (e "time") midMonths.default) ^ 2)⟩
  axes := [("time", lineAx)]

theorem square_smooth (lo hi : ℝ) : Smooth (fun t => t ^ 3 / 3) (fun t => t ^ 2) (fun t => 2 * t) (fun _ => 2) lo hi 2 where
  d1 t _ _ := (((hasDerivAt_id t).pow 3).div_const 3).congr_deriv (by simp)
  d2 t _ _ := ((hasDerivAt_id t).pow 2).congr_deriv (by simp)
  d3 t _ _ := ((hasDerivAt_id t).const_mul 2).congr_deriv (by simp)
  bound t _ _ := by rw [abs_of_pos (by norm_num)]

example : ∃ r t, annualAverage sqT "time" = .ok r ∧ r.axes.lookup "time" = some t ∧
    ∀ (k : Nat) (s : Stamp), t.stamps[k]? = some s → ∃ a, r.obj.get (Function.update (fun _ => 0) "time" k) = fin a ∧
      |a - meanOver (fun t => t ^ 3 / 3) (instant .day360 ⟨⟨s.date.year, 1, 1⟩, 0⟩) (yearLength .day360 s.date.year)|
        ≤ 2 / 24 * (31 * dayNs) ^ 2 := by
  obtain ⟨r, hr⟩ := (C38_twelve (x := sqT) (tc := "time") (ax := lineAx) (by simp [sqT]) lineAx_good.nonempty).1 (by decide)
  obtain ⟨t, ht, h⟩ := C160_annual (ax := lineAx) (F := fun t => t ^ 3 / 3) (f := fun t => t ^ 2) (f1 := fun t => 2 * t)
    (f2 := fun _ => 2) (M := 2) (e := fun _ => 0) (by simp [sqT]) lineAx_good lineAx_nodup lineAx_mid
    (fun _ => by simp [sqT]) hr ⟨lineAx, by simp [sqT], fun i s hs => by
      simp [sqT, List.getD_eq_getElem?_getD, hs]⟩
  exact ⟨r, t, hr, ht, fun k s hs => h k s hs _ rfl (square_smooth _ _)⟩

attribute [local irreducible] generateDailyTimeaxis

/-- Every noon of two years. -/
def noonAx (c : Calendar) : TimeAxis := ⟨c, (generateDailyTimeaxis 1979 2 c).map (fun s => ⟨s.date, 43200000000⟩)⟩

theorem noonAx_complete (c : Calendar) : CompleteDaily (noonAx c) := by
  have g := daily_complete c (y := 1979) (n := 2) (by norm_num) (by norm_num)
  refine ⟨⟨?_, ?_⟩, ?_, ?_⟩
  · have := g.nonempty
    simpa [noonAx] using this
  · intro s hs
    obtain ⟨s', h', rfl⟩ := List.mem_map.1 hs
    exact g.valid s' h'
  · have := g.once
    simpa [noonAx, List.map_map, Function.comp_def] using this
  · intro s hs d hd hy
    obtain ⟨s', h', rfl⟩ := List.mem_map.1 hs
    obtain ⟨s2, h2, rfl⟩ := g.all s' h' d hd hy
    exact ⟨_, List.mem_map.2 ⟨s2, h2, rfl⟩, rfl⟩

/-- The square of the time, sampled every noon of two years. -/
noncomputable def sqD (c : Calendar) : Timed (DA (Fl ℝ)) where
  obj := ⟨[("time", daysOfYears c 1979 2)],
    fun e => fin (instant c ((noonAx c).stamps.getD (e "time") midMonths.default) ^ 2)⟩
  axes := [("time", noonAx c)]

example (c : Calendar) : ∃ r t, monthlyAverage (sqD c) "time" = .ok r ∧ r.axes.lookup "time" = some t ∧
    ∀ (k : Nat) (s : Stamp), t.stamps[k]? = some s → ∃ a, r.obj.get (Function.update (fun _ => 0) "time" k) = fin a ∧
      |a - meanOver (fun t => t ^ 3 / 3) (instant c ⟨⟨s.date.year, s.date.month, 1⟩, 0⟩)
        (monthLength c s.date.year s.date.month)| ≤ 2 / 24 * dayNs ^ 2 := by
  have hx : (sqD c).axes.lookup "time" = some (noonAx c) := by simp [sqD]
  obtain ⟨r, -, hr, -⟩ := C39_daily hx (noonAx_complete c) (fun e => ⟨_, rfl⟩)
  obtain ⟨t, ht, h⟩ := C160_monthly (F := fun t => t ^ 3 / 3) (f := fun t => t ^ 2) (f1 := fun t => 2 * t)
    (f2 := fun _ => 2) (M := 2) (e := fun _ => 0) hx (noonAx_complete c)
    (fun s hs => by obtain ⟨s', -, rfl⟩ := List.mem_map.1 hs; rfl) (fun _ => by simp [sqD]) hr
    ⟨noonAx c, hx, fun i s hs => by
      show fin _ = fin _
      rw [Function.update_self, List.getD_eq_getElem?_getD, hs]
      rfl⟩
  exact ⟨r, t, hr, ht, fun k s hs => h k s hs _ rfl (square_smooth _ _)⟩

/-- The hypotheses of `C135_noon`: the line `2 t + 3` at every noon. -/
example (c : Calendar) : ∃ x r : Timed (DA (Fl ℚ)), monthlyAverage x "time" = .ok r ∧
    ∀ e, OnLine x "time" e 2 3 ∧ OnLine r "time" e 2 3 := by
  let x : Timed (DA (Fl ℚ)) := ⟨⟨[("time", daysOfYears c 1979 2)],
    fun e => fin (2 * position (.cftime (noonAx c)) (e "time") + 3)⟩, [("time", noonAx c)]⟩
  have hx : x.axes.lookup "time" = some (noonAx c) := by simp [x]
  obtain ⟨r, -, hr, -⟩ := C39_daily hx (noonAx_complete c) (fun e => ⟨_, rfl⟩)
  have hl : ∀ e, OnLine x "time" e 2 3 := fun e => ⟨noonAx c, hx, fun i _ => by simp [x]⟩
  exact ⟨x, r, hr, fun e => ⟨hl e, C135_noon hx (noonAx_complete c)
    (fun s hs => by obtain ⟨s', -, rfl⟩ := List.mem_map.1 hs; rfl) (fun _ => by simp [x]) hr (hl e)⟩⟩

end Momlevel.Props
