import Verif.Props.CycleStats

/-! # C40: `annual_cycle` -/

set_option linter.unusedSectionVars false

namespace Momlevel.Props
open Momlevel Momlevel.Fl Momlevel.Spec

theorem cycleYear_none (ax : TimeAxis) : cycleYear ax none =
    (midpoint ax.cal (ax.stamps.headD midMonths.default)
      (ax.stamps.getLastD midMonths.default)).date.year := by
  rw [cycleYear, Option.getD_none]

theorem cycleYear_pos (ax : TimeAxis) {yr : Option Nat} (hyr : ∀ y, yr = some y → 1 ≤ y) :
    1 ≤ cycleYear ax yr := by
  cases yr with
  | some y => exact hyr y rfl
  | none =>
    rw [cycleYear_none]
    generalize ax.stamps.headD midMonths.default = a
    generalize ax.stamps.getLastD midMonths.default = b
    have h := midpoint_valid ax.cal a b
    generalize (midpoint ax.cal a b).date = d at h ⊢
    exact h.1

theorem ax_months_range {ax : TimeAxis} (g : GoodAxis ax) : ∀ m ∈ ax.months, 1 ≤ m ∧ m ≤ 12 := by
  intro m hm
  simp only [TimeAxis.months, List.mem_map] at hm
  obtain ⟨s, hs, rfl⟩ := hm
  have := g.valid s hs
  exact ⟨this.2.1, this.2.2.1⟩

/-- Every month has a sample. -/
def AllMonths (ax : TimeAxis) : Prop := ∀ m, 1 ≤ m → m ≤ 12 → ∃ s ∈ ax.stamps, s.date.month = m

theorem months_complete {ax : TimeAxis} (g : GoodAxis ax) :
    (groupKeys ax.months).length = 12 ↔ AllMonths ax := by
  rw [groupKeys_months_iff (ax_months_range g)]
  simp [AllMonths, TimeAxis.months]

/-- Inversion of a successful `annual_cycle`. -/
theorem annualCycle_ok {x r : Timed (DA (Fl ℝ))} {tc func : String} {yr : Option Nat} {ax : TimeAxis}
    (hx : x.axes.lookup tc = some ax) (g : GoodAxis ax) (hr : annualCycle x tc func yr = .ok r) :
    ∃ f, cycleFunc func = .ok f ∧ AllMonths ax ∧
      r.obj.dims = x.obj.dims.map (fun p => if p.1 = tc then (tc, 12) else p) ∧
      r.axes = [(tc, ⟨ax.cal, midMonths ax.cal (cycleYear ax yr)⟩)] ∧
      ∀ e : Env, e tc < 12 →
        r.obj.get e = f ((groupPos ax.months (e tc + 1)).map
          (fun i => x.obj.get (Function.update e tc i))) := by
  unfold annualCycle at hr
  rw [axis_ok hx g.nonempty, ok_bind] at hr
  cases hf : cycleFunc func with
  | error e => rw [hf] at hr; simp at hr
  | ok f =>
    rw [hf, ok_bind] at hr
    simp only at hr
    split at hr
    case isFalse => simp at hr
    case isTrue h12 =>
      obtain rfl : _ = r := Except.ok.inj hr
      rw [beq_iff_eq] at h12
      refine ⟨f, rfl, (months_complete g).1 h12, by simp only [h12], rfl, fun e he => ?_⟩
      have hk := (groupKeys_months (ax_months_range g)).1 h12
      have hm : (groupKeys ax.months).getD (e tc) 0 = e tc + 1 := by
        rw [hk, List.getD_eq_getElem?_getD, List.getElem?_range' he]
        simp; omega
      simp only [hm, column]

/-- `annual_cycle` with each supported statistic: the time dimension is replaced by twelve values, the
value for month `m` being the mean, minimum, maximum or standard deviation of the non-missing
samples that fall in month `m` of any year. -/
theorem C40_value {x r : Timed (DA (Fl ℝ))} {tc func : String} {yr : Option Nat} {ax : TimeAxis}
    (hx : x.axes.lookup tc = some ax) (g : GoodAxis ax) (hF : ∀ e, FN (x.obj.get e))
    (hr : annualCycle x tc func yr = .ok r) :
    r.obj.dims = x.obj.dims.map (fun p => if p.1 = tc then (tc, 12) else p) ∧
    ∀ e : Env, e tc < 12 →
      (func = "mean" → IsMean (inMonth ax.stamps (e tc + 1))
        (fun i => x.obj.get (Function.update e tc i)) (r.obj.get e)) ∧
      (func = "min" → IsMin (inMonth ax.stamps (e tc + 1))
        (fun i => x.obj.get (Function.update e tc i)) (r.obj.get e)) ∧
      (func = "max" → IsMax (inMonth ax.stamps (e tc + 1))
        (fun i => x.obj.get (Function.update e tc i)) (r.obj.get e)) ∧
      (func = "std" → IsStd (inMonth ax.stamps (e tc + 1))
        (fun i => x.obj.get (Function.update e tc i)) (r.obj.get e)) := by
  obtain ⟨f, hf, -, hd, -, hv⟩ := annualCycle_ok hx g hr
  refine ⟨hd, fun e he => ?_⟩
  rw [hv e he, ← posSet_months, ← toFinset_groupPos]
  have hn := groupPos_nodup ax.months (e tc + 1)
  refine ⟨?_, ?_, ?_, ?_⟩
  · rintro rfl
    obtain rfl : nanmean = f := by simpa [cycleFunc] using hf
    exact nanmean_spec hn (fun i _ => hF _)
  · rintro rfl
    obtain rfl : nanmin = f := by simpa [cycleFunc] using hf
    exact nanmin_spec (fun i _ => hF _)
  · rintro rfl
    obtain rfl : nanmax = f := by simpa [cycleFunc] using hf
    exact nanmax_spec (fun i _ => hF _)
  · rintro rfl
    obtain rfl : nanstd = f := by simpa [cycleFunc] using hf
    exact nanstd_spec hn (fun i _ => hF _)

/-- `annual_cycle` succeeds exactly for the four statistics and when every month has a sample; an
unknown `func` or a missing month raises a ValueError. -/
theorem C40_errors {x : Timed (DA (Fl ℝ))} {tc func : String} {yr : Option Nat} {ax : TimeAxis}
    (hx : x.axes.lookup tc = some ax) (g : GoodAxis ax) :
    (func ∈ ["mean", "min", "max", "std"] ∧
        (∀ m, 1 ≤ m → m ≤ 12 → ∃ s ∈ ax.stamps, s.date.month = m) →
      ∃ r, annualCycle x tc func yr = .ok r) ∧
    (¬ (func ∈ ["mean", "min", "max", "std"] ∧
        (∀ m, 1 ≤ m → m ≤ 12 → ∃ s ∈ ax.stamps, s.date.month = m)) →
      annualCycle x tc func yr = .error .valueError) := by
  have hfun : (func ∈ ["mean", "min", "max", "std"] → ∃ f, cycleFunc func = .ok f) ∧
      (func ∉ ["mean", "min", "max", "std"] → cycleFunc func = .error .valueError) := by
    constructor
    · intro h
      simp only [List.mem_cons, List.not_mem_nil, or_false] at h
      rcases h with rfl | rfl | rfl | rfl
      · exact ⟨_, rfl⟩
      · exact ⟨nanmin, by simp [cycleFunc]⟩
      · exact ⟨nanmax, by simp [cycleFunc]⟩
      · exact ⟨nanstd, by simp [cycleFunc]⟩
    · intro h
      simp only [List.mem_cons, List.not_mem_nil, or_false, not_or] at h
      simp [cycleFunc, h]
  unfold annualCycle
  rw [axis_ok hx g.nonempty, ok_bind]
  constructor
  · rintro ⟨h1, h2⟩
    obtain ⟨f, hf⟩ := hfun.1 h1
    have h12 : ((groupKeys ax.months).length == 12) = true := by
      rw [beq_iff_eq]; exact (months_complete g).2 h2
    rw [hf, ok_bind]
    simp only [h12, if_true]
    exact ⟨_, rfl⟩
  · intro h
    by_cases h1 : func ∈ ["mean", "min", "max", "std"]
    · obtain ⟨f, hf⟩ := hfun.1 h1
      have h12 : ((groupKeys ax.months).length == 12) = false := by
        rw [beq_eq_false_iff_ne, Ne, months_complete g]
        exact fun q => h ⟨h1, q⟩
      rw [hf, ok_bind]
      simp only [h12]
      rfl
    · rw [hfun.2 h1, error_bind]

/-- Without the time coordinate a KeyError, on an empty axis an IndexError, whatever the statistic. -/
theorem C40_no_axis (x : Timed (DA (Fl ℝ))) (tc func : String) (yr : Option Nat) :
    (x.axes.lookup tc = none → annualCycle x tc func yr = .error .keyError) ∧
    (∀ ax, x.axes.lookup tc = some ax → ax.stamps = [] →
      annualCycle x tc func yr = .error .indexError) := by
  constructor
  · intro h
    simp only [annualCycle, Timed.axis, dictGet, h, error_bind]
  · intro ax h h0
    simp only [annualCycle, Timed.axis, dictGet, h, h0, ok_bind, error_bind]

example : annualCycle ⟨⟨[("time", 0)], fun _ => fin 1⟩, [("time", ⟨.noleap, []⟩)]⟩ "time" "median"
    = .error .indexError := (C40_no_axis _ _ _ _).2 _ rfl rfl

/-- The time axis: the middle of every month of the requested year, or else of the year that contains
the middle of the first and the last time (up to half a microsecond). -/
theorem C40_axis {x r : Timed (DA (Fl ℝ))} {tc func : String} {yr : Option Nat} {ax : TimeAxis}
    (hx : x.axes.lookup tc = some ax) (g : GoodAxis ax)
    (hr : annualCycle x tc func yr = .ok r) (hyr : ∀ y, yr = some y → 1 ≤ y) :
    ∃ y t, r.axes = [(tc, t)] ∧ t.cal = ax.cal ∧ t.stamps.length = 12 ∧
      (∀ (k : Nat) (s : Stamp), t.stamps[k]? = some s → IsMidMonth ax.cal y (k + 1) s) ∧
      (∀ y', yr = some y' → y = y') ∧
      (yr = none → ∃ first last mid : Stamp, ax.stamps.head? = some first ∧
        ax.stamps.getLast? = some last ∧ mid.date.Valid ax.cal ∧ mid.date.year = y ∧
        2 * (elapsed ax.cal mid : Int) ≤ elapsed ax.cal first + elapsed ax.cal last + 1 ∧
        (elapsed ax.cal first + elapsed ax.cal last : Int) - 1 ≤ 2 * elapsed ax.cal mid) := by
  obtain ⟨f, -, -, -, hax, -⟩ := annualCycle_ok hx g hr
  have hy : 1 ≤ cycleYear ax yr := cycleYear_pos ax hyr
  refine ⟨cycleYear ax yr, _, hax, rfl, midMonths_length _ _, ?_, ?_, ?_⟩
  · intro k s hs
    have hk : k < 12 := by
      have := (List.getElem?_eq_some_iff.1 hs).1
      simpa [midMonths_length] using this
    obtain ⟨s', h1, h2⟩ := midMonths_spec ax.cal hy hk
    simp only at hs
    rw [hs, Option.some.injEq] at h1
    rw [h1]; exact h2
  · rintro y' rfl
    rfl
  · rintro rfl
    obtain ⟨s0, l, hl⟩ := List.exists_cons_of_ne_nil g.nonempty
    have hlast : ax.stamps.getLast? = some (ax.stamps.getLast g.nonempty) :=
      List.getLast?_eq_some_getLast g.nonempty
    have e1 : ax.stamps.headD midMonths.default = s0 := by rw [hl]; rfl
    have e2 : ax.stamps.getLastD midMonths.default = ax.stamps.getLast g.nonempty := by
      rw [List.getLastD_eq_getLast?, hlast]; rfl
    have v0 : s0.date.Valid ax.cal := g.valid s0 (by rw [hl]; simp)
    have v1 := g.valid _ (List.getLast_mem g.nonempty)
    refine ⟨s0, ax.stamps.getLast g.nonempty, midpoint ax.cal s0 (ax.stamps.getLast g.nonempty),
      by rw [hl]; rfl, hlast, midpoint_valid _ _ _, ?_, ?_⟩
    · rw [cycleYear_none, e1, e2]
    · have h0 := midpoint_toUs ax.cal s0 (ax.stamps.getLast g.nonempty)
      have h1 := halfTimedelta_bounds ((ax.stamps.getLast g.nonempty).toUs ax.cal - s0.toUs ax.cal)
      rw [toUs_elapsed (midpoint_valid _ _ _)] at h0
      rw [toUs_elapsed v0, toUs_elapsed v1] at h0 h1
      have gen : ∀ A B H M : Int, M = A + H → B - A - 1 ≤ 2 * H ∧ 2 * H ≤ B - A + 1 →
          2 * M ≤ A + B + 1 ∧ A + B - 1 ≤ 2 * M := by
        intro A B H M h1 h2
        omega
      exact gen _ _ _ _ h0 h1

/-- For the same input, minimum ≤ mean ≤ maximum in every month with a sample, the standard deviation
is not negative, and it is zero exactly when the month's samples are all equal. -/
theorem C40_order {x rmin rmean rmax rstd : Timed (DA (Fl ℝ))} {tc : String} {yr : Option Nat}
    {ax : TimeAxis} (hx : x.axes.lookup tc = some ax) (g : GoodAxis ax) (hF : ∀ e, FN (x.obj.get e))
    (h1 : annualCycle x tc "min" yr = .ok rmin) (h2 : annualCycle x tc "mean" yr = .ok rmean)
    (h3 : annualCycle x tc "max" yr = .ok rmax) (h4 : annualCycle x tc "std" yr = .ok rstd)
    {e : Env} (he : e tc < 12)
    (hs : ∃ i ∈ inMonth ax.stamps (e tc + 1), x.obj.get (Function.update e tc i) ≠ nan) :
    ∃ a b c s, rmin.obj.get e = fin a ∧ rmean.obj.get e = fin b ∧ rmax.obj.get e = fin c ∧
      rstd.obj.get e = fin s ∧ a ≤ b ∧ b ≤ c ∧ 0 ≤ s ∧
      (s = 0 ↔ ∀ i ∈ inMonth ax.stamps (e tc + 1), ∀ j ∈ inMonth ax.stamps (e tc + 1),
        x.obj.get (Function.update e tc i) ≠ nan → x.obj.get (Function.update e tc j) ≠ nan →
          x.obj.get (Function.update e tc i) = x.obj.get (Function.update e tc j)) := by
  have m1 := ((C40_value hx g hF h1).2 e he).2.1 rfl
  have m2 := ((C40_value hx g hF h2).2 e he).1 rfl
  have m3 := ((C40_value hx g hF h3).2 e he).2.2.1 rfl
  have m4 := ((C40_value hx g hF h4).2 e he).2.2.2 rfl
  obtain ⟨i, hi, hv⟩ := hs
  have f1 : ∃ a, rmin.obj.get e = fin a := by
    rcases m1 with ⟨h, -⟩ | ⟨q, h, -⟩
    · exact absurd (h i hi) hv
    · exact ⟨q, h⟩
  have f2 : ∃ a, rmean.obj.get e = fin a := by
    rcases m2 with ⟨h, -⟩ | ⟨-, q, h, -⟩
    · exact absurd (h i hi) hv
    · exact ⟨q, h⟩
  have f3 : ∃ a, rmax.obj.get e = fin a := by
    rcases m3 with ⟨h, -⟩ | ⟨q, h, -⟩
    · exact absurd (h i hi) hv
    · exact ⟨q, h⟩
  have f4 : ∃ a, rstd.obj.get e = fin a := by
    rcases m4 with ⟨h, -⟩ | ⟨-, s, -, h, -⟩
    · exact absurd (h i hi) hv
    · exact ⟨s, h⟩
  obtain ⟨a, ha⟩ := f1
  obtain ⟨b, hb⟩ := f2
  obtain ⟨c, hc⟩ := f3
  obtain ⟨s, hs⟩ := f4
  rw [ha] at m1
  rw [hb] at m2
  rw [hc] at m3
  rw [hs] at m4
  have o1 := min_le_mean_le_max m1 m2 m3 (fun i _ => hF _)
  have o2 := std_zero_iff m4 (fun i _ => hF _)
  exact ⟨a, b, c, s, ha, hb, hc, hs, o1.1, o1.2, o2.1, o2.2⟩

/-- The mean of a single sample is the sample. -/
theorem mean_singleton {v : Nat → Fl ℝ} {k : Nat} {r : Fl ℝ} (hv : FN (v k)) (h : IsMean {k} v r) :
    r = v k := by
  rcases hv with hv | ⟨a, hv⟩
  · rcases h with ⟨-, h⟩ | ⟨⟨i, hi, h⟩, -⟩
    · rw [h, hv]
    · rw [Finset.mem_singleton] at hi
      subst hi
      exact absurd hv h
  · rcases h with ⟨h, -⟩ | ⟨-, q, h, hq⟩
    · have := h k (by simp)
      rw [hv] at this
      simp at this
    · have : present {k} v = {k} := by
        rw [present, Finset.filter_singleton, if_pos (by rw [hv]; simp)]
      rw [this] at hq
      simp only [Finset.card_singleton, Nat.cast_one, mul_one, Finset.sum_singleton, hv,
        val0_fin] at hq
      rw [h, hq, hv]

theorem annualCycle_mean_FN {x r : Timed (DA (Fl ℝ))} {tc : String} {yr : Option Nat}
    (hF : ∀ e, FN (x.obj.get e)) (hr : annualCycle x tc "mean" yr = .ok r) (e : Env) :
    FN (r.obj.get e) := by
  unfold annualCycle at hr
  cases hax : x.axis tc with
  | error e => rw [hax] at hr; simp at hr
  | ok ax =>
    rw [hax, ok_bind, show cycleFunc "mean" = .ok nanmean from rfl, ok_bind] at hr
    simp only at hr
    split at hr
    · obtain rfl : _ = r := Except.ok.inj hr
      refine nanmean_FN (fun v hv => ?_)
      simp only [column, List.mem_map] at hv
      obtain ⟨i, -, rfl⟩ := hv
      exact hF _
    · simp at hr

/-- The mean climatology of a mean climatology is itself: same dimensions, same time axis, same
values. -/
theorem C40_idempotent {x r : Timed (DA (Fl ℝ))} {tc : String} {yr : Option Nat} {ax : TimeAxis}
    (hx : x.axes.lookup tc = some ax) (g : GoodAxis ax) (hF : ∀ e, FN (x.obj.get e))
    (hr : annualCycle x tc "mean" yr = .ok r) (hyr : ∀ y, yr = some y → 1 ≤ y) :
    ∃ r', annualCycle r tc "mean" yr = .ok r' ∧ r'.obj.dims = r.obj.dims ∧ r'.axes = r.axes ∧
      ∀ e : Env, e tc < 12 → r'.obj.get e = r.obj.get e := by
  obtain ⟨f, -, -, hd, hax, -⟩ := annualCycle_ok hx g hr
  have hy : 1 ≤ cycleYear ax yr := cycleYear_pos ax hyr
  generalize hY : cycleYear ax yr = Y at hax hy
  have hx1 : r.axes.lookup tc = some ⟨ax.cal, midMonths ax.cal Y⟩ := by rw [hax]; simp
  have hspec : ∀ (k : Nat) (h : k < (midMonths ax.cal Y).length),
      k < 12 ∧ IsMidMonth ax.cal Y (k + 1) (midMonths ax.cal Y)[k] := by
    intro k h
    have hk : k < 12 := by rw [midMonths_length] at h; exact h
    obtain ⟨s', h1, h2⟩ := midMonths_spec ax.cal hy hk
    rw [List.getElem?_eq_getElem h, Option.some.injEq] at h1
    rw [h1]
    exact ⟨hk, h2⟩
  have g1 : GoodAxis ⟨ax.cal, midMonths ax.cal Y⟩ := by
    refine ⟨fun h => ?_, fun s hs => ?_⟩
    · have := midMonths_length ax.cal Y
      simp only at h
      rw [h] at this
      simp at this
    · obtain ⟨k, hk, rfl⟩ := List.getElem_of_mem hs
      exact (hspec k hk).2.1
  have hlen := midMonths_length ax.cal Y
  obtain ⟨r', hr'⟩ := (C40_errors (x := r) (func := "mean") (yr := yr) hx1 g1).1
    ⟨by decide, fun m h1 h2 => by
      have hk : m - 1 < (midMonths ax.cal Y).length := by omega
      refine ⟨(midMonths ax.cal Y)[m - 1], List.getElem_mem _, ?_⟩
      rw [(hspec (m - 1) hk).2.2.2.1]
      omega⟩
  obtain ⟨f', -, -, hd', hax', -⟩ := annualCycle_ok hx1 g1 hr'
  have hF1 := annualCycle_mean_FN hF hr
  refine ⟨r', hr', ?_, ?_, ?_⟩
  · rw [hd', hd, List.map_map]
    refine List.map_congr_left (fun p _ => ?_)
    by_cases h : p.1 = tc <;> simp [h]
  · have : cycleYear ⟨ax.cal, midMonths ax.cal Y⟩ yr = Y := by
      cases yr with
      | some y =>
        rw [cycleYear, Option.getD_some] at hY ⊢
        exact hY
      | none =>
        have h0 : 0 < (midMonths ax.cal Y).length := by omega
        have h11 : 11 < (midMonths ax.cal Y).length := by omega
        have e1 : (midMonths ax.cal Y).headD midMonths.default = (midMonths ax.cal Y)[0] := by
          rw [List.headD_eq_head?_getD, List.head?_eq_getElem?, List.getElem?_eq_getElem h0]; rfl
        have e2 : (midMonths ax.cal Y).getLastD midMonths.default = (midMonths ax.cal Y)[11] := by
          rw [List.getLastD_eq_getLast?, List.getLast?_eq_getElem?, hlen,
            List.getElem?_eq_getElem h11]; rfl
        obtain ⟨-, a1, a2, -, a4, -⟩ := hspec 0 h0
        obtain ⟨-, b1, b2, -, b4, -⟩ := hspec 11 h11
        rw [cycleYear_none]
        simp only [e1, e2]
        exact midpoint_year a1 b1 a2 b2 a4 b4
    rw [hax', this, hax]
  · intro e he
    have hm := ((C40_value hx1 g1 hF1 hr').2 e he).1 rfl
    have hI : inMonth (midMonths ax.cal Y) (e tc + 1) = {e tc} := by
      ext j
      simp only [inMonth, Finset.mem_filter, Finset.mem_range, Finset.mem_singleton]
      constructor
      · rintro ⟨hj, h⟩
        rw [List.getElem?_eq_getElem hj, Option.map_some, Option.some.injEq,
          (hspec j hj).2.2.2.1] at h
        omega
      · rintro rfl
        have hj : e tc < (midMonths ax.cal Y).length := by omega
        refine ⟨hj, ?_⟩
        rw [List.getElem?_eq_getElem hj, Option.map_some, (hspec _ hj).2.2.2.1]
    simp only [hI] at hm
    have := mean_singleton (hF1 _) hm
    rw [this, Function.update_eq_self]

/-! #### A concrete series -/

/-- Two samples in January (one of them missing in one column), one in every other month. -/
noncomputable def exCycle : Timed (DA (Fl ℝ)) :=
  ⟨⟨[("time", 13)], fun e => if e "time" = 3 then nan else fin (e "time" : ℝ)⟩,
   [("time", ⟨.noleap, (List.range 13).map (fun k => ⟨⟨2001 + k / 12, k % 12 + 1, 10⟩, 0⟩)⟩)]⟩

theorem exCycle_good :
    GoodAxis ⟨.noleap, (List.range 13).map (fun k => ⟨⟨2001 + k / 12, k % 12 + 1, 10⟩, 0⟩)⟩ :=
  ⟨by decide, by decide⟩

theorem exCycle_FN (e : Env) : FN (exCycle.obj.get e) := by
  simp only [exCycle]; split <;> simp

theorem exCycle_ok (func : String) (h : func ∈ ["mean", "min", "max", "std"]) :
    ∃ r, annualCycle exCycle "time" func none = .ok r :=
  (C40_errors (x := exCycle) rfl exCycle_good).1 ⟨h, fun m h1 h2 => by
    refine ⟨⟨⟨2001 + (m - 1) / 12, (m - 1) % 12 + 1, 10⟩, 0⟩,
      List.mem_map_of_mem (List.mem_range.2 (by omega)), ?_⟩
    show (m - 1) % 12 + 1 = m
    omega⟩

/-- The hypotheses of `C40_value`, `C40_axis`, `C40_order` and `C40_idempotent` are met: January has the
two samples 0 and 12. -/
example : ∃ a b c d, annualCycle exCycle "time" "min" none = .ok a ∧
    annualCycle exCycle "time" "mean" none = .ok b ∧ annualCycle exCycle "time" "max" none = .ok c ∧
    annualCycle exCycle "time" "std" none = .ok d ∧
    ∃ i ∈ inMonth ((List.range 13).map
        (fun k => (⟨⟨2001 + k / 12, k % 12 + 1, 10⟩, 0⟩ : Stamp))) 1,
      exCycle.obj.get (Function.update (fun _ => 0) "time" i) ≠ nan := by
  obtain ⟨a, ha⟩ := exCycle_ok "min" (by decide)
  obtain ⟨b, hb⟩ := exCycle_ok "mean" (by decide)
  obtain ⟨c, hc⟩ := exCycle_ok "max" (by decide)
  obtain ⟨d, hd⟩ := exCycle_ok "std" (by decide)
  exact ⟨a, b, c, d, ha, hb, hc, hd, 12, by decide, by simp [exCycle]⟩

/-- The misspelt statistic `average` is rejected. -/
example : annualCycle exCycle "time" "average" none = .error .valueError :=
  (C40_errors (x := exCycle) rfl exCycle_good).2 (fun h => absurd h.1 (by decide))

end Momlevel.Props
