import Verif.Lemmas.TimeSeries
import Mathlib.Tactic.FinCases

/-! # C38: `annual_average` -/

set_option linter.unusedSectionVars false

namespace Momlevel.Props
open Momlevel Momlevel.Fl Momlevel.Spec

section C38
variable {K : Type} [Field K] [LinearOrder K] [IsStrictOrderedRing K]

/-- What the time axis must be: not empty, and every time a date of its calendar. -/
structure GoodAxis (ax : TimeAxis) : Prop where
  nonempty : ax.stamps ≠ []
  valid : ∀ s ∈ ax.stamps, s.date.Valid ax.cal

theorem axis_ok {A : Type} {x : Timed A} {tc : String} {ax : TimeAxis}
    (hx : x.axes.lookup tc = some ax) (hn : ax.stamps ≠ []) : x.axis tc = .ok ax := by
  unfold Timed.axis dictGet
  rw [hx]
  cases h : ax.stamps with
  | nil => exact absurd h hn
  | cons a l => simp only [ok_bind, h]; rfl

theorem all_twelve_iff (ax : TimeAxis) :
    (groupKeys ax.years).all (fun y => (groupPos ax.years y).length == 12) = true ↔
      ∀ s ∈ ax.stamps, (inYear ax.stamps s.date.year).card = 12 := by
  simp only [List.all_eq_true, mem_groupKeys, beq_iff_eq, ← card_posSet, posSet_years]
  simp only [TimeAxis.years, List.mem_map, forall_exists_index, and_imp, forall_apply_eq_imp_iff₂]

/-- The values of the per-year reduction. -/
theorem annualReduce_spec {x : DA (Fl K)} {ax : TimeAxis} (g : GoodAxis ax) (hF : ∀ e, FN (x.get e))
    (tc : String) (e : Env) {y : Nat} (hy : (groupKeys ax.years)[e "time"]? = some y) :
    IsWeightedMean (inYear ax.stamps y) (monthDays ax.cal ax.stamps)
      (fun i => x.get (Function.update e tc i)) ((annualReduce x ax tc).get e) := by
  have hk : (groupKeys ax.years).getD (e "time") 0 = y := by
    rw [List.getD_eq_getElem?_getD, hy]; rfl
  simp only [annualReduce, hk]
  have hz : (column x tc e (groupPos ax.years y)).zip (ax.sel (groupPos ax.years y)).daysInMonth
      = (groupPos ax.years y).map
        (fun i => (x.get (Function.update e tc i), monthDays ax.cal ax.stamps i)) := by
    simp only [column, TimeAxis.sel, TimeAxis.daysInMonth, List.map_map, List.zip_map']
    refine List.map_congr_left (fun i hi => ?_)
    simp only [Function.comp]
    rw [weight_eq g.valid (groupPos_years_lt hi)]
  rw [hz, ← posSet_years, ← toFinset_groupPos]
  refine weightedMean_spec (groupPos_nodup _ _) (fun i _ => hF _) (fun i hi => ?_)
  have hi' := groupPos_years_lt hi
  have := daysInMonth_pos ax.cal (ax.stamps.getD i midMonths.default).date.year
    (ax.stamps.getD i midMonths.default).date.month
  rw [weight_eq g.valid hi'] at this
  omega

/-- The result of `annual_average` on an array: one value per year that occurs, years increasing,
each value the average of that year's non-missing samples weighted by the lengths of their months,
on a new leading dimension `time` whose coordinate is the middle of each year. -/
theorem C38_value {x r : Timed (DA (Fl K))} {tc : String} {ax : TimeAxis}
    (hx : x.axes.lookup tc = some ax) (g : GoodAxis ax) (hF : ∀ e, FN (x.obj.get e))
    (hr : annualAverage x tc = .ok r) :
    ∃ ys : List Nat, ys.Pairwise (· < ·) ∧ (∀ y, y ∈ ys ↔ ∃ s ∈ ax.stamps, s.date.year = y) ∧
      r.obj.dims = ("time", ys.length) :: x.obj.dims.filter (fun p => p.1 != tc) ∧
      (∃ t : TimeAxis, r.axes = [("time", t)] ∧ t.cal = ax.cal ∧ t.stamps.length = ys.length ∧
        ∀ (k y : Nat) (s : Stamp), ys[k]? = some y → t.stamps[k]? = some s → IsMidYear ax.cal y s) ∧
      ∀ (e : Env) (y : Nat), ys[e "time"]? = some y →
        IsWeightedMean (inYear ax.stamps y) (monthDays ax.cal ax.stamps)
          (fun i => x.obj.get (Function.update e tc i)) (r.obj.get e) := by
  unfold annualAverage at hr
  rw [axis_ok hx g.nonempty, ok_bind] at hr
  unfold annualCheck at hr
  cases hb : (groupKeys ax.years).all (fun y => (groupPos ax.years y).length == 12) with
  | false => rw [hb] at hr; simp at hr
  | true =>
    rw [hb] at hr
    simp only [pyAssert_true, ok_bind] at hr
    obtain rfl : _ = r := Except.ok.inj hr
    refine ⟨groupKeys ax.years, groupKeys_lt _, fun y => ?_, rfl,
      ⟨_, rfl, rfl, by simp [annualAxis], ?_⟩, fun e y hy => annualReduce_spec g hF tc e hy⟩
    · simp [mem_groupKeys, TimeAxis.years]
    · intro k y s hy hs
      simp only [annualAxis, List.getElem?_map, hy, Option.map_some, Option.some.injEq] at hs
      subst hs
      refine midYear_spec _ ?_
      have := mem_groupKeys.1 (List.mem_of_getElem? hy)
      simp only [TimeAxis.years, List.mem_map] at this
      obtain ⟨s, hs, rfl⟩ := this
      exact (g.valid s hs).1

/-- `annual_average` succeeds exactly when every year that occurs has twelve samples; otherwise it
raises an AssertionError. -/
theorem C38_twelve {x : Timed (DA (Fl K))} {tc : String} {ax : TimeAxis}
    (hx : x.axes.lookup tc = some ax) (hn : ax.stamps ≠ []) :
    ((∀ s ∈ ax.stamps, (inYear ax.stamps s.date.year).card = 12) →
      ∃ r, annualAverage x tc = .ok r) ∧
    (¬ (∀ s ∈ ax.stamps, (inYear ax.stamps s.date.year).card = 12) →
      annualAverage x tc = .error .assertionError) := by
  unfold annualAverage annualCheck
  rw [axis_ok hx hn, ok_bind]
  constructor
  · intro h
    rw [(all_twelve_iff ax).2 h]
    exact ⟨_, rfl⟩
  · intro h
    have : (groupKeys ax.years).all (fun y => (groupPos ax.years y).length == 12) = false := by
      rw [← Bool.not_eq_true, all_twelve_iff]; exact h
    rw [this]; rfl

/-- Without the named time coordinate `annual_average` raises a KeyError, with an empty one an
IndexError. -/
theorem C38_no_axis (x : Timed (DA (Fl K))) (tc : String) :
    (x.axes.lookup tc = none → annualAverage x tc = .error .keyError) ∧
    (∀ ax, x.axes.lookup tc = some ax → ax.stamps = [] →
      annualAverage x tc = .error .indexError) := by
  constructor
  · intro h
    simp only [annualAverage, Timed.axis, dictGet, h, error_bind]
  · intro ax h h0
    simp only [annualAverage, Timed.axis, dictGet, h, h0, ok_bind, error_bind]

/-- A weighted mean lies between any bounds of the samples. -/
theorem weightedMean_bounds {S : Finset Nat} {w : Nat → Nat} {v : Nat → Fl K} {q lo hi : K}
    (hw : ∀ i ∈ S, 0 < w i) (h : IsWeightedMean S w v (fin q))
    (hb : ∀ i ∈ S, v i ≠ nan → ∃ a, v i = fin a ∧ lo ≤ a ∧ a ≤ hi) : lo ≤ q ∧ q ≤ hi := by
  rcases h with ⟨-, h⟩ | ⟨⟨j, hj, hvj⟩, q', h, hq⟩
  · exact absurd h (by simp)
  · obtain rfl : q = q' := by simpa using h
    have hpos : 0 < ∑ i ∈ present S v, (w i : K) := by
      refine Finset.sum_pos (fun i hi => ?_) ⟨j, Finset.mem_filter.2 ⟨hj, hvj⟩⟩
      exact_mod_cast hw i (Finset.mem_filter.1 hi).1
    have h1 : lo * ∑ i ∈ present S v, (w i : K) ≤ q * ∑ i ∈ present S v, (w i : K) := by
      rw [hq, Finset.mul_sum]
      refine Finset.sum_le_sum (fun i hi => ?_)
      obtain ⟨hi1, hi2⟩ := Finset.mem_filter.1 hi
      obtain ⟨a, ha, l, -⟩ := hb i hi1 hi2
      rw [ha, val0_fin, mul_comm]
      exact mul_le_mul_of_nonneg_left l (Nat.cast_nonneg _)
    have h2 : q * ∑ i ∈ present S v, (w i : K) ≤ hi * ∑ i ∈ present S v, (w i : K) := by
      rw [hq, Finset.mul_sum]
      refine Finset.sum_le_sum (fun i hi => ?_)
      obtain ⟨hi1, hi2⟩ := Finset.mem_filter.1 hi
      obtain ⟨a, ha, -, u⟩ := hb i hi1 hi2
      rw [ha, val0_fin, mul_comm _ (w i : K)]
      exact mul_le_mul_of_nonneg_left u (Nat.cast_nonneg _)
    exact ⟨le_of_mul_le_mul_right h1 hpos, le_of_mul_le_mul_right h2 hpos⟩

theorem monthDays_pos {ax : TimeAxis} (g : GoodAxis ax) {y i : Nat} (hi : i ∈ inYear ax.stamps y) :
    0 < monthDays ax.cal ax.stamps i := by
  have hi' : i < ax.stamps.length := by
    simpa using (Finset.mem_filter.1 hi).1
  have := daysInMonth_pos ax.cal (ax.stamps.getD i midMonths.default).date.year
    (ax.stamps.getD i midMonths.default).date.month
  rw [weight_eq g.valid hi'] at this
  omega

/-- Each annual value is missing exactly when the whole year is missing, and otherwise lies between any
bounds of that year's samples. -/
theorem C38_bounds {x r : Timed (DA (Fl K))} {tc : String} {ax : TimeAxis}
    (hx : x.axes.lookup tc = some ax) (g : GoodAxis ax) (hF : ∀ e, FN (x.obj.get e))
    (hr : annualAverage x tc = .ok r) {t : TimeAxis} (ht : r.axes = [("time", t)])
    {e : Env} {s : Stamp} (hs : t.stamps[e "time"]? = some s) :
    (r.obj.get e = nan ↔
      ∀ i ∈ inYear ax.stamps s.date.year, x.obj.get (Function.update e tc i) = nan) ∧
    ∀ lo hi : K, (∀ i ∈ inYear ax.stamps s.date.year, ∀ a,
        x.obj.get (Function.update e tc i) = fin a → lo ≤ a ∧ a ≤ hi) →
      r.obj.get e ≠ nan → ∃ q, r.obj.get e = fin q ∧ lo ≤ q ∧ q ≤ hi := by
  obtain ⟨ys, -, -, -, ⟨t', ht', -, hl, hmid⟩, hval⟩ := C38_value hx g hF hr
  obtain rfl : t = t' := by rw [ht] at ht'; simpa using ht'
  have hlt : e "time" < ys.length := by
    rw [← hl]; exact (List.getElem?_eq_some_iff.1 hs).1
  have hy : ys[e "time"]? = some ys[e "time"] := List.getElem?_eq_getElem hlt
  have hyear := (hmid _ _ _ hy hs).2.1
  have hm := hval e _ hy
  rw [← hyear] at hm
  constructor
  · rcases hm with ⟨h1, h2⟩ | ⟨⟨i, hi, h1⟩, q, h2, -⟩
    · exact ⟨fun _ => h1, fun _ => h2⟩
    · rw [h2]
      exact ⟨fun h => absurd h (by simp), fun h => absurd (h i hi) h1⟩
  · intro lo hi hb hne
    rcases hm with ⟨-, h2⟩ | ⟨h1, q, h2, h3⟩
    · exact absurd h2 hne
    · refine ⟨q, h2, weightedMean_bounds (fun i hi => monthDays_pos g hi) (Or.inr ⟨h1, q, rfl, h3⟩) ?_⟩
      intro i hi hvi
      rcases hF (Function.update e tc i) with h | ⟨a, h⟩
      · exact absurd h hvi
      · exact ⟨a, h, hb i hi a h⟩

/-- A year whose samples all have one value has that value as its annual average. -/
theorem C38_constant {x r : Timed (DA (Fl K))} {tc : String} {ax : TimeAxis}
    (hx : x.axes.lookup tc = some ax) (g : GoodAxis ax) (hF : ∀ e, FN (x.obj.get e))
    (hr : annualAverage x tc = .ok r) {t : TimeAxis} (ht : r.axes = [("time", t)])
    {e : Env} {s : Stamp} (hs : t.stamps[e "time"]? = some s) {a : K}
    (hc : ∀ i ∈ inYear ax.stamps s.date.year, x.obj.get (Function.update e tc i) = fin a)
    {j : Nat} (hj : j ∈ inYear ax.stamps s.date.year) :
    r.obj.get e = fin a := by
  obtain ⟨h1, h2⟩ := C38_bounds hx g hF hr ht hs
  have hne : r.obj.get e ≠ nan := by
    rw [Ne, h1]
    intro h
    have := h j hj
    rw [hc j hj] at this
    simp at this
  obtain ⟨q, hq, l, u⟩ := h2 a a (fun i hi b hb => by
    rw [hc i hi] at hb
    obtain rfl : a = b := by simpa using hb
    exact ⟨le_refl _, le_refl _⟩) hne
  rw [hq, le_antisymm u l]

/-- On a dataset every variable that is neither a coordinate nor non-numeric is averaged as the array
would be (names and order kept); a dataset without any such variable along time raises. -/
theorem C38_dataset (x : Timed (DS (Fl K))) (isObject : String → Bool) (tc : String) :
    (∀ r, annualAverageDS x isObject tc = .ok r →
      r.obj.vars.map Prod.fst = (x.obj.vars.map Prod.fst).filter
        (fun n => !(x.obj.dimNames.contains n || x.obj.coords.contains n || isObject n)) ∧
      ∀ n a, (n, a) ∈ r.obj.vars → ∃ b, (n, b) ∈ x.obj.vars ∧
        annualAverage ⟨b, x.axes⟩ tc = .ok ⟨a, r.axes⟩) ∧
    ((∀ p ∈ x.obj.vars, p.1 ∉ x.obj.dimNames → p.1 ∉ x.obj.coords → isObject p.1 = false →
        tc ∉ p.2.dimNames) → ∀ r, annualAverageDS x isObject tc ≠ .ok r) := by
  constructor
  · intro r hr
    unfold annualAverageDS at hr
    cases hax : x.axis tc with
    | error e => rw [hax] at hr; simp at hr
    | ok ax =>
      rw [hax, ok_bind] at hr
      unfold averagedVars at hr
      simp only at hr
      split at hr
      · rw [ok_bind] at hr
        cases hc : annualCheck ax with
        | error e => rw [hc] at hr; simp at hr
        | ok u =>
          rw [hc, ok_bind] at hr
          obtain rfl : _ = r := Except.ok.inj hr
          refine ⟨?_, ?_⟩
          · simp [List.filter_map, Function.comp_def]
          · intro n a ha
            simp only [List.mem_map, List.mem_filter, Prod.mk.injEq] at ha
            obtain ⟨p, ⟨hp, -⟩, rfl, rfl⟩ := ha
            refine ⟨p.2, hp, ?_⟩
            have h' : Timed.axis (⟨p.2, x.axes⟩ : Timed (DA (Fl K))) tc = .ok ax := hax
            simp only [annualAverage, h', ok_bind, hc]
            rfl
      · simp at hr
  · intro h r hr
    unfold annualAverageDS at hr
    cases hax : x.axis tc with
    | error e => rw [hax] at hr; simp at hr
    | ok ax =>
      rw [hax, ok_bind] at hr
      unfold averagedVars at hr
      simp only at hr
      split at hr
      · rename_i hany
        rw [List.any_eq_true] at hany
        obtain ⟨p, hp, ht⟩ := hany
        simp only [List.mem_filter, Bool.not_eq_true', Bool.or_eq_false_iff] at hp
        refine h p hp.1 (by simpa using hp.2.1.1) (by simpa using hp.2.1.2) hp.2.2 (by simpa using ht)
      · simp at hr

/-- A variable without the time dimension comes out of `annual_average` unchanged, repeated for every
year. -/
theorem C38_static {b : DA (Fl K)} {axes : List (String × TimeAxis)} {r : Timed (DA (Fl K))}
    {tc : String} {ax : TimeAxis} (hx : axes.lookup tc = some ax) (g : GoodAxis ax)
    (hF : ∀ e, FN (b.get e)) (hw : b.WF) (hb : tc ∉ b.dimNames)
    (hr : annualAverage ⟨b, axes⟩ tc = .ok r) {t : TimeAxis} (ht : r.axes = [("time", t)])
    {e : Env} (he : e "time" < t.stamps.length) : r.obj.get e = b.get e := by
  have hs : t.stamps[e "time"]? = some t.stamps[e "time"] := List.getElem?_eq_getElem he
  have hst : ∀ i, b.get (Function.update e tc i) = b.get e := fun i => hw _ _ (fun d hd => by
    rw [Function.update_of_ne]; rintro rfl; exact hb hd)
  obtain ⟨ys, -, hmem, -, ⟨t', ht', -, hl, hmid⟩, hval⟩ := C38_value hx g hF hr
  obtain rfl : t = t' := by rw [ht] at ht'; simpa using ht'
  have hlt : e "time" < ys.length := by rw [← hl]; exact he
  have hy : ys[e "time"]? = some ys[e "time"] := List.getElem?_eq_getElem hlt
  have hyear := (hmid _ _ _ hy hs).2.1
  obtain ⟨s, hs', hse⟩ := (hmem ys[e "time"]).1 (List.getElem_mem hlt)
  obtain ⟨j, hj, hje⟩ := List.getElem_of_mem hs'
  have hjm : j ∈ inYear ax.stamps t.stamps[e "time"].date.year := by
    simp only [inYear, Finset.mem_filter, Finset.mem_range]
    refine ⟨hj, ?_⟩
    rw [List.getElem?_eq_getElem hj, hje, Option.map_some, hse, ← hyear]
  rcases hF e with h | ⟨a, h⟩
  · rw [h]
    refine (C38_bounds hx g hF hr ht hs).1.2 (fun i _ => ?_)
    show b.get (Function.update e tc i) = nan
    rw [hst, h]
  · rw [h]
    refine C38_constant hx g hF hr ht hs (fun i _ => ?_) hjm
    show b.get (Function.update e tc i) = fin a
    rw [hst, h]

/-! #### A concrete series: the twelve months of 2004 in the Gregorian calendar -/

/-- The 15th of every month of 2004. -/
def exAxis : TimeAxis :=
  ⟨.prolepticGregorian, (List.range 12).map (fun k => ⟨⟨2004, k + 1, 15⟩, 0⟩)⟩

/-- Month `k` has the value `k`, except that the third month is missing. -/
def exMonthly : Timed (DA (Fl ℚ)) :=
  ⟨⟨[("time", 12)], fun e => if e "time" = 2 then nan else fin (e "time" : ℚ)⟩, [("time", exAxis)]⟩

theorem exAxis_good : GoodAxis exAxis := ⟨by decide, by decide⟩

theorem exMonthly_FN (e : Env) : FN (exMonthly.obj.get e) := by
  simp only [exMonthly]; split <;> simp

theorem exMonthly_ok : ∃ r, annualAverage exMonthly "time" = .ok r :=
  (C38_twelve (ax := exAxis) (tc := "time") rfl exAxis_good.nonempty).1 (by decide)

/-- The hypotheses of `C38_value` are met by the series above. -/
example : ∃ r, annualAverage exMonthly "time" = .ok r ∧
    r.obj.dims = [("time", 1)] ∧ r.obj.get (fun _ => 0) ≠ nan := by
  obtain ⟨r, hr⟩ := exMonthly_ok
  obtain ⟨ys, hp, hm, hd, -, hv⟩ := C38_value (ax := exAxis) rfl exAxis_good exMonthly_FN hr
  have hys : ys = [2004] := eq_of_pairwise_lt hp (by simp) (fun k => by
    rw [hm]
    constructor
    · rintro ⟨s, hs, rfl⟩
      have : ∀ s ∈ exAxis.stamps, s.date.year = 2004 := by decide
      simp [this s hs]
    · intro h
      rw [List.mem_singleton.1 h]
      exact ⟨exAxis.stamps[0]'(by decide), List.getElem_mem _, by decide⟩)
  subst hys
  refine ⟨r, hr, by rw [hd]; rfl, ?_⟩
  rcases hv (fun _ => 0) 2004 rfl with ⟨h, -⟩ | ⟨-, q, h, -⟩
  · exact absurd (h 0 (by decide)) (by simp [exMonthly])
  · rw [h]; simp

/-- A series with eleven samples in its only year is rejected. -/
example : annualAverage (⟨⟨[("time", 11)], fun _ => fin 1⟩,
    [("time", ⟨.noleap, exAxis.stamps.tail⟩)]⟩ : Timed (DA (Fl ℚ))) "time"
    = .error .assertionError :=
  (C38_twelve rfl (by decide)).2 (by decide)

/-- `C38_constant`: twelve months of 7 average to 7. -/
example : ∃ r t, annualAverage (⟨⟨[("time", 12)], fun _ => fin 7⟩, [("time", exAxis)]⟩ : Timed (DA (Fl ℚ))) "time"
      = .ok r ∧ r.axes = [("time", t)] ∧ ∀ e s, t.stamps[e "time"]? = some s → r.obj.get e = fin 7 := by
  obtain ⟨r, hr⟩ := (C38_twelve (x := (⟨⟨[("time", 12)], fun _ => fin 7⟩, [("time", exAxis)]⟩ : Timed (DA (Fl ℚ))))
    (ax := exAxis) (tc := "time") rfl exAxis_good.nonempty).1 (by decide)
  obtain ⟨ys, -, hm, -, ⟨t, ht, -, hl, hmid⟩, -⟩ := C38_value (ax := exAxis) rfl exAxis_good (fun _ => by simp) hr
  refine ⟨r, t, hr, ht, fun e s hs => ?_⟩
  have hlt : e "time" < ys.length := by
    rw [← hl]; exact (List.getElem?_eq_some_iff.1 hs).1
  have hy : ys[e "time"]? = some ys[e "time"] := List.getElem?_eq_getElem hlt
  obtain ⟨s', hs', h'⟩ := (hm _).1 (List.getElem_mem hlt)
  have h4 : s.date.year = 2004 := by
    rw [(hmid _ _ _ hy hs).2.1, ← h']
    have : ∀ s ∈ exAxis.stamps, s.date.year = 2004 := by decide
    exact this s' hs'
  exact C38_constant (ax := exAxis) (tc := "time") rfl exAxis_good (fun _ => by simp) hr ht hs (fun _ _ => rfl) (j := 0)
    (by rw [h4]; decide)

end C38

end Momlevel.Props
