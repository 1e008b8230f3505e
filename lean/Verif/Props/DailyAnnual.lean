import Verif.Props.Monthly

/-! # C39: monthly then annual averaging of complete daily data -/

set_option linter.unusedSectionVars false

namespace Momlevel.Props
open Momlevel Momlevel.Fl Momlevel.Spec

/-- One sample per day, and every year that occurs has all of its days. -/
structure CompleteDaily (ax : TimeAxis) : Prop extends GoodAxis ax where
  once : (ax.stamps.map (fun s => s.date)).Nodup
  all : ∀ s ∈ ax.stamps, ∀ d : Date, d.Valid ax.cal → d.year = s.date.year →
    ∃ s' ∈ ax.stamps, s'.date = d

theorem mem_inYearMonth {stamps : List Stamp} {y m i : Nat} :
    i ∈ inYearMonth stamps y m ↔ ∃ h : i < stamps.length,
      stamps[i].date.year = y ∧ stamps[i].date.month = m := by
  simp only [inYearMonth, Finset.mem_filter, Finset.mem_range]
  constructor
  · rintro ⟨h, h1⟩
    refine ⟨h, ?_⟩
    simpa [List.getElem?_eq_getElem h] using h1
  · rintro ⟨h, h1⟩
    refine ⟨h, ?_⟩
    simpa [List.getElem?_eq_getElem h] using h1

theorem mem_inYear {stamps : List Stamp} {y i : Nat} :
    i ∈ inYear stamps y ↔ ∃ h : i < stamps.length, stamps[i].date.year = y := by
  simp only [inYear, Finset.mem_filter, Finset.mem_range]
  constructor
  · rintro ⟨h, h1⟩
    refine ⟨h, ?_⟩
    simpa [List.getElem?_eq_getElem h] using h1
  · rintro ⟨h, h1⟩
    refine ⟨h, ?_⟩
    simpa [List.getElem?_eq_getElem h] using h1

/-- A complete year has as many samples in a month as the month has days. -/
theorem card_inYearMonth {ax : TimeAxis} (g : CompleteDaily ax) {s : Stamp} (hs : s ∈ ax.stamps)
    {m : Nat} (h1 : 1 ≤ m) (h2 : m ≤ 12) :
    (inYearMonth ax.stamps s.date.year m).card = monthLength ax.cal s.date.year m := by
  rw [← daysInMonth_eq _ _ h1 h2, ← Finset.card_range (daysInMonth ax.cal s.date.year m)]
  refine Finset.card_bij (fun i _ => (ax.stamps.getD i midMonths.default).date.day - 1) ?_ ?_ ?_
  · intro i hi
    obtain ⟨hl, hy, hm⟩ := mem_inYearMonth.1 hi
    have hv := g.valid _ (List.getElem_mem hl)
    obtain ⟨-, -, -, v4, v5⟩ := hv
    rw [hy, hm] at v5
    simp only [List.getD_eq_getElem?_getD, List.getElem?_eq_getElem hl, Option.getD_some,
      Finset.mem_range]
    omega
  · intro i hi j hj he
    obtain ⟨hl, hy, hm⟩ := mem_inYearMonth.1 hi
    obtain ⟨hl', hy', hm'⟩ := mem_inYearMonth.1 hj
    have hv := (g.valid _ (List.getElem_mem hl)).2.2.2.1
    have hv' := (g.valid _ (List.getElem_mem hl')).2.2.2.1
    simp only [List.getD_eq_getElem?_getD, List.getElem?_eq_getElem hl,
      List.getElem?_eq_getElem hl', Option.getD_some] at he
    have hd : ax.stamps[i].date = ax.stamps[j].date := by
      have : ax.stamps[i].date.day = ax.stamps[j].date.day := by omega
      calc ax.stamps[i].date = ⟨ax.stamps[i].date.year, ax.stamps[i].date.month, ax.stamps[i].date.day⟩ := rfl
        _ = ax.stamps[j].date := by rw [hy, hm, this, ← hy', ← hm']
    have hi' : i < (ax.stamps.map (fun s => s.date)).length := by simpa using hl
    have hj' : j < (ax.stamps.map (fun s => s.date)).length := by simpa using hl'
    exact (g.once.getElem_inj_iff (hi := hi') (hj := hj')).1 (by simpa using hd)
  · intro k hk
    rw [Finset.mem_range] at hk
    obtain ⟨s', hs', hd⟩ := g.all s hs ⟨s.date.year, m, k + 1⟩
      ⟨(g.valid s hs).1, h1, h2, by simp, hk⟩ rfl
    obtain ⟨i, hi, rfl⟩ := List.getElem_of_mem hs'
    refine ⟨i, mem_inYearMonth.2 ⟨hi, by rw [hd], by rw [hd]⟩, ?_⟩
    simp [List.getD_eq_getElem?_getD, List.getElem?_eq_getElem hi, hd]

/-- A year is the disjoint union of its months. -/
theorem sum_inYear {M : Type*} [AddCommMonoid M] {ax : TimeAxis} (g : GoodAxis ax) (y : Nat)
    (f : Nat → M) : ∑ i ∈ inYear ax.stamps y, f i
      = ∑ m ∈ Finset.range 12, ∑ i ∈ inYearMonth ax.stamps y (m + 1), f i := by
  rw [← Finset.sum_fiberwise_of_maps_to (s := inYear ax.stamps y) (t := Finset.range 12)
    (g := fun i => (ax.stamps.getD i midMonths.default).date.month - 1)]
  · refine Finset.sum_congr rfl (fun m hm => Finset.sum_congr ?_ (fun _ _ => rfl))
    ext i
    rw [Finset.mem_filter, mem_inYear, mem_inYearMonth]
    constructor
    · rintro ⟨⟨h, hy⟩, hm'⟩
      have hv := (g.valid _ (List.getElem_mem h)).2.1
      simp only [List.getD_eq_getElem?_getD, List.getElem?_eq_getElem h, Option.getD_some] at hm'
      exact ⟨h, hy, by omega⟩
    · rintro ⟨h, hy, hm'⟩
      refine ⟨⟨h, hy⟩, ?_⟩
      simp [List.getD_eq_getElem?_getD, List.getElem?_eq_getElem h, hm']
  · intro i hi
    obtain ⟨h, hy⟩ := mem_inYear.1 hi
    have hv := (g.valid _ (List.getElem_mem h)).2.2.1
    have hv' := (g.valid _ (List.getElem_mem h)).2.1
    simp only [List.getD_eq_getElem?_getD, List.getElem?_eq_getElem h, Option.getD_some,
      Finset.mem_range]
    omega

theorem sum_monthLength (c : Calendar) (y : Nat) :
    ∑ m ∈ Finset.range 12, monthLength c y (m + 1) = yearLength c y := by
  rw [← daysInYear_eq, daysInYear, Fl.sum_map_range]
  refine Finset.sum_congr rfl (fun m hm => ?_)
  have := Finset.mem_range.1 hm
  exact (daysInMonth_eq c y (by omega) (by omega)).symm

section C39
variable {K : Type} [Field K] [LinearOrder K] [IsStrictOrderedRing K]

theorem nanmean_FN {l : List (Fl K)} (h : ∀ v ∈ l, FN v) : FN (nanmean l) := by
  have e : l = (List.range l.length).map (fun i => l.getD i nan) := by
    refine List.ext_getElem (by simp) (fun i h1 h2 => ?_)
    simp [h1]
  rw [e]
  rcases nanmean_spec (v := fun i => l.getD i nan) (List.nodup_range (n := l.length)) (fun i hi => by
    rw [List.getD_eq_getElem?_getD, List.getElem?_eq_getElem (List.mem_range.1 hi)]
    exact h _ (List.getElem_mem _)) with ⟨-, h⟩ | ⟨-, q, h, -⟩
  · rw [h]; simp
  · rw [h]; simp

theorem monthly_FN {x r : Timed (DA (Fl K))} {tc : String} (hF : ∀ e, FN (x.obj.get e))
    (hr : monthlyAverage x tc = .ok r) (e : Env) : FN (r.obj.get e) := by
  unfold monthlyAverage at hr
  cases hax : x.axis tc with
  | error e => rw [hax] at hr; simp at hr
  | ok ax =>
    rw [hax, ok_bind] at hr
    simp only at hr
    split at hr
    · obtain rfl : _ = r := Except.ok.inj hr
      refine nanmean_FN (fun v hv => ?_)
      simp only [column, List.mem_map] at hv
      obtain ⟨i, -, rfl⟩ := hv
      exact hF _
    · simp at hr

/-- The samples of a year in the monthly averages are that year's twelve months. -/
theorem inYear_monthly {c : Calendar} {ys : List Nat} (hys : ys.Pairwise (· < ·)) {t : List Stamp}
    (hl : t.length = 12 * ys.length)
    (hmid : ∀ (k y : Nat) (s : Stamp), ys[k / 12]? = some y → t[k]? = some s →
      IsMidMonth c y (k % 12 + 1) s) {k y : Nat} (hk : ys[k]? = some y) :
    inYear t y = (Finset.range 12).image (fun m => 12 * k + m) := by
  have hkl : k < ys.length := (List.getElem?_eq_some_iff.1 hk).1
  ext j
  rw [mem_inYear, Finset.mem_image]
  have hnd : ys.Nodup := hys.imp (fun h => ne_of_lt h)
  constructor
  · rintro ⟨h, hy⟩
    have hj : j / 12 < ys.length := by omega
    have := (hmid j _ _ (List.getElem?_eq_getElem hj) (List.getElem?_eq_getElem h)).2.1
    have hyk : ys[k] = y := (List.getElem?_eq_some_iff.1 hk).2
    have : j / 12 = k := (hnd.getElem_inj_iff (hi := hj) (hj := hkl)).1 (by rw [← this, hy, hyk])
    exact ⟨j % 12, by simp; omega, by omega⟩
  · rintro ⟨m, hm, rfl⟩
    have hm' := Finset.mem_range.1 hm
    have h : 12 * k + m < t.length := by omega
    have hd : (12 * k + m) / 12 = k := by omega
    refine ⟨h, ?_⟩
    exact (hmid _ y _ (by rw [hd]; exact hk) (List.getElem?_eq_getElem h)).2.1

/-- For complete daily data without gaps, on any calendar and for any set of years, averaging first by
month and then by year gives for each year the arithmetic mean of all its days. -/
theorem C39_daily {x : Timed (DA (Fl K))} {tc : String} {ax : TimeAxis}
    (hx : x.axes.lookup tc = some ax) (g : CompleteDaily ax) (hfin : ∀ e, ∃ a, x.obj.get e = fin a) :
    ∃ r1 r2, monthlyAverage x tc = .ok r1 ∧ annualAverage r1 tc = .ok r2 ∧
    ∃ ys : List Nat, ys.Pairwise (· < ·) ∧ (∀ y, y ∈ ys ↔ ∃ s ∈ ax.stamps, s.date.year = y) ∧
      r2.obj.dims = ("time", ys.length) :: x.obj.dims.filter (fun p => p.1 != tc) ∧
      ∀ (e : Env) (y : Nat), ys[e "time"]? = some y →
        (inYear ax.stamps y).card = yearLength ax.cal y ∧
        ∃ q : K, r2.obj.get e = fin q ∧
          q * (yearLength ax.cal y : K)
            = ∑ i ∈ inYear ax.stamps y, val0 (x.obj.get (Function.update e tc i)) := by
  have hF : ∀ e, FN (x.obj.get e) := fun e => Or.inr (hfin e)
  have gx := g.toGoodAxis
  obtain ⟨r1, hr1⟩ := (C41_complete (x := x) (tc := tc) hx gx).1 (fun s hs m h1 h2 => by
    have hp := daysInMonth_pos ax.cal s.date.year m
    obtain ⟨s', hs', hd⟩ := g.all s hs ⟨s.date.year, m, 1⟩
      (Date.valid_first ax.cal (g.valid s hs).1 h1 h2) rfl
    exact ⟨s', hs', by rw [hd], by rw [hd]⟩)
  obtain ⟨ys, hys, hmem, hd1, ⟨t, ht, htc, htl, hmid⟩, hval⟩ := C41_value hx gx hF hr1
  have hx1 : r1.axes.lookup tc = some t := by rw [ht]; simp
  have hne : ys ≠ [] := by
    intro h
    obtain ⟨s, hs⟩ := List.exists_mem_of_ne_nil _ g.nonempty
    have := (hmem s.date.year).2 ⟨s, hs, rfl⟩
    rw [h] at this
    simp at this
  have hylen : 0 < ys.length := List.length_pos_iff.2 hne
  have hmidx : ∀ (k : Nat) (h : k < t.stamps.length), ∃ y ∈ ys, ys[k / 12]? = some y ∧
      IsMidMonth ax.cal y (k % 12 + 1) t.stamps[k] := by
    intro k h
    have hk : k / 12 < ys.length := by omega
    exact ⟨ys[k / 12], List.getElem_mem _, List.getElem?_eq_getElem hk,
      hmid k _ _ (List.getElem?_eq_getElem hk) (List.getElem?_eq_getElem h)⟩
  have g1 : GoodAxis t := by
    refine ⟨fun h => ?_, fun s hs => ?_⟩
    · rw [h, List.length_nil] at htl; omega
    · obtain ⟨k, hk, rfl⟩ := List.getElem_of_mem hs
      obtain ⟨y, -, -, hm⟩ := hmidx k hk
      rw [htc]; exact hm.1
  obtain ⟨r2, hr2⟩ := (C38_twelve (x := r1) (tc := tc) hx1 g1.nonempty).1 (fun s hs => by
    obtain ⟨k, hk, rfl⟩ := List.getElem_of_mem hs
    obtain ⟨y, -, hy, hm⟩ := hmidx k hk
    rw [hm.2.1, inYear_monthly hys htl hmid hy, Finset.card_image_of_injective _ (fun a b h => by
      simpa using h), Finset.card_range])
  have hF1 := monthly_FN hF hr1
  obtain ⟨ys2, hys2, hmem2, hd2, -, hval2⟩ := C38_value hx1 g1 hF1 hr2
  have hyy : ys2 = ys := by
    refine eq_of_pairwise_lt hys2 hys (fun y => ?_)
    rw [hmem2]
    constructor
    · rintro ⟨s, hs, rfl⟩
      obtain ⟨k, hk, rfl⟩ := List.getElem_of_mem hs
      obtain ⟨y, hy, -, hm⟩ := hmidx k hk
      rw [hm.2.1]; exact hy
    · intro hy
      obtain ⟨k, hk, rfl⟩ := List.getElem_of_mem hy
      have h : 12 * k < t.stamps.length := by omega
      have hdiv : 12 * k / 12 = k := by omega
      exact ⟨t.stamps[12 * k], List.getElem_mem _,
        (hmid _ _ _ (by rw [hdiv]; exact List.getElem?_eq_getElem hk) (List.getElem?_eq_getElem h)).2.1⟩
  subst hyy
  refine ⟨r1, r2, hr1, hr2, ys2, hys, hmem, ?_, ?_⟩
  · rw [hd2, hd1]
    simp
  intro e y hy
  obtain ⟨s, hs, hsy⟩ := (hmem y).1 (List.mem_of_getElem? hy)
  subst hsy
  have hcard : ∀ m < 12, (inYearMonth ax.stamps s.date.year (m + 1)).card
      = monthLength ax.cal s.date.year (m + 1) :=
    fun m hm => card_inYearMonth g hs (by omega) (by omega)
  have hmpos : ∀ m < 12, 0 < monthLength ax.cal s.date.year (m + 1) := fun m hm => by
    rw [← daysInMonth_eq _ _ (by omega) (by omega)]
    have := daysInMonth_pos ax.cal s.date.year (m + 1)
    omega
  have hpres : ∀ S : Finset Nat, present S (fun i => x.obj.get (Function.update e tc i)) = S := by
    intro S
    refine Finset.filter_true_of_mem (fun i _ => ?_)
    obtain ⟨a, ha⟩ := hfin (Function.update e tc i)
    simp only [ha]; simp
  -- the monthly means of the year
  have hq : ∀ m < 12, ∃ q : K, r1.obj.get (Function.update e tc (12 * e "time" + m)) = fin q ∧
      (monthLength ax.cal s.date.year (m + 1) : K) * q
        = ∑ i ∈ inYearMonth ax.stamps s.date.year (m + 1),
            val0 (x.obj.get (Function.update e tc i)) := by
    intro m hm
    have h1 : (12 * e "time" + m) / 12 = e "time" := by omega
    have h2 : (12 * e "time" + m) % 12 = m := by omega
    have := hval (Function.update e tc (12 * e "time" + m)) s.date.year
      (by rw [Function.update_self, h1]; exact hy)
    rw [Function.update_self, h2] at this
    simp only [Function.update_idem] at this
    rcases this with ⟨hnan, -⟩ | ⟨-, q, hq, hs'⟩
    · exfalso
      have hc := hcard m hm
      have hp := hmpos m hm
      rw [← hc, Finset.card_pos] at hp
      obtain ⟨i, hi⟩ := hp
      obtain ⟨a, ha⟩ := hfin (Function.update e tc i)
      have := hnan i hi
      simp only [ha] at this
      simp at this
    · refine ⟨q, hq, ?_⟩
      rw [hpres, hcard m hm] at hs'
      rw [mul_comm, hs']
  -- the weights of the year
  have hw : ∀ m < 12, monthDays t.cal t.stamps (12 * e "time" + m)
      = monthLength ax.cal s.date.year (m + 1) := by
    intro m hm
    have hlt : e "time" < ys2.length := (List.getElem?_eq_some_iff.1 hy).1
    have h : 12 * e "time" + m < t.stamps.length := by omega
    have h1 : (12 * e "time" + m) / 12 = e "time" := by omega
    have h2 : (12 * e "time" + m) % 12 = m := by omega
    have hmm := hmid _ s.date.year _ (by rw [h1]; exact hy) (List.getElem?_eq_getElem h)
    rw [h2] at hmm
    simp only [monthDays, List.getElem?_eq_getElem h, Option.map_some, Option.getD_some, htc,
      hmm.2.1, hmm.2.2.1]
  have hI := inYear_monthly hys htl hmid hy
  have hinj : ∀ a ∈ Finset.range 12, ∀ b ∈ Finset.range 12,
      12 * e "time" + a = 12 * e "time" + b → a = b := fun a _ b _ h => by omega
  have hpres1 : present (inYear t.stamps s.date.year)
      (fun i => r1.obj.get (Function.update e tc i)) = inYear t.stamps s.date.year := by
    refine Finset.filter_true_of_mem (fun i hi => ?_)
    rw [hI, Finset.mem_image] at hi
    obtain ⟨m, hm, rfl⟩ := hi
    obtain ⟨q, hq', -⟩ := hq m (Finset.mem_range.1 hm)
    simp only [hq']; simp
  constructor
  · rw [← sum_monthLength, Finset.card_eq_sum_ones, sum_inYear gx]
    refine Finset.sum_congr rfl (fun m hm => ?_)
    rw [← Finset.card_eq_sum_ones, hcard m (Finset.mem_range.1 hm)]
  rcases hval2 e s.date.year hy with ⟨hnan, -⟩ | ⟨-, q, hq2, hsum⟩
  · exfalso
    obtain ⟨q, hq', -⟩ := hq 0 (by omega)
    have := hnan (12 * e "time" + 0) (by rw [hI, Finset.mem_image]; exact ⟨0, by simp, rfl⟩)
    simp only [hq'] at this
    simp at this
  · refine ⟨q, hq2, ?_⟩
    rw [hpres1, hI, Finset.sum_image hinj, Finset.sum_image hinj] at hsum
    have hsw : ∑ m ∈ Finset.range 12, ((monthDays t.cal t.stamps (12 * e "time" + m) : Nat) : K)
        = (yearLength ax.cal s.date.year : K) := by
      rw [← sum_monthLength]
      push_cast
      refine Finset.sum_congr rfl (fun m hm => ?_)
      rw [hw m (Finset.mem_range.1 hm)]
    rw [hsw] at hsum
    rw [hsum, sum_inYear gx]
    refine Finset.sum_congr rfl (fun m hm => ?_)
    obtain ⟨q, hq', hqs⟩ := hq m (Finset.mem_range.1 hm)
    rw [hw m (Finset.mem_range.1 hm)]
    simp only [hq', val0_fin, hqs]

end C39

end Momlevel.Props
