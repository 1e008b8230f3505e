import Verif.Props.Annual

/-! # C41: `monthly_average` -/

set_option linter.unusedSectionVars false

namespace Momlevel.Props
open Momlevel Momlevel.Fl Momlevel.Spec

/-! ### Lists -/

theorem map_getD_range (P : List Nat) : (List.range P.length).map (fun j => P.getD j 0) = P := by
  refine List.ext_getElem (by simp) (fun i h1 h2 => ?_)
  simp [h2]

theorem groupPos_comp (P : List Nat) (g : Nat → Nat) (m : Nat) :
    (groupPos (P.map g) m).map (fun j => P.getD j 0) = P.filter (fun i => g i == m) := by
  conv_rhs => rw [← map_getD_range P, List.filter_map]
  rw [groupPos, List.length_map]
  congr 1
  refine List.filter_congr (fun j hj => ?_)
  have hj' := List.mem_range.1 hj
  simp [List.getD_eq_getElem?_getD, hj']

/-- Indexing a concatenation of blocks of twelve. -/
theorem getElem?_flatMap12 {α : Type*} (f : Nat → List α) (hf : ∀ y, (f y).length = 12) (ys : List Nat)
    (k : Nat) : (ys.flatMap f)[k]? = (ys[k / 12]?).bind (fun y => (f y)[k % 12]?) := by
  induction ys generalizing k with
  | nil => simp
  | cons y ys ih =>
    rw [List.flatMap_cons]
    by_cases h : k < 12
    · have h1 : k / 12 = 0 := by omega
      have h2 : k % 12 = k := by omega
      rw [List.getElem?_append_left (by rw [hf]; exact h), h1, h2]
      rfl
    · rw [List.getElem?_append_right (by rw [hf]; omega), hf, ih]
      have h1 : k / 12 = (k - 12) / 12 + 1 := by omega
      have h2 : k % 12 = (k - 12) % 12 := by omega
      rw [h1, h2, List.getElem?_cons_succ]

/-- Twelve distinct months are all the months. -/
theorem groupKeys_months {l : List Nat} (hl : ∀ m ∈ l, 1 ≤ m ∧ m ≤ 12) :
    (groupKeys l).length = 12 ↔ groupKeys l = List.range' 1 12 := by
  constructor
  · intro h
    have hnd : (groupKeys l).Nodup := (groupKeys_lt l).imp (fun h => ne_of_lt h)
    have hsub : groupKeys l ⊆ List.range' 1 12 := by
      intro m hm
      have := hl m (mem_groupKeys.1 hm)
      rw [List.mem_range'_1]; omega
    have hsp : (groupKeys l).Subperm (List.range' 1 12) := List.subperm_of_subset hnd hsub
    have hp : (groupKeys l).Perm (List.range' 1 12) :=
      hsp.perm_of_length_le (by rw [h, List.length_range'])
    refine eq_of_pairwise_lt (groupKeys_lt l) (by decide) (fun k => hp.mem_iff)
  · intro h
    rw [h, List.length_range']

theorem groupKeys_months_iff {l : List Nat} (hl : ∀ m ∈ l, 1 ≤ m ∧ m ≤ 12) :
    (groupKeys l).length = 12 ↔ ∀ m, 1 ≤ m → m ≤ 12 → m ∈ l := by
  rw [groupKeys_months hl]
  constructor
  · intro h m h1 h2
    rw [← mem_groupKeys, h, List.mem_range'_1]; omega
  · intro h
    refine eq_of_pairwise_lt (groupKeys_lt l) (by decide) (fun k => ?_)
    rw [mem_groupKeys, List.mem_range'_1]
    exact ⟨fun hk => by have := hl k hk; omega, fun hk => h k (by omega) (by omega)⟩

/-! ### One year -/

/-- The months of the samples of one year. -/
theorem year_months (ax : TimeAxis) (pos : List Nat) :
    (ax.sel pos).months = pos.map (fun i => (ax.stamps.getD i midMonths.default).date.month) := by
  simp [TimeAxis.sel, TimeAxis.months, Function.comp_def]

theorem year_months_range {ax : TimeAxis} (g : GoodAxis ax) (y : Nat) :
    ∀ m ∈ (ax.sel (groupPos ax.years y)).months, 1 ≤ m ∧ m ≤ 12 := by
  intro m hm
  rw [year_months, List.mem_map] at hm
  obtain ⟨i, hi, rfl⟩ := hm
  have := getD_valid g.valid (groupPos_years_lt hi)
  exact ⟨this.2.1, this.2.2.1⟩

theorem mem_year_months {ax : TimeAxis} (y m : Nat) :
    m ∈ (ax.sel (groupPos ax.years y)).months ↔
      ∃ s ∈ ax.stamps, s.date.year = y ∧ s.date.month = m := by
  rw [year_months, List.mem_map]
  constructor
  · rintro ⟨i, hi, rfl⟩
    have hlt := groupPos_years_lt hi
    have hy := (mem_groupPos.1 hi).2
    refine ⟨ax.stamps[i], List.getElem_mem _, ?_, ?_⟩
    · simpa [TimeAxis.years, List.getD_eq_getElem?_getD, hlt] using hy
    · simp [List.getD_eq_getElem?_getD, hlt]
  · rintro ⟨s, hs, rfl, rfl⟩
    obtain ⟨i, hi, rfl⟩ := List.getElem_of_mem hs
    refine ⟨i, ?_, ?_⟩
    · rw [mem_groupPos]
      simp [TimeAxis.years, List.getD_eq_getElem?_getD, hi]
    · simp [List.getD_eq_getElem?_getD, hi]

/-- The positions the model uses for a month of a year. -/
def monthPos (ax : TimeAxis) (y m : Nat) : List Nat :=
  (groupPos (ax.sel (groupPos ax.years y)).months m).map (fun i => (groupPos ax.years y).getD i 0)

theorem monthPos_eq (ax : TimeAxis) (y m : Nat) :
    monthPos ax y m = (groupPos ax.years y).filter
      (fun i => (ax.stamps.getD i midMonths.default).date.month == m) := by
  rw [monthPos, year_months, groupPos_comp]

theorem monthPos_nodup (ax : TimeAxis) (y m : Nat) : (monthPos ax y m).Nodup := by
  rw [monthPos_eq]; exact (groupPos_nodup _ _).filter _

theorem toFinset_monthPos (ax : TimeAxis) (y m : Nat) :
    (monthPos ax y m).toFinset = inYearMonth ax.stamps y m := by
  ext i
  rw [monthPos_eq]
  simp only [List.mem_toFinset, List.mem_filter, mem_groupPos, inYearMonth, Finset.mem_filter,
    Finset.mem_range, TimeAxis.years, List.length_map, beq_iff_eq]
  constructor
  · rintro ⟨⟨hi, h1⟩, h2⟩
    refine ⟨hi, ?_⟩
    simp only [List.getD_eq_getElem?_getD, List.getElem?_map, List.getElem?_eq_getElem hi,
      Option.map_some, Option.getD_some] at h1 h2 ⊢
    rw [h1, h2]
  · rintro ⟨hi, h1⟩
    simp only [List.getElem?_eq_getElem hi, Option.map_some, Option.some.injEq, Prod.mk.injEq] at h1
    refine ⟨⟨hi, ?_⟩, ?_⟩
    · simp [List.getD_eq_getElem?_getD, hi, h1.1]
    · simp [List.getD_eq_getElem?_getD, hi, h1.2]

section C41
variable {K : Type} [Field K] [LinearOrder K] [IsStrictOrderedRing K]

/-- The result of `monthly_average`: twelve values for every year that occurs, years increasing and
months in order; each is the mean of the non-missing samples of that month of that year, at the
middle of the month. -/
theorem C41_value {x r : Timed (DA (Fl K))} {tc : String} {ax : TimeAxis}
    (hx : x.axes.lookup tc = some ax) (g : GoodAxis ax) (hF : ∀ e, FN (x.obj.get e))
    (hr : monthlyAverage x tc = .ok r) :
    ∃ ys : List Nat, ys.Pairwise (· < ·) ∧ (∀ y, y ∈ ys ↔ ∃ s ∈ ax.stamps, s.date.year = y) ∧
      r.obj.dims = (tc, 12 * ys.length) :: x.obj.dims.filter (fun p => p.1 != tc) ∧
      (∃ t : TimeAxis, r.axes = [(tc, t)] ∧ t.cal = ax.cal ∧ t.stamps.length = 12 * ys.length ∧
        ∀ (k y : Nat) (s : Stamp), ys[k / 12]? = some y → t.stamps[k]? = some s →
          IsMidMonth ax.cal y (k % 12 + 1) s) ∧
      ∀ (e : Env) (y : Nat), ys[e tc / 12]? = some y →
        IsMean (inYearMonth ax.stamps y (e tc % 12 + 1))
          (fun i => x.obj.get (Function.update e tc i)) (r.obj.get e) := by
  unfold monthlyAverage at hr
  rw [axis_ok hx g.nonempty, ok_bind] at hr
  simp only at hr
  split at hr
  case isFalse => simp at hr
  case isTrue hall =>
    obtain rfl : _ = r := Except.ok.inj hr
    rw [List.all_eq_true] at hall
    refine ⟨groupKeys ax.years, groupKeys_lt _, fun y => by simp [mem_groupKeys, TimeAxis.years],
      rfl, ⟨_, rfl, rfl, ?_, ?_⟩, ?_⟩
    · simp [List.length_flatMap, midMonths_length, Nat.mul_comm]
    · intro k y s hy hs
      simp only at hs
      rw [getElem?_flatMap12 _ (midMonths_length ax.cal), hy, Option.bind_some] at hs
      have hpos : 1 ≤ y := by
        have := mem_groupKeys.1 (List.mem_of_getElem? hy)
        simp only [TimeAxis.years, List.mem_map] at this
        obtain ⟨s0, hs0, e0⟩ := this
        rw [← e0]
        exact (g.valid s0 hs0).1
      obtain ⟨s', h1, h2⟩ := midMonths_spec ax.cal hpos (show k % 12 < 12 by omega)
      rw [hs, Option.some.injEq] at h1
      rw [h1]; exact h2
    · intro e y hy
      have hk : (groupKeys ax.years).getD (e tc / 12) 0 = y := by
        rw [List.getD_eq_getElem?_getD, hy]; rfl
      have hm : (groupKeys (ax.sel (groupPos ax.years y)).months).getD (e tc % 12) 0
          = e tc % 12 + 1 := by
        have h12 := hall y (List.mem_of_getElem? hy)
        rw [beq_iff_eq, groupKeys_months (year_months_range g y)] at h12
        rw [h12, List.getD_eq_getElem?_getD, List.getElem?_range' (by omega)]
        simp; omega
      simp only [hk, hm]
      rw [← toFinset_monthPos]
      exact nanmean_spec (monthPos_nodup ax y _) (fun i _ => hF _)

/-- Without the time coordinate a KeyError, on an empty axis an IndexError. -/
theorem C41_no_axis (x : Timed (DA (Fl K))) (tc : String) :
    (x.axes.lookup tc = none → monthlyAverage x tc = .error .keyError) ∧
    (∀ ax, x.axes.lookup tc = some ax → ax.stamps = [] →
      monthlyAverage x tc = .error .indexError) := by
  constructor
  · intro h
    simp only [monthlyAverage, Timed.axis, dictGet, h, error_bind]
  · intro ax h h0
    simp only [monthlyAverage, Timed.axis, dictGet, h, h0, ok_bind, error_bind]

example : monthlyAverage (⟨⟨[("lat", 5)], fun _ => fin 1⟩, []⟩ : Timed (DA (Fl ℚ))) "time"
    = .error .keyError := (C41_no_axis _ _).1 rfl

/-- `monthly_average` succeeds exactly when every year that occurs has a sample in each of its twelve
months; otherwise it raises a ValueError. -/
theorem C41_complete {x : Timed (DA (Fl K))} {tc : String} {ax : TimeAxis}
    (hx : x.axes.lookup tc = some ax) (g : GoodAxis ax) :
    ((∀ s ∈ ax.stamps, ∀ m, 1 ≤ m → m ≤ 12 →
        ∃ s' ∈ ax.stamps, s'.date.year = s.date.year ∧ s'.date.month = m) →
      ∃ r, monthlyAverage x tc = .ok r) ∧
    (¬ (∀ s ∈ ax.stamps, ∀ m, 1 ≤ m → m ≤ 12 →
        ∃ s' ∈ ax.stamps, s'.date.year = s.date.year ∧ s'.date.month = m) →
      monthlyAverage x tc = .error .valueError) := by
  have key : ((groupKeys ax.years).all (fun y =>
      (groupKeys (ax.sel (groupPos ax.years y)).months).length == 12)) = true ↔
      ∀ s ∈ ax.stamps, ∀ m, 1 ≤ m → m ≤ 12 →
        ∃ s' ∈ ax.stamps, s'.date.year = s.date.year ∧ s'.date.month = m := by
    rw [List.all_eq_true]
    constructor
    · intro h s hs m h1 h2
      have := h s.date.year (mem_groupKeys.2 (by simp only [TimeAxis.years, List.mem_map]; exact ⟨s, hs, rfl⟩))
      rw [beq_iff_eq, groupKeys_months_iff (year_months_range g _)] at this
      exact (mem_year_months _ _).1 (this m h1 h2)
    · intro h y hy
      have hy' := mem_groupKeys.1 hy
      simp only [TimeAxis.years, List.mem_map] at hy'
      obtain ⟨s, hs, rfl⟩ := hy'
      rw [beq_iff_eq, groupKeys_months_iff (year_months_range g _)]
      intro m h1 h2
      exact (mem_year_months _ _).2 (h s hs m h1 h2)
  unfold monthlyAverage
  rw [axis_ok hx g.nonempty, ok_bind]
  constructor
  · intro h
    simp only
    rw [if_pos (key.2 h)]
    exact ⟨_, rfl⟩
  · intro h
    simp only
    rw [if_neg (fun q => h (key.1 q))]

/-- The hypotheses are met by the concrete series above, whose third month is missing. -/
example : ∃ r, monthlyAverage exMonthly "time" = .ok r ∧ r.obj.dims = [("time", 12)] ∧
    r.obj.get (fun _ => 2) = nan := by
  obtain ⟨r, hr⟩ := (C41_complete (x := exMonthly) (ax := exAxis) (tc := "time") rfl exAxis_good).1
    (fun s hs m h1 h2 => by
      have hy : ∀ s ∈ exAxis.stamps, s.date.year = 2004 := by decide
      rw [hy s hs]
      have : ∀ m < 13, 1 ≤ m → ∃ s' ∈ exAxis.stamps, s'.date.year = 2004 ∧ s'.date.month = m := by
        decide
      exact this m (by omega) h1)
  obtain ⟨ys, hp, hm, hd, -, hv⟩ := C41_value (ax := exAxis) rfl exAxis_good exMonthly_FN hr
  have hys : ys = [2004] := eq_of_pairwise_lt hp (by simp) (fun k => by
    rw [hm]
    constructor
    · rintro ⟨s, hs, rfl⟩
      have : ∀ s ∈ exAxis.stamps, s.date.year = 2004 := by decide
      simp [this s hs]
    · intro h
      rw [List.mem_singleton.1 h]
      exact ⟨exAxis.stamps[0]'(by decide), List.getElem_mem _, by decide⟩)
  subst hys
  refine ⟨r, hr, by rw [hd]; rfl, ?_⟩
  have hS : inYearMonth exAxis.stamps 2004 (2 + 1) = {2} := by decide
  rcases hv (fun _ => 2) 2004 rfl with ⟨-, h⟩ | ⟨⟨i, hi, h⟩, -⟩
  · exact h
  · simp only [Nat.reduceMod] at hi
    rw [hS, Finset.mem_singleton] at hi
    subst hi
    exact absurd rfl h

end C41

end Momlevel.Props
