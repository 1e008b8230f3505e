import Verif.Props.TestData
import Verif.Props.AverageDS
import Verif.Lemmas.Midpoint
import Verif.Lemmas.Spice

/-!
# C78: monthly test data and time averages
-/

set_option linter.unusedSectionVars false

namespace Momlevel.Props
open Momlevel Momlevel.Fl Momlevel.Spec

/-- The times of a monthly stub are the mid-month times of the consecutive years. -/
theorem stub_times (c : Calendar) {y : Nat} (hy : 1 ≤ y) (n : Nat) :
    ∃ st, generateTimeStub y n c "MS" = .ok st ∧ st.time.length = 12 * n ∧
      (∀ k < 12 * n, st.time[k]? = (midMonths c (y + k / 12))[k % 12]?) ∧
      st.time = (List.range n).flatMap (fun i => midMonths c (y + i)) := by
  obtain ⟨st, b, hst, hb, -, -, -, hS, -⟩ := C63_monthly c hy n
  have hl : st.time.length = 12 * n := by have := hS.1; omega
  have hk : ∀ k < 12 * n, st.time[k]? = (midMonths c (y + k / 12))[k % 12]? := by
    intro k hk
    have hst' := hst
    simp only [generateTimeStub, stubBounds, if_true, ok_bind] at hst'
    obtain rfl := Except.ok.inj hst'
    have e1 : (monthStarts y (n * 12 + 1)).length = n * 12 + 1 := by simp [monthStarts]
    have hget : ∀ k, k < n * 12 + 1 →
        (monthStarts y (n * 12 + 1))[k]? = some (Stamp.midnight ⟨y + k / 12, k % 12 + 1, 1⟩) := by
      intro k hk
      rw [monthStarts, List.getElem?_map, List.getElem?_range hk]; rfl
    have z : ((monthStarts y (n * 12 + 1)).dropLast.zip (monthStarts y (n * 12 + 1)).tail)[k]?
        = some (Stamp.midnight ⟨y + k / 12, k % 12 + 1, 1⟩,
          Stamp.midnight ⟨y + (k + 1) / 12, (k + 1) % 12 + 1, 1⟩) := by
      rw [List.getElem?_zip_eq_some]
      constructor
      · rw [List.getElem?_dropLast, e1, if_pos (by omega), hget k (by omega)]
      · rw [List.getElem?_tail, hget (k + 1) (by omega)]
    simp only [List.getElem?_map, z, Option.map_some]
    have hm : k % 12 < 12 := by omega
    have g13 : ∀ m, m < 13 → (monthStarts (y + k / 12) 13).getD m midMonths.default
        = Stamp.midnight ⟨y + k / 12 + m / 12, m % 12 + 1, 1⟩ := by
      intro m hm
      rw [List.getD_eq_getElem?_getD, monthStarts, List.getElem?_map, List.getElem?_range hm]; rfl
    simp only [midMonths, monthStarts, List.length_map, List.length_range, List.getElem?_map]
    rw [List.getElem?_range (by omega)]
    have a1 := g13 (k % 12) (by omega)
    have a2 := g13 (k % 12 + 1) (by omega)
    simp only [monthStarts] at a1 a2
    rw [Option.map_some, a1, a2]
    have e2 : y + k / 12 + k % 12 / 12 = y + k / 12 := by omega
    have e3 : k % 12 % 12 = k % 12 := by omega
    have e4 : y + k / 12 + (k % 12 + 1) / 12 = y + (k + 1) / 12 := by omega
    have e5 : (k % 12 + 1) % 12 = (k + 1) % 12 := by omega
    rw [e2, e3, e4, e5]
  refine ⟨st, hst, hl, hk, ?_⟩
  have hfl : ((List.range n).flatMap (fun i => midMonths c (y + i))).length = 12 * n := by
    simp [List.length_flatMap, midMonths_length, Nat.mul_comm]
  refine List.ext_getElem? fun k => ?_
  by_cases h : k < 12 * n
  · rw [hk k h]
    have := Spice.flatMap_getElem? n 12 (fun i => midMonths c (y + i)) (fun i => midMonths_length c _)
      (k / 12) (k % 12) (by omega) (by omega)
    rw [show k / 12 * 12 + k % 12 = k by omega] at this
    exact this.symm
  · rw [List.getElem?_eq_none (by omega), List.getElem?_eq_none (by omega)]

/-- The time axis of the monthly test data. -/
theorem stub_axis (c : Calendar) {y n : Nat} (hy : 1 ≤ y) (hn : 1 ≤ n) :
    ∃ st, generateTimeStub y n c "MS" = .ok st ∧ st.time.length = 12 * n ∧
      GoodAxis ⟨c, st.time⟩ ∧
      (∀ k < 12 * n, ∃ s, st.time[k]? = some s ∧ IsMidMonth c (y + k / 12) (k % 12 + 1) s) ∧
      st.time = (List.range n).flatMap (fun i => midMonths c (y + i)) := by
  obtain ⟨st, hst, hl, hk, hf⟩ := stub_times c hy n
  have hm : ∀ k < 12 * n, ∃ s, st.time[k]? = some s ∧ IsMidMonth c (y + k / 12) (k % 12 + 1) s := by
    intro k h
    rw [hk k h]
    exact midMonths_spec c (by omega) (by omega)
  refine ⟨st, hst, hl, ⟨?_, ?_⟩, hm, hf⟩
  · intro h
    rw [show st.time = [] from h] at hl
    simp at hl
    omega
  · intro s hs
    obtain ⟨k, h, rfl⟩ := List.getElem_of_mem hs
    obtain ⟨s', h1, h2⟩ := hm k (by have : k < st.time.length := h; omega)
    have h' : k < st.time.length := h
    rw [List.getElem?_eq_getElem h', Option.some.injEq] at h1
    show (st.time[k]).date.Valid c
    rw [h1]
    exact h2.1

section
variable {K : Type} [Field K] [LinearOrder K] [IsStrictOrderedRing K]

/-- Samples of the monthly axis by year and by month. -/
theorem stub_groups {c : Calendar} {y n : Nat} {time : List Stamp} (hl : time.length = 12 * n)
    (hm : ∀ k < 12 * n, ∃ s, time[k]? = some s ∧ IsMidMonth c (y + k / 12) (k % 12 + 1) s) :
    (∀ i < n, inYear time (y + i) = (Finset.range 12).image (fun m => 12 * i + m)) ∧
    (∀ i < n, ∀ m < 12, inYearMonth time (y + i) (m + 1) = {12 * i + m}) ∧
    (∀ Y, (∃ s ∈ time, s.date.year = Y) ↔ ∃ i < n, Y = y + i) := by
  have hy : ∀ k < 12 * n, time[k]?.map (fun s => (s.date.year, s.date.month))
      = some (y + k / 12, k % 12 + 1) := by
    intro k h
    obtain ⟨s, h1, -, h2, h3, -⟩ := hm k h
    rw [h1, Option.map_some, h2, h3]
  have hy' : ∀ k < 12 * n, time[k]?.map (fun s => s.date.year) = some (y + k / 12) := by
    intro k h
    obtain ⟨s, h1, -, h2, -⟩ := hm k h
    rw [h1, Option.map_some, h2]
  refine ⟨?_, ?_, ?_⟩
  · intro i hi
    ext k
    simp only [inYear, hl, Finset.mem_filter, Finset.mem_range, Finset.mem_image]
    constructor
    · rintro ⟨h, h2⟩
      rw [hy' k h, Option.some.injEq] at h2
      exact ⟨k % 12, by omega, by omega⟩
    · rintro ⟨m, h, rfl⟩
      refine ⟨by omega, ?_⟩
      rw [hy' _ (by omega), Option.some.injEq]
      omega
  · intro i hi m hm'
    ext k
    simp only [inYearMonth, hl, Finset.mem_filter, Finset.mem_range, Finset.mem_singleton]
    constructor
    · rintro ⟨h, h2⟩
      rw [hy k h, Option.some.injEq, Prod.mk.injEq] at h2
      omega
    · rintro rfl
      refine ⟨by omega, ?_⟩
      rw [hy _ (by omega), Option.some.injEq, Prod.mk.injEq]
      omega
  · intro Y
    constructor
    · rintro ⟨s, hs, rfl⟩
      obtain ⟨k, h, rfl⟩ := List.getElem_of_mem hs
      have := hy' k (by omega)
      rw [List.getElem?_eq_getElem h, Option.map_some, Option.some.injEq] at this
      exact ⟨k / 12, by omega, this⟩
    · rintro ⟨i, hi, rfl⟩
      have := hy' (12 * i) (by omega)
      rw [List.getElem?_eq_getElem (by omega), Option.map_some, Option.some.injEq] at this
      exact ⟨time[12 * i], List.getElem_mem _, by rw [this]; omega⟩

theorem years_list {y n : Nat} {ys : List Nat} {time : List Stamp} (hp : ys.Pairwise (· < ·))
    (hm : ∀ Y, Y ∈ ys ↔ ∃ s ∈ time, s.date.year = Y)
    (ht : ∀ Y, (∃ s ∈ time, s.date.year = Y) ↔ ∃ i < n, Y = y + i) :
    ys = (List.range n).map (fun i => y + i) := by
  refine eq_of_pairwise_lt hp ?_ fun k => ?_
  · rw [List.pairwise_map]
    exact List.pairwise_lt_range.imp (fun h => by omega)
  · rw [hm, ht]
    simp only [List.mem_map, List.mem_range]
    exact ⟨fun ⟨i, h1, h2⟩ => ⟨i, h1, h2.symm⟩, fun ⟨i, h1, h2⟩ => ⟨i, h1, h2.symm⟩⟩

/-- The monthly average of a monthly test series is the series itself, on the same time axis. -/
theorem monthly_identity {c : Calendar} {y n : Nat} (hy : 1 ≤ y) (hn : 1 ≤ n) {st : TimeStub}
    (hst : generateTimeStub y n c "MS" = .ok st) (a : DA (Fl K)) (hF : ∀ e, FN (a.get e)) :
    ∃ r, monthlyAverage ⟨a, [("time", ⟨c, st.time⟩)]⟩ "time" = .ok ⟨r, [("time", ⟨c, st.time⟩)]⟩ ∧
      r.dims = ("time", 12 * n) :: a.dims.filter (fun p => p.1 != "time") ∧
      ∀ e, e "time" < 12 * n → r.get e = a.get e := by
  obtain ⟨st', hst', hl, g, hm, hfl⟩ := stub_axis c hy hn
  obtain rfl : st = st' := Except.ok.inj (hst.symm.trans hst')
  obtain ⟨g1, g2, g3⟩ := stub_groups hl hm
  set x : Timed (DA (Fl K)) := ⟨a, [("time", ⟨c, st.time⟩)]⟩ with hx
  have hax : x.axes.lookup "time" = some ⟨c, st.time⟩ := rfl
  obtain ⟨r, hr⟩ := (C41_complete hax g).1 (by
    intro s hs m h1 h2
    obtain ⟨i, hi, hY⟩ := (g3 s.date.year).1 ⟨s, hs, rfl⟩
    obtain ⟨s', e1, -, e2, e3, -⟩ := hm (12 * i + (m - 1)) (by omega)
    exact ⟨s', List.mem_of_getElem? e1, by rw [e2, hY]; omega, by rw [e3]; omega⟩)
  obtain ⟨ys, hp, hmem, hd, ⟨t, ht, tc, tl, tk⟩, hv⟩ := C41_value hax g hF hr
  have hys := years_list hp hmem g3
  have hlen : ys.length = n := by rw [hys]; simp
  have ht' : r.axes = [("time", ⟨c, st.time⟩)] := by
    have hr' := hr
    unfold monthlyAverage at hr'
    rw [axis_ok hax g.nonempty, ok_bind] at hr'
    simp only at hr'
    split at hr'
    · have := congrArg Timed.axes (Except.ok.inj hr')
      rw [← this]
      have hgk : groupKeys (TimeAxis.years ⟨c, st.time⟩) = (List.range n).map (fun i => y + i) :=
        years_list (groupKeys_lt _) (fun Y => by simp [mem_groupKeys, TimeAxis.years]) g3
      rw [hgk, List.flatMap_map, ← hfl]
    · simp at hr'
  refine ⟨r.obj, by rw [hr, ← ht'], by rw [hd, hlen], fun e he => ?_⟩
  have h1 : ys[e "time" / 12]? = some (y + e "time" / 12) := by
    rw [hys, List.getElem?_map, List.getElem?_range (by omega)]; rfl
  have := hv e _ h1
  rw [g2 _ (by omega) _ (by omega), show 12 * (e "time" / 12) + e "time" % 12 = e "time" by omega] at this
  have hself : Function.update e "time" (e "time") = e := Function.update_eq_self _ _
  rcases this with ⟨h2, h3⟩ | ⟨h2, q, h3, h4⟩
  · have : x.obj.get (Function.update e "time" (e "time")) = nan := h2 (e "time") (by simp)
    rw [hself] at this
    rw [h3]; exact this.symm
  · obtain ⟨i, hi, hne⟩ := h2
    rw [Finset.mem_singleton] at hi
    subst hi
    replace hne : x.obj.get (Function.update e "time" (e "time")) ≠ nan := hne
    rw [hself] at hne
    rw [h3]
    have hpres : present {e "time"} (fun i => x.obj.get (Function.update e "time" i)) = {e "time"} := by
      unfold present
      rw [Finset.filter_true_of_mem]
      intro i hi
      rw [Finset.mem_singleton.1 hi]
      show x.obj.get (Function.update e "time" (e "time")) ≠ nan
      rw [hself]
      exact hne
    rw [hpres, Finset.card_singleton, Finset.sum_singleton, Nat.cast_one, mul_one] at h4
    show fin q = a.get e
    have hne' : a.get e ≠ nan := hne
    have h4' : q = val0 (a.get (Function.update e "time" (e "time"))) := h4
    rw [hself] at h4'
    rcases hF e with h | ⟨v, h⟩
    · exact absurd h hne'
    · rw [h] at h4' ⊢
      rw [h4']
      rfl

theorem weightedMean_congr {S : Finset Nat} {w w' : Nat → Nat} {v : Nat → Fl K} {r : Fl K}
    (h : ∀ k ∈ S, w k = w' k) (hr : IsWeightedMean S w v r) : IsWeightedMean S w' v r := by
  rcases hr with h1 | ⟨h1, q, h2, h3⟩
  · exact Or.inl h1
  · refine Or.inr ⟨h1, q, h2, ?_⟩
    have hS : ∀ k ∈ present S v, w k = w' k := fun k hk => h k (Finset.mem_filter.1 hk).1
    rw [Finset.sum_congr rfl (fun k hk => by rw [hS k hk])] at h3
    rw [h3]
    exact Finset.sum_congr rfl (fun k hk => by rw [hS k hk])

/-- The monthly test data: two fields on (time, lat, lon), drawn from the seeds `seed` and
`2 * seed`. -/
theorem C78_fields (rng : Rng K) (c : Calendar) {y n : Nat} (hy : 1 ≤ y) (seed : Nat) :
    ∃ x st, generateTimeStub y n c "MS" = .ok st ∧ generateTestDataTime rng y n c seed = .ok x ∧
      x.axes = [("time", ⟨c, st.time⟩)] ∧
      x.obj.vars.map Prod.fst = ["lat", "lon", "var_a", "var_b"] ∧
      (let dims := [("time", 12 * n), ("lat", 5), ("lon", 5)]
      let pos : Env → Nat := fun e => 25 * e "time" + 5 * e "lat" + e "lon"
      HasVar x.obj "var_a" dims (fun e => fin (100 + 20 * rng.normal seed (pos e))) ∧
      HasVar x.obj "var_b" dims (fun e => fin (100 + 20 * rng.normal (2 * seed) (pos e)))) := by
  obtain ⟨st, hst, hl, -⟩ := stub_times c hy n
  refine ⟨_, st, hst, by simp only [generateTestDataTime, hst, ok_bind]; rfl, rfl, rfl, ?_, ?_⟩
  · refine ⟨_, rfl, by simp [Rng.normalArray, hl], fun e _ => ?_⟩
    simp only [Rng.normalArray, rowMajor, List.foldl_cons, List.foldl_nil]
    congr 4
    ring
  · refine ⟨_, rfl, by simp [Rng.normalArray, hl], fun e _ => ?_⟩
    simp only [Rng.normalArray, rowMajor, List.foldl_cons, List.foldl_nil, Nat.mul_comm seed 2]
    congr 4
    ring

/-- With seed 0 the two fields coincide. -/
theorem C78_seed_zero (rng : Rng K) (c : Calendar) {y n : Nat} (hy : 1 ≤ y) :
    ∃ x, generateTestDataTime rng y n c 0 = .ok x ∧
      x.obj.vars.lookup "var_a" = x.obj.vars.lookup "var_b" := by
  obtain ⟨st, hst, hl, -⟩ := stub_times c hy n
  exact ⟨_, by simp only [generateTestDataTime, hst, ok_bind]; rfl, rfl⟩

/-- `monthly_average` returns the monthly test data unchanged: the same two fields on the same time
axis. -/
theorem C78_monthly (rng : Rng K) (c : Calendar) {y n : Nat} (hy : 1 ≤ y) (hn : 1 ≤ n) (seed : Nat) :
    ∃ x r, generateTestDataTime rng y n c seed = .ok x ∧ monthlyAverageDS x = .ok r ∧
      r.axes = x.axes ∧ r.obj.vars.map Prod.fst = ["var_a", "var_b"] ∧
      ∀ v a, (v, a) ∈ r.obj.vars → ∃ b, (v, b) ∈ x.obj.vars ∧ a.dims = b.dims ∧
        ∀ e, e "time" < 12 * n → a.get e = b.get e := by
  obtain ⟨st, hst, hl, -⟩ := stub_times c hy n
  obtain ⟨x, hx, hobj, hax⟩ : ∃ x, generateTestDataTime rng y n c seed = .ok x ∧
      x.obj = ⟨[("lat", arr1 "lat" [1.0, 2.0, 3.0, 4.0, 5.0]), ("lon", arr1 "lon" [1.0, 2.0, 3.0, 4.0, 5.0]),
        ("var_a", rng.normalArray seed 100 20 [("time", 12 * n), ("lat", 5), ("lon", 5)]),
        ("var_b", rng.normalArray (seed * 2) 100 20 [("time", 12 * n), ("lat", 5), ("lon", 5)])],
        ["time", "lat", "lon"]⟩ ∧ x.axes = [("time", ⟨c, st.time⟩)] :=
    ⟨_, by simp only [generateTestDataTime, hst, ok_bind]; rfl, by rw [hl], rfl⟩
  obtain ⟨h1, h2, -⟩ := C41_dataset x (fun _ => false) "time"
  have hd : x.obj.dimNames = ["lat", "lon", "time", "lat", "lon", "time", "lat", "lon"] := by
    rw [hobj]; rfl
  have hc : x.obj.coords = ["time", "lat", "lon"] := by rw [hobj]
  obtain ⟨m, hm, -⟩ := monthly_identity hy hn hst
    (rng.normalArray seed 100 20 [("time", 12 * n), ("lat", 5), ("lon", 5)])
    (fun e => Or.inr ⟨_, rfl⟩)
  rw [← hax] at hm
  obtain ⟨r, hr⟩ := (h2 _ ⟨("var_a", rng.normalArray seed 100 20 [("time", 12 * n), ("lat", 5), ("lon", 5)]),
    by rw [hobj]; simp, by rw [hd]; simp, by rw [hc]; simp, rfl, by simp [Rng.normalArray, DA.dimNames]⟩).2
    ⟨_, hm⟩
  obtain ⟨k1, k2⟩ := h1 r hr
  have hnames : r.obj.vars.map Prod.fst = ["var_a", "var_b"] := by
    rw [k1, hd, hc, hobj]; simp
  have hvar : ∀ v a, (v, a) ∈ r.obj.vars → ∃ b, (v, b) ∈ x.obj.vars ∧ a.dims = b.dims ∧
      (∀ e, e "time" < 12 * n → a.get e = b.get e) ∧ r.axes = x.axes := by
    intro v a hva
    obtain ⟨b, hb, hmb⟩ := k2 v a hva
    have hv : v = "var_a" ∨ v = "var_b" := by
      have : v ∈ r.obj.vars.map Prod.fst := List.mem_map_of_mem hva
      rw [hnames] at this
      simpa using this
    obtain ⟨s, hs⟩ : ∃ s, b = rng.normalArray s 100 20 [("time", 12 * n), ("lat", 5), ("lon", 5)] := by
      rw [hobj] at hb
      simp only [List.mem_cons, Prod.mk.injEq, List.not_mem_nil, or_false] at hb
      rcases hb with ⟨rfl, -⟩ | ⟨rfl, -⟩ | ⟨-, rfl⟩ | ⟨-, rfl⟩
      · simp at hv
      · simp at hv
      · exact ⟨_, rfl⟩
      · exact ⟨_, rfl⟩
    obtain ⟨q, hq, qd, qv⟩ := monthly_identity hy hn hst b (fun e => by rw [hs]; exact Or.inr ⟨_, rfl⟩)
    rw [hax] at hmb
    rw [hmb] at hq
    have := Except.ok.inj hq
    have e1 : a = q := congrArg Timed.obj this
    have e2 : r.axes = [("time", ⟨c, st.time⟩)] := congrArg Timed.axes this
    subst e1
    refine ⟨b, hb, ?_, qv, by rw [e2, hax]⟩
    rw [qd, hs]
    simp [Rng.normalArray]
  refine ⟨x, r, hx, hr, ?_, hnames, fun v a hva => ?_⟩
  · have : "var_a" ∈ r.obj.vars.map Prod.fst := by rw [hnames]; simp
    obtain ⟨⟨v, a⟩, hva, -⟩ := List.mem_map.1 this
    obtain ⟨-, -, -, -, h⟩ := hvar v a hva
    exact h
  · obtain ⟨b, hb, h3, h4, -⟩ := hvar v a hva
    exact ⟨b, hb, h3, h4⟩

/-- `annual_average` of the monthly test data: one value per year, the month-length weighted mean of
that year's twelve samples, at the middle of the year. -/
theorem C78_annual (rng : Rng K) (c : Calendar) {y n : Nat} (hy : 1 ≤ y) (hn : 1 ≤ n) (seed : Nat) :
    ∃ x r st, generateTimeStub y n c "MS" = .ok st ∧ generateTestDataTime rng y n c seed = .ok x ∧
      annualAverageDS x = .ok r ∧ r.obj.vars.map Prod.fst = ["var_a", "var_b"] ∧
      (∃ t, r.axes = [("time", ⟨c, t⟩)] ∧ t.length = n ∧
        ∀ i s, t[i]? = some s → IsMidYear c (y + i) s) ∧
      ∀ v a, (v, a) ∈ r.obj.vars → a.dims = [("time", n), ("lat", 5), ("lon", 5)] ∧
        ∃ b, (v, b) ∈ x.obj.vars ∧ ∀ e, e "time" < n →
          IsWeightedMean ((Finset.range 12).image (fun m => 12 * e "time" + m))
            (fun k => monthLength c (y + k / 12) (k % 12 + 1))
            (fun k => b.get (Function.update e "time" k)) (a.get e) := by
  obtain ⟨st, hst, hl, g, hm, -⟩ := stub_axis c hy hn
  obtain ⟨g1, g2, g3⟩ := stub_groups hl hm
  obtain ⟨x, hx, hobj, hax⟩ : ∃ x, generateTestDataTime rng y n c seed = .ok x ∧
      x.obj = ⟨[("lat", arr1 "lat" [1.0, 2.0, 3.0, 4.0, 5.0]), ("lon", arr1 "lon" [1.0, 2.0, 3.0, 4.0, 5.0]),
        ("var_a", rng.normalArray seed 100 20 [("time", 12 * n), ("lat", 5), ("lon", 5)]),
        ("var_b", rng.normalArray (seed * 2) 100 20 [("time", 12 * n), ("lat", 5), ("lon", 5)])],
        ["time", "lat", "lon"]⟩ ∧ x.axes = [("time", ⟨c, st.time⟩)] :=
    ⟨_, by simp only [generateTestDataTime, hst, ok_bind]; rfl, by rw [hl], rfl⟩
  have hd : x.obj.dimNames = ["lat", "lon", "time", "lat", "lon", "time", "lat", "lon"] := by
    rw [hobj]; rfl
  have hc : x.obj.coords = ["time", "lat", "lon"] := by rw [hobj]
  have hlook : x.axes.lookup "time" = some ⟨c, st.time⟩ := by rw [hax]; rfl
  obtain ⟨m, hm'⟩ := (C38_twelve
    (x := ⟨rng.normalArray seed 100 20 [("time", 12 * n), ("lat", 5), ("lon", 5)], x.axes⟩)
    hlook g.nonempty).1 (fun s hs => by
      obtain ⟨i, hi, hY⟩ := (g3 s.date.year).1 ⟨s, hs, rfl⟩
      show (inYear st.time s.date.year).card = 12
      rw [hY, g1 i hi, Finset.card_image_of_injective _ (fun a b h => by
        have h : 12 * i + a = 12 * i + b := h
        omega), Finset.card_range])
  obtain ⟨r, hr⟩ := ((C38_dataset_success x (fun _ => false) "time").1 _
    ⟨("var_a", rng.normalArray seed 100 20 [("time", 12 * n), ("lat", 5), ("lon", 5)]),
    by rw [hobj]; simp, by rw [hd]; simp, by rw [hc]; simp, rfl, by simp [Rng.normalArray, DA.dimNames]⟩).2
    ⟨_, hm'⟩
  obtain ⟨k1, k2⟩ := (C38_dataset x (fun _ => false) "time").1 r hr
  have hnames : r.obj.vars.map Prod.fst = ["var_a", "var_b"] := by
    rw [k1, hd, hc, hobj]; simp
  have hvar : ∀ v a, (v, a) ∈ r.obj.vars →
      (∃ t, r.axes = [("time", ⟨c, t⟩)] ∧ t.length = n ∧
        ∀ i s, t[i]? = some s → IsMidYear c (y + i) s) ∧
      a.dims = [("time", n), ("lat", 5), ("lon", 5)] ∧
        ∃ b, (v, b) ∈ x.obj.vars ∧ ∀ e, e "time" < n →
          IsWeightedMean ((Finset.range 12).image (fun m => 12 * e "time" + m))
            (fun k => monthLength c (y + k / 12) (k % 12 + 1))
            (fun k => b.get (Function.update e "time" k)) (a.get e) := by
    intro v a hva
    obtain ⟨b, hb, hmb⟩ := k2 v a hva
    have hv : v = "var_a" ∨ v = "var_b" := by
      have : v ∈ r.obj.vars.map Prod.fst := List.mem_map_of_mem hva
      rw [hnames] at this
      simpa using this
    obtain ⟨s, hs⟩ : ∃ s, b = rng.normalArray s 100 20 [("time", 12 * n), ("lat", 5), ("lon", 5)] := by
      rw [hobj] at hb
      simp only [List.mem_cons, Prod.mk.injEq, List.not_mem_nil, or_false] at hb
      rcases hb with ⟨rfl, -⟩ | ⟨rfl, -⟩ | ⟨-, rfl⟩ | ⟨-, rfl⟩
      · simp at hv
      · simp at hv
      · exact ⟨_, rfl⟩
      · exact ⟨_, rfl⟩
    obtain ⟨ys, hp, hmem, qd, ⟨t, ht, tc, tl, tk⟩, qv⟩ :=
      C38_value (x := ⟨b, x.axes⟩) hlook g (fun e => by
        show FN (b.get e)
        rw [hs]; exact Or.inr ⟨_, rfl⟩) hmb
    have hys := years_list hp hmem g3
    have hyk : ∀ k < n, ys[k]? = some (y + k) := fun k hk => by
      rw [hys, List.getElem?_map, List.getElem?_range hk]; rfl
    have hyl : ys.length = n := by rw [hys]; simp
    refine ⟨⟨t.stamps, ?_, by rw [tl, hyl], fun i s hi => ?_⟩, ?_, b, hb, fun e he => ?_⟩
    · have ht : r.axes = [("time", t)] := ht
      have tc : t.cal = c := tc
      rw [ht, ← tc]
    · have : i < n := by
        rw [← hyl, ← tl]; exact (List.getElem?_eq_some_iff.1 hi).1
      exact tk i (y + i) s (hyk i this) hi
    · have qd : a.dims = ("time", ys.length) :: b.dims.filter (fun p => p.1 != "time") := qd
      rw [qd, hyl, hs]
      simp [Rng.normalArray]
    · have := qv e (y + e "time") (hyk _ he)
      have hin : inYear st.time (y + e "time") = (Finset.range 12).image (fun m => 12 * e "time" + m) :=
        g1 _ he
      rw [← hin]
      refine weightedMean_congr (fun k hk => ?_) this
      rw [hin, Finset.mem_image] at hk
      obtain ⟨m, hm1, rfl⟩ := hk
      rw [Finset.mem_range] at hm1
      obtain ⟨s', e1, -, e2, e3, -⟩ := hm (12 * e "time" + m) (by omega)
      show monthDays c st.time _ = _
      simp only [monthDays, e1, Option.map_some, Option.getD_some, e2, e3]
  refine ⟨x, r, st, hst, hx, hr, hnames, ?_, fun v a hva => (hvar v a hva).2⟩
  have : "var_a" ∈ r.obj.vars.map Prod.fst := by rw [hnames]; simp
  obtain ⟨⟨v, a⟩, hva, -⟩ := List.mem_map.1 this
  exact (hvar v a hva).1

/-- Any frequency other than "MS" and "D" is refused before anything is drawn. -/
theorem C78_frequency (rng : Rng K) (c : Calendar) (y n seed : Nat) (f : String)
    (hf : f ≠ "MS" ∧ f ≠ "D") :
    generateTestDataTime rng y n c seed f = .error .valueError := by
  simp only [generateTestDataTime, generateTimeStub, stubBounds, if_neg hf.1, if_neg hf.2, error_bind]

/-- A generator that always draws a half: every sample of both fields is 110. -/
example : ∃ x r, generateTestDataTime (K := ℚ) ⟨fun _ _ => 1 / 2, fun _ _ => 1 / 2⟩ 1981 5 .julian 123
      = .ok x ∧ annualAverageDS x = .ok r ∧ r.obj.vars.map Prod.fst = ["var_a", "var_b"] := by
  obtain ⟨x, r, st, -, h1, h2, h3, -⟩ :=
    C78_annual (K := ℚ) ⟨fun _ _ => 1 / 2, fun _ _ => 1 / 2⟩ .julian (y := 1981) (n := 5)
      (by norm_num) (by norm_num) 123
  exact ⟨x, r, h1, h2, h3⟩

/-- `C78_fields`, `C78_seed_zero` and `C78_monthly` on five years from 1981. -/
example : (∃ x, generateTestDataTime (K := ℚ) ⟨fun _ _ => 1 / 2, fun _ _ => 1 / 2⟩ 1981 5 .julian 123 = .ok x ∧
      x.obj.vars.map Prod.fst = ["lat", "lon", "var_a", "var_b"]) ∧
    (∃ x, generateTestDataTime (K := ℚ) ⟨fun _ _ => 1 / 2, fun _ _ => 1 / 2⟩ 1981 5 .julian 0 = .ok x ∧
      x.obj.vars.lookup "var_a" = x.obj.vars.lookup "var_b") ∧
    (∃ x r, generateTestDataTime (K := ℚ) ⟨fun _ _ => 1 / 2, fun _ _ => 1 / 2⟩ 1981 5 .julian 123 = .ok x ∧
      monthlyAverageDS x = .ok r ∧ r.axes = x.axes) := by
  refine ⟨?_, C78_seed_zero _ _ (by norm_num), ?_⟩
  · obtain ⟨x, st, -, h1, -, h2, -⟩ := C78_fields (K := ℚ) ⟨fun _ _ => 1 / 2, fun _ _ => 1 / 2⟩ .julian (y := 1981)
      (n := 5) (by norm_num) 123
    exact ⟨x, h1, h2⟩
  · obtain ⟨x, r, h1, h2, h3, -⟩ := C78_monthly (K := ℚ) ⟨fun _ _ => 1 / 2, fun _ _ => 1 / 2⟩ .julian (y := 1981)
      (n := 5) (by norm_num) (by norm_num) 123
    exact ⟨x, r, h1, h2, h3⟩

end

end Momlevel.Props
