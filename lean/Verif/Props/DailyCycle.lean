import Verif.Props.TimeStub
import Verif.Props.AnnualCycle

/-! # C117: annual cycle of daily data and of its monthly averages -/

set_option linter.unusedSectionVars false

namespace Momlevel.Props
open Momlevel Momlevel.Fl Momlevel.Spec

theorem mem_inMonth {stamps : List Stamp} {m i : Nat} :
    i ∈ inMonth stamps m ↔ ∃ h : i < stamps.length, stamps[i].date.month = m := by
  simp only [inMonth, Finset.mem_filter, Finset.mem_range]
  constructor
  · rintro ⟨h, h1⟩
    refine ⟨h, ?_⟩
    simpa [List.getElem?_eq_getElem h] using h1
  · rintro ⟨h, h1⟩
    refine ⟨h, ?_⟩
    simpa [List.getElem?_eq_getElem h] using h1

/-- The samples of a month, year by year. -/
theorem sum_inMonth {M : Type*} [AddCommMonoid M] {stamps : List Stamp} {ys : List Nat}
    (hnd : ys.Nodup) (hmem : ∀ y, y ∈ ys ↔ ∃ s ∈ stamps, s.date.year = y) (m : Nat) (f : Nat → M) :
    ∑ i ∈ inMonth stamps m, f i
      = ∑ k ∈ Finset.range ys.length, ∑ i ∈ inYearMonth stamps (ys.getD k 0) m, f i := by
  rw [← Finset.sum_fiberwise_of_maps_to (s := inMonth stamps m) (t := Finset.range ys.length)
    (g := fun i => ys.idxOf (stamps.getD i midMonths.default).date.year)]
  · refine Finset.sum_congr rfl (fun k hk => Finset.sum_congr ?_ (fun _ _ => rfl))
    have hk' := Finset.mem_range.1 hk
    ext i
    rw [Finset.mem_filter, mem_inMonth, mem_inYearMonth]
    constructor
    · rintro ⟨⟨h, hm⟩, hi⟩
      refine ⟨h, ?_, hm⟩
      simp only [List.getD_eq_getElem?_getD, List.getElem?_eq_getElem h, Option.getD_some] at hi
      have hin := (hmem _).2 ⟨_, List.getElem_mem h, rfl⟩
      rw [List.getD_eq_getElem?_getD, ← hi, List.getElem?_idxOf hin]
      rfl
    · rintro ⟨h, hy, hm⟩
      refine ⟨⟨h, hm⟩, ?_⟩
      simp only [List.getD_eq_getElem?_getD, List.getElem?_eq_getElem h, Option.getD_some,
        List.getElem?_eq_getElem hk'] at hy ⊢
      rw [hy]
      exact hnd.idxOf_getElem k hk'
  · intro i hi
    obtain ⟨h, -⟩ := mem_inMonth.1 hi
    simp only [List.getD_eq_getElem?_getD, List.getElem?_eq_getElem h, Option.getD_some,
      Finset.mem_range]
    exact List.idxOf_lt_length_iff.2 ((hmem _).2 ⟨_, List.getElem_mem h, rfl⟩)

/-- The monthly averages of complete daily data, as an axis with every month and with their values. -/
theorem daily_months {x : Timed (DA (Fl ℝ))} {tc : String} {ax : TimeAxis}
    (hx : x.axes.lookup tc = some ax) (g : CompleteDaily ax) (hfin : ∀ e, ∃ a, x.obj.get e = fin a) :
    ∃ (r1 : Timed (DA (Fl ℝ))) (ys : List Nat) (t : TimeAxis), monthlyAverage x tc = .ok r1 ∧
      ys.Nodup ∧ ys ≠ [] ∧ (∀ y, y ∈ ys ↔ ∃ s ∈ ax.stamps, s.date.year = y) ∧
      r1.obj.dims = (tc, 12 * ys.length) :: x.obj.dims.filter (fun p => p.1 != tc) ∧
      r1.axes.lookup tc = some t ∧ GoodAxis t ∧ AllMonths t ∧ AllMonths ax ∧
      (∀ m < 12, inMonth t.stamps (m + 1)
        = (Finset.range ys.length).image (fun k => 12 * k + m)) ∧
      ∀ (e : Env) (k m : Nat), k < ys.length → m < 12 →
        (inYearMonth ax.stamps (ys.getD k 0) (m + 1)).card = monthLength ax.cal (ys.getD k 0) (m + 1) ∧
        0 < monthLength ax.cal (ys.getD k 0) (m + 1) ∧
        ∃ q : ℝ, r1.obj.get (Function.update e tc (12 * k + m)) = fin q ∧
          (monthLength ax.cal (ys.getD k 0) (m + 1) : ℝ) * q
            = ∑ i ∈ inYearMonth ax.stamps (ys.getD k 0) (m + 1),
                val0 (x.obj.get (Function.update e tc i)) := by
  have hF : ∀ e, FN (x.obj.get e) := fun e => Or.inr (hfin e)
  have gx := g.toGoodAxis
  have hall : ∀ s ∈ ax.stamps, ∀ m, 1 ≤ m → m ≤ 12 →
      ∃ s' ∈ ax.stamps, s'.date.year = s.date.year ∧ s'.date.month = m := fun s hs m h1 h2 => by
    obtain ⟨s', hs', hd⟩ := g.all s hs ⟨s.date.year, m, 1⟩
      (Date.valid_first ax.cal (g.valid s hs).1 h1 h2) rfl
    exact ⟨s', hs', by rw [hd], by rw [hd]⟩
  obtain ⟨s0, hs0⟩ := List.exists_mem_of_ne_nil _ g.nonempty
  obtain ⟨r1, hr1⟩ := (C41_complete (x := x) (tc := tc) hx gx).1 hall
  obtain ⟨ys, hys, hmem, hd1, ⟨t, ht, htc, htl, hmid⟩, hval⟩ := C41_value hx gx hF hr1
  have hx1 : r1.axes.lookup tc = some t := by rw [ht]; simp
  have hne : ys ≠ [] := by
    intro h
    have := (hmem s0.date.year).2 ⟨s0, hs0, rfl⟩
    rw [h] at this
    simp at this
  have hylen : 0 < ys.length := List.length_pos_iff.2 hne
  have hmidx : ∀ (k : Nat) (h : k < t.stamps.length), ∃ y ∈ ys, ys[k / 12]? = some y ∧
      IsMidMonth ax.cal y (k % 12 + 1) t.stamps[k] := by
    intro k h
    have hk : k / 12 < ys.length := by omega
    exact ⟨ys[k / 12], List.getElem_mem _, List.getElem?_eq_getElem hk,
      hmid k _ _ (List.getElem?_eq_getElem hk) (List.getElem?_eq_getElem h)⟩
  have g1 : GoodAxis t := by
    refine ⟨fun h => ?_, fun s hs => ?_⟩
    · rw [h, List.length_nil] at htl; omega
    · obtain ⟨k, hk, rfl⟩ := List.getElem_of_mem hs
      obtain ⟨y, -, -, hm⟩ := hmidx k hk
      rw [htc]; exact hm.1
  refine ⟨r1, ys, t, hr1, hys.imp (fun h => ne_of_lt h), hne, hmem, hd1, hx1, g1, ?_, ?_, ?_, ?_⟩
  · intro m h1 h2
    have h : m - 1 < t.stamps.length := by omega
    obtain ⟨y, -, -, hm⟩ := hmidx (m - 1) h
    refine ⟨_, List.getElem_mem h, ?_⟩
    rw [hm.2.2.1]
    omega
  · intro m h1 h2
    obtain ⟨s', hs', -, hm⟩ := hall s0 hs0 m h1 h2
    exact ⟨s', hs', hm⟩
  · intro m hm
    ext j
    rw [mem_inMonth, Finset.mem_image]
    constructor
    · rintro ⟨h, hj⟩
      obtain ⟨y, -, -, hmj⟩ := hmidx j h
      rw [hmj.2.2.1] at hj
      exact ⟨j / 12, by rw [Finset.mem_range]; omega, by omega⟩
    · rintro ⟨k, hk, rfl⟩
      have hk' := Finset.mem_range.1 hk
      have h : 12 * k + m < t.stamps.length := by omega
      obtain ⟨y, -, -, hmj⟩ := hmidx _ h
      refine ⟨h, ?_⟩
      rw [hmj.2.2.1]
      omega
  · intro e k m hk hm
    have hget : ys.getD k 0 = ys[k] := by
      rw [List.getD_eq_getElem?_getD, List.getElem?_eq_getElem hk]; rfl
    obtain ⟨s, hs, hsy⟩ := (hmem ys[k]).1 (List.getElem_mem hk)
    have hcard : (inYearMonth ax.stamps ys[k] (m + 1)).card = monthLength ax.cal ys[k] (m + 1) := by
      rw [← hsy]; exact card_inYearMonth g hs (by omega) (by omega)
    have hpos : 0 < monthLength ax.cal ys[k] (m + 1) := by
      rw [← daysInMonth_eq _ _ (by omega) (by omega)]
      have := daysInMonth_pos ax.cal ys[k] (m + 1)
      omega
    rw [hget]
    refine ⟨hcard, hpos, ?_⟩
    have h1 : (12 * k + m) / 12 = k := by omega
    have h2 : (12 * k + m) % 12 = m := by omega
    have := hval (Function.update e tc (12 * k + m)) ys[k]
      (by rw [Function.update_self, h1]; exact List.getElem?_eq_getElem hk)
    rw [Function.update_self, h2] at this
    simp only [Function.update_idem] at this
    rcases this with ⟨hnan, -⟩ | ⟨-, q, hq, hs'⟩
    · exfalso
      rw [← hcard, Finset.card_pos] at hpos
      obtain ⟨i, hi⟩ := hpos
      obtain ⟨a, ha⟩ := hfin (Function.update e tc i)
      have := hnan i hi
      simp only [ha] at this
      simp at this
    · refine ⟨q, hq, ?_⟩
      have hpres : present (inYearMonth ax.stamps ys[k] (m + 1))
          (fun i => x.obj.get (Function.update e tc i)) = inYearMonth ax.stamps ys[k] (m + 1) := by
        refine Finset.filter_true_of_mem (fun i _ => ?_)
        obtain ⟨a, ha⟩ := hfin (Function.update e tc i)
        simp only [ha]; simp
      rw [hpres, hcard] at hs'
      rw [mul_comm, hs']

/-- The years that occur. -/
def yearSet (ax : TimeAxis) : Finset Nat := (ax.stamps.map (fun s => s.date.year)).toFinset

theorem sum_yearSet {M : Type*} [AddCommMonoid M] {ax : TimeAxis} {ys : List Nat} (hnd : ys.Nodup)
    (hmem : ∀ y, y ∈ ys ↔ ∃ s ∈ ax.stamps, s.date.year = y) (f : Nat → M) :
    ∑ k ∈ Finset.range ys.length, f (ys.getD k 0) = ∑ y ∈ yearSet ax, f y := by
  have h : yearSet ax = (Finset.range ys.length).image (fun k => ys.getD k 0) := by
    ext y
    simp only [yearSet, List.mem_toFinset, List.mem_map, Finset.mem_image, Finset.mem_range]
    rw [← hmem]
    constructor
    · intro hy
      obtain ⟨k, hk, rfl⟩ := List.getElem_of_mem hy
      exact ⟨k, hk, by simp [hk]⟩
    · rintro ⟨k, hk, rfl⟩
      simp [hk]
  rw [h, Finset.sum_image]
  intro a ha b hb hab
  have ha' := Finset.mem_range.1 (Finset.mem_coe.1 ha)
  have hb' := Finset.mem_range.1 (Finset.mem_coe.1 hb)
  simp only [List.getD_eq_getElem?_getD, List.getElem?_eq_getElem ha',
    List.getElem?_eq_getElem hb', Option.getD_some] at hab
  exact (hnd.getElem_inj_iff (hi := ha') (hj := hb')).1 hab

/-- The annual cycle of complete daily data weights the years by the length of the month, the annual
cycle of its monthly averages weights them equally: with `q y` the mean of the month in year `y`. -/
theorem C117_weights {x : Timed (DA (Fl ℝ))} {tc : String} {ax : TimeAxis}
    (hx : x.axes.lookup tc = some ax) (g : CompleteDaily ax) (hfin : ∀ e, ∃ a, x.obj.get e = fin a)
    (yr yr' : Option Nat) :
    ∃ r1 d m, monthlyAverage x tc = .ok r1 ∧ annualCycle x tc "mean" yr = .ok d ∧
      annualCycle r1 tc "mean" yr' = .ok m ∧
      d.obj.dims = x.obj.dims.map (fun p => if p.1 = tc then (tc, 12) else p) ∧
      m.obj.dims = (tc, 12) :: x.obj.dims.filter (fun p => p.1 != tc) ∧
      ∀ e : Env, e tc < 12 → ∃ (q : Nat → ℝ) (a b : ℝ), d.obj.get e = fin a ∧ m.obj.get e = fin b ∧
        (∀ y ∈ yearSet ax, q y * (monthLength ax.cal y (e tc + 1) : ℝ)
          = ∑ i ∈ inYearMonth ax.stamps y (e tc + 1), val0 (x.obj.get (Function.update e tc i))) ∧
        a * ∑ y ∈ yearSet ax, (monthLength ax.cal y (e tc + 1) : ℝ)
          = ∑ y ∈ yearSet ax, q y * (monthLength ax.cal y (e tc + 1) : ℝ) ∧
        b * ((yearSet ax).card : ℝ) = ∑ y ∈ yearSet ax, q y := by
  obtain ⟨r1, ys, t, h1, hnd, hne, hmem, hd1, hx1, g1, ha1, hax, hin, hq⟩ := daily_months hx g hfin
  have hF : ∀ e, FN (x.obj.get e) := fun e => Or.inr (hfin e)
  have gx := g.toGoodAxis
  obtain ⟨d, hd⟩ := (C40_errors (x := x) (func := "mean") (yr := yr) hx gx).1 ⟨by decide, hax⟩
  obtain ⟨m, hm⟩ := (C40_errors (x := r1) (func := "mean") (yr := yr') hx1 g1).1 ⟨by decide, ha1⟩
  obtain ⟨hdd, hvd⟩ := C40_value hx gx hF hd
  obtain ⟨hdm, hvm⟩ := C40_value hx1 g1 (monthly_FN hF h1) hm
  refine ⟨r1, d, m, h1, hd, hm, hdd, ?_, ?_⟩
  · rw [hdm, hd1, List.map_cons, if_pos rfl]
    congr 1
    conv_rhs => rw [← List.map_id (List.filter (fun p => p.1 != tc) x.obj.dims)]
    refine List.map_congr_left (fun p hp => ?_)
    have := (List.mem_filter.1 hp).2
    simp only [bne_iff_ne, ne_eq] at this
    rw [if_neg this, id]
  intro e he
  have hylen : 0 < ys.length := List.length_pos_iff.2 hne
  have hpres : ∀ S : Finset Nat, present S (fun i => x.obj.get (Function.update e tc i)) = S := by
    intro S
    refine Finset.filter_true_of_mem (fun i _ => ?_)
    obtain ⟨a, ha⟩ := hfin (Function.update e tc i)
    simp only [ha]; simp
  have hpos : ∀ y ∈ yearSet ax, 0 < monthLength ax.cal y (e tc + 1) := by
    intro y hy
    rw [← daysInMonth_eq _ _ (by omega) (by omega)]
    exact lt_of_lt_of_le (by norm_num) (daysInMonth_pos _ _ _)
  -- the mean of the month in every year
  let q : Nat → ℝ := fun y =>
    (∑ i ∈ inYearMonth ax.stamps y (e tc + 1), val0 (x.obj.get (Function.update e tc i)))
      / (monthLength ax.cal y (e tc + 1) : ℝ)
  have hqy : ∀ y ∈ yearSet ax, q y * (monthLength ax.cal y (e tc + 1) : ℝ)
      = ∑ i ∈ inYearMonth ax.stamps y (e tc + 1), val0 (x.obj.get (Function.update e tc i)) := by
    intro y hy
    exact div_mul_cancel₀ _ (by exact_mod_cast (hpos y hy).ne')
  have hqk : ∀ k < ys.length, r1.obj.get (Function.update e tc (12 * k + e tc))
      = fin (q (ys.getD k 0)) := by
    intro k hk
    obtain ⟨-, hp, q', h1, h2⟩ := hq e k (e tc) hk he
    rw [h1]
    congr 1
    have hp' : (monthLength ax.cal (ys.getD k 0) (e tc + 1) : ℝ) ≠ 0 := by exact_mod_cast hp.ne'
    exact eq_div_of_mul_eq hp' (by rw [mul_comm, h2])
  have hcard : ∀ y ∈ yearSet ax,
      (inYearMonth ax.stamps y (e tc + 1)).card = monthLength ax.cal y (e tc + 1) := by
    intro y hy
    simp only [yearSet, List.mem_toFinset, List.mem_map] at hy
    obtain ⟨s, hs, rfl⟩ := hy
    exact card_inYearMonth g hs (by omega) (by omega)
  have hcardY : (yearSet ax).card = ys.length := by
    have := sum_yearSet hnd hmem (fun _ => 1)
    simpa using this.symm
  have hvd' := (hvd e he).1 rfl
  have hvm' := (hvm e he).1 rfl
  obtain ⟨a, had, hsa⟩ : ∃ a, d.obj.get e = fin a ∧
      a * ((inMonth ax.stamps (e tc + 1)).card : ℝ)
        = ∑ i ∈ inMonth ax.stamps (e tc + 1), val0 (x.obj.get (Function.update e tc i)) := by
    rcases hvd' with ⟨hn, -⟩ | ⟨-, a, h, hs⟩
    · exfalso
      obtain ⟨s, hs, hsm⟩ := hax (e tc + 1) (by omega) (by omega)
      obtain ⟨i, hi, rfl⟩ := List.getElem_of_mem hs
      have := hn i (mem_inMonth.2 ⟨hi, hsm⟩)
      obtain ⟨a, ha⟩ := hfin (Function.update e tc i)
      simp only [ha] at this
      simp at this
    · rw [hpres] at hs
      exact ⟨a, h, hs⟩
  have hpm : present (inMonth t.stamps (e tc + 1)) (fun i => r1.obj.get (Function.update e tc i))
      = inMonth t.stamps (e tc + 1) := by
    refine Finset.filter_true_of_mem (fun i hi => ?_)
    rw [hin _ he, Finset.mem_image] at hi
    obtain ⟨k, hk, rfl⟩ := hi
    simp only [hqk k (Finset.mem_range.1 hk)]
    simp
  have hinj : ∀ a ∈ Finset.range ys.length, ∀ b ∈ Finset.range ys.length,
      12 * a + e tc = 12 * b + e tc → a = b := fun a _ b _ h => by omega
  obtain ⟨b, hbm, hsb⟩ : ∃ b, m.obj.get e = fin b ∧
      b * (ys.length : ℝ) = ∑ k ∈ Finset.range ys.length, q (ys.getD k 0) := by
    rcases hvm' with ⟨hn, -⟩ | ⟨-, b, h, hs⟩
    · exfalso
      have := hn (12 * 0 + e tc) (by
        rw [hin _ he, Finset.mem_image]; exact ⟨0, by simpa using hylen, rfl⟩)
      simp only [hqk 0 hylen] at this
      simp at this
    · rw [hpm, hin _ he, Finset.card_image_of_injOn hinj, Finset.card_range,
        Finset.sum_image hinj] at hs
      refine ⟨b, h, hs.trans (Finset.sum_congr rfl (fun k hk => ?_))⟩
      simp only [hqk k (Finset.mem_range.1 hk), val0_fin]
  refine ⟨q, a, b, had, hbm, hqy, ?_, ?_⟩
  · have h2 : ((inMonth ax.stamps (e tc + 1)).card : ℝ)
        = ∑ y ∈ yearSet ax, (monthLength ax.cal y (e tc + 1) : ℝ) := by
      rw [Finset.card_eq_sum_ones, sum_inMonth hnd hmem, sum_yearSet hnd hmem
        (fun y => ∑ i ∈ inYearMonth ax.stamps y (e tc + 1), 1)]
      push_cast
      refine Finset.sum_congr rfl (fun y hy => ?_)
      rw [← hcard y hy, Finset.card_eq_sum_ones]
      push_cast
      rfl
    rw [← h2, hsa, sum_inMonth hnd hmem, sum_yearSet hnd hmem
      (fun y => ∑ i ∈ inYearMonth ax.stamps y (e tc + 1), val0 (x.obj.get (Function.update e tc i)))]
    exact Finset.sum_congr rfl (fun y hy => (hqy y hy).symm)
  · rw [hcardY, hsb, sum_yearSet hnd hmem]

/-- The full claim is: the annual cycle of daily data is the annual cycle of its monthly averages.  It
holds for every month that has the same length in all years: in the calendars without leap years or
with leap years only, in all months but February, and everywhere within years of one length. -/
theorem C117_partial {x : Timed (DA (Fl ℝ))} {tc : String} {ax : TimeAxis}
    (hx : x.axes.lookup tc = some ax) (g : CompleteDaily ax) (hfin : ∀ e, ∃ a, x.obj.get e = fin a)
    (yr yr' : Option Nat) :
    ∃ r1 d m, monthlyAverage x tc = .ok r1 ∧ annualCycle x tc "mean" yr = .ok d ∧
      annualCycle r1 tc "mean" yr' = .ok m ∧
      ∀ e : Env, e tc < 12 →
        (∀ s ∈ ax.stamps, ∀ s' ∈ ax.stamps, monthLength ax.cal s.date.year (e tc + 1)
          = monthLength ax.cal s'.date.year (e tc + 1)) →
        m.obj.get e = d.obj.get e := by
  obtain ⟨r1, d, m, h1, h2, h3, -, -, hv⟩ := C117_weights hx g hfin yr yr'
  refine ⟨r1, d, m, h1, h2, h3, fun e he hl => ?_⟩
  obtain ⟨q, a, b, ha, hb, -, hsa, hsb⟩ := hv e he
  obtain ⟨s, hs⟩ := List.exists_mem_of_ne_nil _ g.nonempty
  have hsY : s.date.year ∈ yearSet ax := by
    simp only [yearSet, List.mem_toFinset, List.mem_map]
    exact ⟨s, hs, rfl⟩
  have hL : ∀ y ∈ yearSet ax, (monthLength ax.cal y (e tc + 1) : ℝ)
      = (monthLength ax.cal s.date.year (e tc + 1) : ℝ) := by
    intro y hy
    simp only [yearSet, List.mem_toFinset, List.mem_map] at hy
    obtain ⟨s', hs', rfl⟩ := hy
    rw [hl s' hs' s hs]
  have hLpos : (0 : ℝ) < (monthLength ax.cal s.date.year (e tc + 1) : ℝ) := by
    rw [← daysInMonth_eq _ _ (by omega) (by omega)]
    exact_mod_cast lt_of_lt_of_le (by norm_num) (daysInMonth_pos _ _ _)
  have hc : (0 : ℝ) < ((yearSet ax).card : ℝ) := by
    exact_mod_cast Finset.card_pos.2 ⟨_, hsY⟩
  have hS : ∑ y ∈ yearSet ax, q y * (monthLength ax.cal y (e tc + 1) : ℝ)
      = ∑ y ∈ yearSet ax, q y * (monthLength ax.cal s.date.year (e tc + 1) : ℝ) :=
    Finset.sum_congr rfl (fun y hy => by rw [hL y hy])
  rw [hS, Finset.sum_congr rfl hL, Finset.sum_const, nsmul_eq_mul, ← Finset.sum_mul, ← hsb] at hsa
  rw [ha, hb]
  congr 1
  have : (a - b) * (((yearSet ax).card : ℝ) * (monthLength ax.cal s.date.year (e tc + 1) : ℝ)) = 0 := by
    linear_combination hsa
  rcases mul_eq_zero.1 this with h | h
  · linarith
  · exact absurd h (mul_pos hc hLpos).ne'

/-- Two years of the calendar without leap years: all twelve months have one length. -/
example (x : DA (Fl ℝ)) (hfin : ∀ e, ∃ a, x.get e = fin a) :
    ∃ r1 d m, monthlyAverage
        ⟨x, [("time", ⟨.noleap, generateDailyTimeaxis 1979 2 .noleap⟩)]⟩ "time" = .ok r1 ∧
      annualCycle ⟨x, [("time", ⟨.noleap, generateDailyTimeaxis 1979 2 .noleap⟩)]⟩ "time" "mean" none
        = .ok d ∧
      annualCycle r1 "time" "mean" none = .ok m ∧
      ∀ e : Env, e "time" < 12 → m.obj.get e = d.obj.get e := by
  obtain ⟨r1, d, m, h1, h2, h3, h⟩ := C117_partial
    (x := ⟨x, [("time", ⟨.noleap, generateDailyTimeaxis 1979 2 .noleap⟩)]⟩) (tc := "time")
    (ax := ⟨.noleap, generateDailyTimeaxis 1979 2 .noleap⟩) (by simp)
    (daily_complete .noleap (by norm_num) (by norm_num)) hfin none none
  exact ⟨r1, d, m, h1, h2, h3, fun e he => h e he (fun _ _ _ _ => rfl)⟩

/-- Daily data over 1979 and 1980: `0` in the first year, `1` in the second. -/
noncomputable def twoYears : Timed (DA (Fl ℝ)) where
  obj := { dims := [("time", 731)]
           get := fun e =>
            if (((generateDailyTimeaxis 1979 2 .prolepticGregorian)[e "time"]?).map
                (fun s => s.date.year)) = some 1980 then fin 1 else fin 0 }
  axes := [("time", ⟨.prolepticGregorian, generateDailyTimeaxis 1979 2 .prolepticGregorian⟩)]

theorem years_twoYears :
    yearSet ⟨.prolepticGregorian, generateDailyTimeaxis 1979 2 .prolepticGregorian⟩ = {1979, 1980} := by
  ext y
  simp only [yearSet, List.mem_toFinset, List.mem_map, Finset.mem_insert, Finset.mem_singleton]
  constructor
  · rintro ⟨s, hs, rfl⟩
    have := (daily_members .prolepticGregorian (by norm_num) 2 s).1 hs
    omega
  · intro hy
    refine ⟨Stamp.midnight ⟨y, 1, 1⟩,
      (daily_members .prolepticGregorian (by norm_num) 2 _).2 ⟨rfl, ?_, ?_⟩, rfl⟩
    · rcases hy with rfl | rfl <;> decide
    · rcases hy with rfl | rfl <;> decide

attribute [local irreducible] generateDailyTimeaxis

/-- For February the full claim is false: with leap years it has different lengths. -/
theorem C117_counterexample :
    ∃ (x : Timed (DA (Fl ℝ))) (ax : TimeAxis), x.axes.lookup "time" = some ax ∧ CompleteDaily ax ∧
      (∀ e, ∃ a, x.obj.get e = fin a) ∧
      ∃ r1 d m, monthlyAverage x "time" = .ok r1 ∧ annualCycle x "time" "mean" none = .ok d ∧
        annualCycle r1 "time" "mean" none = .ok m ∧
        d.obj.get (fun _ => 1) = fin (29 / 57) ∧ m.obj.get (fun _ => 1) = fin (1 / 2) := by
  have hfin : ∀ e, ∃ a, twoYears.obj.get e = fin a := by
    intro e
    simp only [twoYears]
    split
    · exact ⟨_, rfl⟩
    · exact ⟨_, rfl⟩
  have hx : twoYears.axes.lookup "time"
      = some ⟨.prolepticGregorian, generateDailyTimeaxis 1979 2 .prolepticGregorian⟩ := by
    simp [twoYears]
  have g := daily_complete .prolepticGregorian (y := 1979) (n := 2) (by norm_num) (by norm_num)
  obtain ⟨r1, d, m, h1, h2, h3, -, -, hv⟩ := C117_weights hx g hfin none none
  refine ⟨twoYears, _, hx, g, hfin, r1, d, m, h1, h2, h3, ?_⟩
  obtain ⟨q, a, b, ha, hb, hq, hsa, hsb⟩ := hv (fun _ => 1) (by norm_num)
  rw [ha, hb]
  have hc : ∀ y ∈ ({1979, 1980} : Finset Nat), (inYearMonth
      (generateDailyTimeaxis 1979 2 .prolepticGregorian) y 2).card
        = monthLength .prolepticGregorian y 2 := by
    intro y hy
    rw [← years_twoYears] at hy
    simp only [yearSet, List.mem_toFinset, List.mem_map] at hy
    obtain ⟨s, hs, rfl⟩ := hy
    exact card_inYearMonth g hs (by norm_num) (by norm_num)
  have l1 : monthLength .prolepticGregorian 1979 2 = 28 := by decide
  have l2 : monthLength .prolepticGregorian 1980 2 = 29 := by decide
  have hval : ∀ y, ∀ i ∈ inYearMonth (generateDailyTimeaxis 1979 2 .prolepticGregorian) y 2,
      val0 (twoYears.obj.get (Function.update (fun _ => 1) "time" i)) = if y = 1980 then 1 else 0 := by
    intro y i hi
    obtain ⟨hl, hy, -⟩ := mem_inYearMonth.1 hi
    simp only [twoYears, Function.update_self, List.getElem?_eq_getElem hl, Option.map_some, hy,
      Option.some.injEq]
    split <;> simp
  rw [years_twoYears] at hq hsa hsb
  have q1 := hq 1979 (by simp)
  have q2 := hq 1980 (by simp)
  rw [Finset.sum_congr rfl (hval _)] at q1 q2
  have c1 := hc 1979 (by simp)
  have c2 := hc 1980 (by simp)
  norm_num at q1 q2 hsa hsb
  rw [c2] at q2
  rw [l1] at q1 hsa
  rw [l2] at q2 hsa
  norm_num at q1 q2 hsa hsb
  have hq2 : q 1980 = 1 := by linarith
  rw [q1, hq2] at hsa hsb
  constructor
  · congr 1
    linarith
  · congr 1
    linarith

end Momlevel.Props
