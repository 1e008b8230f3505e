import Verif.Props.DailyCycle
import Mathlib.Algebra.Order.Chebyshev

/-! # C146: extremes and spread of daily data and of its monthly averages -/

set_option linter.unusedSectionVars false

namespace Momlevel.Props
open Momlevel Momlevel.Fl Momlevel.Spec

attribute [local irreducible] generateDailyTimeaxis

/-- The smallest and the largest value of the annual cycle of complete daily data enclose those of its monthly
averages. -/
theorem C146_extremes {x : Timed (DA (Fl ℝ))} {tc : String} {ax : TimeAxis}
    (hx : x.axes.lookup tc = some ax) (g : CompleteDaily ax) (hfin : ∀ e, ∃ a, x.obj.get e = fin a)
    (yr yr' : Option Nat) :
    ∃ r1 dmin dmax mmin mmax, monthlyAverage x tc = .ok r1 ∧
      annualCycle x tc "min" yr = .ok dmin ∧ annualCycle x tc "max" yr = .ok dmax ∧
      annualCycle r1 tc "min" yr' = .ok mmin ∧ annualCycle r1 tc "max" yr' = .ok mmax ∧
      ∀ e : Env, e tc < 12 → ∃ a b c d : ℝ, dmin.obj.get e = fin a ∧ mmin.obj.get e = fin b ∧
        mmax.obj.get e = fin c ∧ dmax.obj.get e = fin d ∧ a ≤ b ∧ b ≤ c ∧ c ≤ d := by
  obtain ⟨r1, ys, t, h1, hnd, hne, hmem, hd1, hx1, g1, ha1, hax, hin, hq⟩ := daily_months hx g hfin
  have hF : ∀ e, FN (x.obj.get e) := fun e => Or.inr (hfin e)
  have gx := g.toGoodAxis
  obtain ⟨dmin, hdmin⟩ := (C40_errors (x := x) (func := "min") (yr := yr) hx gx).1 ⟨by decide, hax⟩
  obtain ⟨dmax, hdmax⟩ := (C40_errors (x := x) (func := "max") (yr := yr) hx gx).1 ⟨by decide, hax⟩
  obtain ⟨mmin, hmmin⟩ := (C40_errors (x := r1) (func := "min") (yr := yr') hx1 g1).1 ⟨by decide, ha1⟩
  obtain ⟨mmax, hmmax⟩ := (C40_errors (x := r1) (func := "max") (yr := yr') hx1 g1).1 ⟨by decide, ha1⟩
  refine ⟨r1, dmin, dmax, mmin, mmax, h1, hdmin, hdmax, hmmin, hmmax, fun e he => ?_⟩
  have hylen : 0 < ys.length := List.length_pos_iff.2 hne
  have v1 := ((C40_value hx gx hF hdmin).2 e he).2.1 rfl
  have v2 := ((C40_value hx gx hF hdmax).2 e he).2.2.1 rfl
  have v3 := ((C40_value hx1 g1 (monthly_FN hF h1) hmmin).2 e he).2.1 rfl
  have v4 := ((C40_value hx1 g1 (monthly_FN hF h1) hmmax).2 e he).2.2.1 rfl
  have hmemM : ∀ k < ys.length, 12 * k + e tc ∈ inMonth t.stamps (e tc + 1) := fun k hk => by
    rw [hin _ he, Finset.mem_image]; exact ⟨k, by simpa using hk, rfl⟩
  obtain ⟨s, hs, hsm⟩ := hax (e tc + 1) (by omega) (by omega)
  obtain ⟨i0, hi0, rfl⟩ := List.getElem_of_mem hs
  have hi0' := mem_inMonth.2 ⟨hi0, hsm⟩
  have hnx : ∀ i, x.obj.get (Function.update e tc i) ≠ nan := fun i h => by
    obtain ⟨a, ha⟩ := hfin (Function.update e tc i)
    rw [ha] at h; simp at h
  have hnm : ¬ ∀ i ∈ inMonth t.stamps (e tc + 1), r1.obj.get (Function.update e tc i) = nan := fun h => by
    obtain ⟨-, -, q, hq1, -⟩ := hq e 0 (e tc) hylen he
    rw [h _ (hmemM 0 hylen)] at hq1
    simp at hq1
  rcases v1 with ⟨h, -⟩ | ⟨a, ea, -, la⟩
  · exact absurd (h _ hi0') (hnx i0)
  rcases v2 with ⟨h, -⟩ | ⟨d, ed, -, ld⟩
  · exact absurd (h _ hi0') (hnx i0)
  rcases v3 with ⟨h, -⟩ | ⟨b, eb, ⟨j, hj, hjb⟩, lb⟩
  · exact absurd h hnm
  rcases v4 with ⟨h, -⟩ | ⟨c, ec, ⟨j', hj', hjc⟩, lc⟩
  · exact absurd h hnm
  -- a monthly mean lies between the extremes of its days
  have key : ∀ j ∈ inMonth t.stamps (e tc + 1), ∀ q, r1.obj.get (Function.update e tc j) = fin q → a ≤ q ∧ q ≤ d := by
    intro j hj q hjq
    rw [hin _ he, Finset.mem_image] at hj
    obtain ⟨k, hk, rfl⟩ := hj
    obtain ⟨hc, hp, q', e1, e2⟩ := hq e k (e tc) (Finset.mem_range.1 hk) he
    rw [hjq] at e1
    cases e1
    have hin2 : ∀ i ∈ inYearMonth ax.stamps (ys.getD k 0) (e tc + 1),
        a ≤ val0 (x.obj.get (Function.update e tc i)) ∧ val0 (x.obj.get (Function.update e tc i)) ≤ d := by
      intro i hi
      obtain ⟨hl, -, hm⟩ := mem_inYearMonth.1 hi
      obtain ⟨v, hv⟩ := hfin (Function.update e tc i)
      rw [hv, val0_fin]
      have := mem_inMonth.2 ⟨hl, hm⟩
      exact ⟨la i this v hv, ld i this v hv⟩
    have s1 := Finset.card_nsmul_le_sum _ _ _ (fun i hi => (hin2 i hi).1)
    have s2 := Finset.sum_le_card_nsmul _ _ _ (fun i hi => (hin2 i hi).2)
    rw [hc, nsmul_eq_mul, ← e2] at s1 s2
    have hp' : (0 : ℝ) < (monthLength ax.cal (ys.getD k 0) (e tc + 1) : ℝ) := by exact_mod_cast hp
    exact ⟨le_of_mul_le_mul_left s1 hp', le_of_mul_le_mul_left s2 hp'⟩
  exact ⟨a, b, c, d, ea, eb, ec, ed, (key j hj b hjb).1, lb j' hj' c hjc, (key j' hj' c hjc).2⟩

/-- Standard deviations of the days and of the monthly averages: with `q y` the mean of the month in year `y`, `c`
the mean of the days and `c'` the mean of the `q y`. -/
theorem C146_std {x : Timed (DA (Fl ℝ))} {tc : String} {ax : TimeAxis}
    (hx : x.axes.lookup tc = some ax) (g : CompleteDaily ax) (hfin : ∀ e, ∃ a, x.obj.get e = fin a)
    (yr yr' : Option Nat) :
    ∃ r1 d m, monthlyAverage x tc = .ok r1 ∧ annualCycle x tc "std" yr = .ok d ∧
      annualCycle r1 tc "std" yr' = .ok m ∧
      ∀ e : Env, e tc < 12 → ∃ (q : Nat → ℝ) (a b c c' : ℝ), d.obj.get e = fin a ∧ m.obj.get e = fin b ∧
        0 ≤ a ∧ 0 ≤ b ∧
        (∀ y ∈ yearSet ax, q y * (monthLength ax.cal y (e tc + 1) : ℝ)
          = ∑ i ∈ inYearMonth ax.stamps y (e tc + 1), val0 (x.obj.get (Function.update e tc i))) ∧
        c * ∑ y ∈ yearSet ax, (monthLength ax.cal y (e tc + 1) : ℝ)
          = ∑ y ∈ yearSet ax, q y * (monthLength ax.cal y (e tc + 1) : ℝ) ∧
        c' * ((yearSet ax).card : ℝ) = ∑ y ∈ yearSet ax, q y ∧
        a ^ 2 * ∑ y ∈ yearSet ax, (monthLength ax.cal y (e tc + 1) : ℝ)
          = ∑ y ∈ yearSet ax, ∑ i ∈ inYearMonth ax.stamps y (e tc + 1),
              (val0 (x.obj.get (Function.update e tc i)) - c) ^ 2 ∧
        b ^ 2 * ((yearSet ax).card : ℝ) = ∑ y ∈ yearSet ax, (q y - c') ^ 2 := by
  obtain ⟨r1, ys, t, h1, hnd, hne, hmem, hd1, hx1, g1, ha1, hax, hin, hq⟩ := daily_months hx g hfin
  have hF : ∀ e, FN (x.obj.get e) := fun e => Or.inr (hfin e)
  have gx := g.toGoodAxis
  obtain ⟨d, hd⟩ := (C40_errors (x := x) (func := "std") (yr := yr) hx gx).1 ⟨by decide, hax⟩
  obtain ⟨m, hm⟩ := (C40_errors (x := r1) (func := "std") (yr := yr') hx1 g1).1 ⟨by decide, ha1⟩
  refine ⟨r1, d, m, h1, hd, hm, fun e he => ?_⟩
  have hylen : 0 < ys.length := List.length_pos_iff.2 hne
  have vd := ((C40_value hx gx hF hd).2 e he).2.2.2 rfl
  have vm := ((C40_value hx1 g1 (monthly_FN hF h1) hm).2 e he).2.2.2 rfl
  have hpres : ∀ S : Finset Nat, present S (fun i => x.obj.get (Function.update e tc i)) = S := by
    intro S
    refine Finset.filter_true_of_mem (fun i _ => ?_)
    obtain ⟨a, ha⟩ := hfin (Function.update e tc i)
    simp only [ha]; simp
  have hpos : ∀ y ∈ yearSet ax, 0 < monthLength ax.cal y (e tc + 1) := by
    intro y hy
    rw [← daysInMonth_eq _ _ (by omega) (by omega)]
    exact lt_of_lt_of_le (by norm_num) (daysInMonth_pos _ _ _)
  let q : Nat → ℝ := fun y =>
    (∑ i ∈ inYearMonth ax.stamps y (e tc + 1), val0 (x.obj.get (Function.update e tc i)))
      / (monthLength ax.cal y (e tc + 1) : ℝ)
  have hqy : ∀ y ∈ yearSet ax, q y * (monthLength ax.cal y (e tc + 1) : ℝ)
      = ∑ i ∈ inYearMonth ax.stamps y (e tc + 1), val0 (x.obj.get (Function.update e tc i)) := by
    intro y hy
    exact div_mul_cancel₀ _ (by exact_mod_cast (hpos y hy).ne')
  have hqk : ∀ k < ys.length, r1.obj.get (Function.update e tc (12 * k + e tc))
      = fin (q (ys.getD k 0)) := by
    intro k hk
    obtain ⟨-, hp, q', h1, h2⟩ := hq e k (e tc) hk he
    rw [h1]
    congr 1
    have hp' : (monthLength ax.cal (ys.getD k 0) (e tc + 1) : ℝ) ≠ 0 := by exact_mod_cast hp.ne'
    exact eq_div_of_mul_eq hp' (by rw [mul_comm, h2])
  have hcard : ∀ y ∈ yearSet ax,
      (inYearMonth ax.stamps y (e tc + 1)).card = monthLength ax.cal y (e tc + 1) := by
    intro y hy
    simp only [yearSet, List.mem_toFinset, List.mem_map] at hy
    obtain ⟨s, hs, rfl⟩ := hy
    exact card_inYearMonth g hs (by omega) (by omega)
  have hcardY : (yearSet ax).card = ys.length := by
    have := sum_yearSet hnd hmem (fun _ => 1)
    simpa using this.symm
  have hmemM : ∀ k < ys.length, 12 * k + e tc ∈ inMonth t.stamps (e tc + 1) := fun k hk => by
    rw [hin _ he, Finset.mem_image]; exact ⟨k, by simpa using hk, rfl⟩
  have hpm : present (inMonth t.stamps (e tc + 1)) (fun i => r1.obj.get (Function.update e tc i))
      = inMonth t.stamps (e tc + 1) := by
    refine Finset.filter_true_of_mem (fun i hi => ?_)
    rw [hin _ he, Finset.mem_image] at hi
    obtain ⟨k, hk, rfl⟩ := hi
    simp only [hqk k (Finset.mem_range.1 hk)]
    simp
  have hinj : ∀ a ∈ Finset.range ys.length, ∀ b ∈ Finset.range ys.length,
      12 * a + e tc = 12 * b + e tc → a = b := fun a _ b _ h => by omega
  obtain ⟨s, hs, hsm⟩ := hax (e tc + 1) (by omega) (by omega)
  obtain ⟨i0, hi0, rfl⟩ := List.getElem_of_mem hs
  have hi0' := mem_inMonth.2 ⟨hi0, hsm⟩
  rcases vd with ⟨h, -⟩ | ⟨c, a, hc, ea, a0, -, sa⟩
  · obtain ⟨v, hv⟩ := hfin (Function.update e tc i0)
    have := h _ hi0'
    simp only [hv] at this
    simp at this
  rcases vm with ⟨h, -⟩ | ⟨c', b, hc', eb, b0, -, sb⟩
  · have := h _ (hmemM 0 hylen)
    simp only [hqk 0 hylen] at this
    simp at this
  have hN : ((inMonth ax.stamps (e tc + 1)).card : ℝ) = ∑ y ∈ yearSet ax, (monthLength ax.cal y (e tc + 1) : ℝ) := by
    rw [Finset.card_eq_sum_ones, sum_inMonth hnd hmem, sum_yearSet hnd hmem
      (fun y => ∑ i ∈ inYearMonth ax.stamps y (e tc + 1), 1)]
    push_cast
    refine Finset.sum_congr rfl (fun y hy => ?_)
    rw [← hcard y hy, Finset.card_eq_sum_ones]
    push_cast
    rfl
  refine ⟨q, a, b, c, c', ea, eb, a0, b0, hqy, ?_, ?_, ?_, ?_⟩
  · rcases hc with ⟨-, h⟩ | ⟨-, c2, e2, s2⟩
    · simp at h
    · cases e2
      rw [hpres, hN, sum_inMonth hnd hmem, sum_yearSet hnd hmem
        (fun y => ∑ i ∈ inYearMonth ax.stamps y (e tc + 1), val0 (x.obj.get (Function.update e tc i)))] at s2
      exact s2.trans (Finset.sum_congr rfl (fun y hy => (hqy y hy).symm))
  · rcases hc' with ⟨-, h⟩ | ⟨-, c2, e2, s2⟩
    · simp at h
    · cases e2
      rw [hpm, hin _ he, Finset.card_image_of_injOn hinj, Finset.card_range, Finset.sum_image hinj] at s2
      rw [hcardY, s2, ← sum_yearSet hnd hmem]
      exact Finset.sum_congr rfl (fun k hk => by simp only [hqk k (Finset.mem_range.1 hk), val0_fin])
  · rw [hpres, hN, sum_inMonth hnd hmem, sum_yearSet hnd hmem (fun y => ∑ i ∈ inYearMonth ax.stamps y (e tc + 1),
      (val0 (x.obj.get (Function.update e tc i)) - c) * (val0 (x.obj.get (Function.update e tc i)) - c))] at sa
    simp only [sq]
    exact sa
  · rw [hpm, hin _ he, Finset.card_image_of_injOn hinj, Finset.card_range, Finset.sum_image hinj] at sb
    rw [hcardY, sq, sb, ← sum_yearSet hnd hmem]
    exact Finset.sum_congr rfl (fun k hk => by simp only [hqk k (Finset.mem_range.1 hk), val0_fin, sq])

/-- In a month that has the same length in all years, the standard deviation of the monthly averages over the
years is at most that of the days. -/
theorem C146_spread {x : Timed (DA (Fl ℝ))} {tc : String} {ax : TimeAxis}
    (hx : x.axes.lookup tc = some ax) (g : CompleteDaily ax) (hfin : ∀ e, ∃ a, x.obj.get e = fin a)
    (yr yr' : Option Nat) :
    ∃ r1 d m, monthlyAverage x tc = .ok r1 ∧ annualCycle x tc "std" yr = .ok d ∧
      annualCycle r1 tc "std" yr' = .ok m ∧
      ∀ e : Env, e tc < 12 →
        (∀ s ∈ ax.stamps, ∀ s' ∈ ax.stamps, monthLength ax.cal s.date.year (e tc + 1)
          = monthLength ax.cal s'.date.year (e tc + 1)) →
        ∃ a b : ℝ, d.obj.get e = fin a ∧ m.obj.get e = fin b ∧ 0 ≤ b ∧ b ≤ a := by
  obtain ⟨r1, d, m, h1, hd, hm, hv⟩ := C146_std hx g hfin yr yr'
  refine ⟨r1, d, m, h1, hd, hm, fun e he hl => ?_⟩
  obtain ⟨q, a, b, c, c', ea, eb, a0, b0, hq, hc, hc', sa, sb⟩ := hv e he
  refine ⟨a, b, ea, eb, b0, ?_⟩
  obtain ⟨s0, hs0⟩ := List.exists_mem_of_ne_nil _ g.nonempty
  obtain ⟨L, hL⟩ : ∃ L, L = monthLength ax.cal s0.date.year (e tc + 1) := ⟨_, rfl⟩
  have hLy : ∀ y ∈ yearSet ax, monthLength ax.cal y (e tc + 1) = L ∧
      (inYearMonth ax.stamps y (e tc + 1)).card = L := by
    intro y hy
    simp only [yearSet, List.mem_toFinset, List.mem_map] at hy
    obtain ⟨s, hs, rfl⟩ := hy
    have := hl s hs s0 hs0
    exact ⟨by rw [hL, this], by rw [card_inYearMonth g hs (by omega) (by omega), hL, this]⟩
  have hLpos : (0 : ℝ) < L := by
    rw [hL, ← daysInMonth_eq _ _ (by omega) (by omega)]
    exact_mod_cast lt_of_lt_of_le (by norm_num) (daysInMonth_pos _ _ _)
  have hn : (0 : ℝ) < (yearSet ax).card := by
    have : s0.date.year ∈ yearSet ax := by
      simp only [yearSet, List.mem_toFinset, List.mem_map]; exact ⟨s0, hs0, rfl⟩
    exact_mod_cast Finset.card_pos.2 ⟨_, this⟩
  have hsum : ∑ y ∈ yearSet ax, (monthLength ax.cal y (e tc + 1) : ℝ) = (yearSet ax).card * L := by
    rw [Finset.sum_congr rfl (fun y hy => by rw [(hLy y hy).1] :
      ∀ y ∈ yearSet ax, (monthLength ax.cal y (e tc + 1) : ℝ) = L)]
    simp
  have hcc : c = c' := by
    rw [hsum, Finset.sum_congr rfl (fun y hy => by rw [(hLy y hy).1] :
      ∀ y ∈ yearSet ax, q y * (monthLength ax.cal y (e tc + 1) : ℝ) = q y * L), ← Finset.sum_mul, ← hc'] at hc
    have h : (c - c') * ((yearSet ax).card * L) = 0 := by linear_combination hc
    rcases mul_eq_zero.1 h with h | h
    · linarith
    · exact absurd h (mul_pos hn hLpos).ne'
  subst hcc
  -- year by year, by Cauchy and Schwarz
  have year : ∀ y ∈ yearSet ax, L * (q y - c) ^ 2
      ≤ ∑ i ∈ inYearMonth ax.stamps y (e tc + 1), (val0 (x.obj.get (Function.update e tc i)) - c) ^ 2 := by
    intro y hy
    have cs := sq_sum_le_card_mul_sum_sq (s := inYearMonth ax.stamps y (e tc + 1))
      (f := fun i => val0 (x.obj.get (Function.update e tc i)) - c)
    rw [Finset.sum_sub_distrib, ← hq y hy, Finset.sum_const, nsmul_eq_mul, (hLy y hy).1, (hLy y hy).2] at cs
    have e1 : (q y * L - L * c) ^ 2 = L * (L * (q y - c) ^ 2) := by ring
    rw [e1] at cs
    exact le_of_mul_le_mul_left cs hLpos
  have total := Finset.sum_le_sum year
  rw [← Finset.mul_sum, ← sb, ← sa, hsum] at total
  have hb2 : b ^ 2 ≤ a ^ 2 := by
    have : b ^ 2 * ((yearSet ax).card * L) ≤ a ^ 2 * ((yearSet ax).card * L) := by linarith
    exact le_of_mul_le_mul_right this (mul_pos hn hLpos)
  exact abs_le_of_sq_le_sq' hb2 a0 |>.2

/-- In a February of different lengths the monthly averages can vary more than the days: zero in 1979 and one in
1980 give `√812/57 < 1/2`. -/
theorem C146_february :
    ∃ (x : Timed (DA (Fl ℝ))) (ax : TimeAxis), x.axes.lookup "time" = some ax ∧ CompleteDaily ax ∧
      (∀ e, ∃ a, x.obj.get e = fin a) ∧
      ∃ r1 d m a b, monthlyAverage x "time" = .ok r1 ∧ annualCycle x "time" "std" none = .ok d ∧
        annualCycle r1 "time" "std" none = .ok m ∧
        d.obj.get (fun _ => 1) = fin a ∧ m.obj.get (fun _ => 1) = fin b ∧ a < b := by
  have hfin : ∀ e, ∃ a, twoYears.obj.get e = fin a := by
    intro e
    simp only [twoYears]
    split
    · exact ⟨_, rfl⟩
    · exact ⟨_, rfl⟩
  have hx : twoYears.axes.lookup "time"
      = some ⟨.prolepticGregorian, generateDailyTimeaxis 1979 2 .prolepticGregorian⟩ := by
    simp [twoYears]
  have g := daily_complete .prolepticGregorian (y := 1979) (n := 2) (by norm_num) (by norm_num)
  obtain ⟨r1, d, m, h1, h2, h3, hv⟩ := C146_std hx g hfin none none
  obtain ⟨q, a, b, c, c', ea, eb, a0, b0, hq, hc, hc', sa, sb⟩ := hv (fun _ => 1) (by norm_num)
  refine ⟨twoYears, _, hx, g, hfin, r1, d, m, a, b, h1, h2, h3, ea, eb, ?_⟩
  have hcd : ∀ y ∈ ({1979, 1980} : Finset Nat), (inYearMonth
      (generateDailyTimeaxis 1979 2 .prolepticGregorian) y 2).card
        = monthLength .prolepticGregorian y 2 := by
    intro y hy
    rw [← years_twoYears] at hy
    simp only [yearSet, List.mem_toFinset, List.mem_map] at hy
    obtain ⟨s, hs, rfl⟩ := hy
    exact card_inYearMonth g hs (by norm_num) (by norm_num)
  have l1 : monthLength .prolepticGregorian 1979 2 = 28 := by decide
  have l2 : monthLength .prolepticGregorian 1980 2 = 29 := by decide
  have hval : ∀ y, ∀ i ∈ inYearMonth (generateDailyTimeaxis 1979 2 .prolepticGregorian) y 2,
      val0 (twoYears.obj.get (Function.update (fun _ => 1) "time" i)) = if y = 1980 then 1 else 0 := by
    intro y i hi
    obtain ⟨hl, hy, -⟩ := mem_inYearMonth.1 hi
    simp only [twoYears, Function.update_self, List.getElem?_eq_getElem hl, Option.map_some, hy,
      Option.some.injEq]
    split <;> simp
  rw [years_twoYears] at hq hc hc' sa sb
  have q1 := hq 1979 (by simp)
  have q2 := hq 1980 (by simp)
  have c1 := hcd 1979 (by simp)
  have c2 := hcd 1980 (by simp)
  rw [l1] at c1
  rw [l2] at c2
  rw [Finset.sum_congr rfl (hval _)] at q1 q2
  rw [Finset.sum_pair (by norm_num), Finset.sum_pair (by norm_num)] at sa
  have z1 : ∑ i ∈ inYearMonth (generateDailyTimeaxis 1979 2 .prolepticGregorian) 1979 2,
      (val0 (twoYears.obj.get (Function.update (fun _ => 1) "time" i)) - c) ^ 2 = 28 * c ^ 2 := by
    rw [Finset.sum_congr rfl (fun i hi => by rw [hval _ i hi])]
    simp [c1]
  have z2 : ∑ i ∈ inYearMonth (generateDailyTimeaxis 1979 2 .prolepticGregorian) 1980 2,
      (val0 (twoYears.obj.get (Function.update (fun _ => 1) "time" i)) - c) ^ 2 = 29 * (1 - c) ^ 2 := by
    rw [Finset.sum_congr rfl (fun i hi => by rw [hval _ i hi])]
    simp [c2]
  norm_num at q1 q2 hc hc' sa sb
  rw [z1, z2, l1, l2] at sa
  rw [l1] at q1 hc
  rw [l2, c2] at q2
  rw [l2] at hc
  norm_num at q1 q2 hc hc' sa sb
  have hq2 : q 1980 = 1 := by linarith
  rw [q1, hq2] at hc hc' sb
  have hc3 : c = 29 / 57 := by linarith
  have hc4 : c' = 1 / 2 := by linarith
  rw [hc3] at sa
  rw [hc4] at sb
  norm_num at sa sb
  exact lt_of_pow_lt_pow_left₀ 2 b0 (by linarith)

/-- `C146_extremes` and `C146_spread` for two years of the calendar without leap years. -/
example (x : DA (Fl ℝ)) (hfin : ∀ e, ∃ a, x.get e = fin a) :
    ∃ r1 d m, monthlyAverage
        ⟨x, [("time", ⟨.noleap, generateDailyTimeaxis 1979 2 .noleap⟩)]⟩ "time" = .ok r1 ∧
      annualCycle ⟨x, [("time", ⟨.noleap, generateDailyTimeaxis 1979 2 .noleap⟩)]⟩ "time" "std" none
        = .ok d ∧
      annualCycle r1 "time" "std" none = .ok m ∧
      ∀ e : Env, e "time" < 12 → ∃ a b : ℝ, d.obj.get e = fin a ∧ m.obj.get e = fin b ∧ 0 ≤ b ∧ b ≤ a := by
  obtain ⟨r1, d, m, h1, h2, h3, h⟩ := C146_spread
    (x := ⟨x, [("time", ⟨.noleap, generateDailyTimeaxis 1979 2 .noleap⟩)]⟩) (tc := "time")
    (ax := ⟨.noleap, generateDailyTimeaxis 1979 2 .noleap⟩) (by simp)
    (daily_complete .noleap (by norm_num) (by norm_num)) hfin none none
  exact ⟨r1, d, m, h1, h2, h3, fun e he => h e he (fun _ _ _ _ => rfl)⟩

example : ∃ r1 dmin dmax mmin mmax, monthlyAverage twoYears "time" = .ok r1 ∧
      annualCycle twoYears "time" "min" none = .ok dmin ∧ annualCycle twoYears "time" "max" none = .ok dmax ∧
      annualCycle r1 "time" "min" none = .ok mmin ∧ annualCycle r1 "time" "max" none = .ok mmax ∧
      ∀ e : Env, e "time" < 12 → ∃ a b c d : ℝ, dmin.obj.get e = fin a ∧ mmin.obj.get e = fin b ∧
        mmax.obj.get e = fin c ∧ dmax.obj.get e = fin d ∧ a ≤ b ∧ b ≤ c ∧ c ≤ d :=
  C146_extremes (ax := ⟨.prolepticGregorian, generateDailyTimeaxis 1979 2 .prolepticGregorian⟩) (by simp [twoYears])
    (daily_complete .prolepticGregorian (y := 1979) (n := 2) (by norm_num) (by norm_num))
    (fun e => by
      simp only [twoYears]
      split
      · exact ⟨_, rfl⟩
      · exact ⟨_, rfl⟩) none none

end Momlevel.Props
