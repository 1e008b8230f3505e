import Verif.Spec.TimeSeries
import Verif.Lemmas.Group
import Verif.Lemmas.Midpoint

/-! # Groups of a time axis -/

set_option linter.unusedSectionVars false

namespace Momlevel
open Momlevel.Fl Momlevel.Spec

theorem getD_map_eq {α : Type*} (l : List α) (f : α → Nat) {i : Nat} (hi : i < l.length) (k : Nat) :
    (l.map f).getD i 0 = k ↔ l[i]?.map f = some k := by
  simp [List.getD_eq_getElem?_getD, hi]

theorem posSet_years (ax : TimeAxis) (y : Nat) : posSet ax.years y = inYear ax.stamps y := by
  ext i
  simp only [posSet, inYear, TimeAxis.years, Finset.mem_filter, Finset.mem_range, List.length_map]
  exact and_congr_right (fun hi => getD_map_eq _ _ hi _)

theorem posSet_months (ax : TimeAxis) (m : Nat) : posSet ax.months m = inMonth ax.stamps m := by
  ext i
  simp only [posSet, inMonth, TimeAxis.months, Finset.mem_filter, Finset.mem_range, List.length_map]
  exact and_congr_right (fun hi => getD_map_eq _ _ hi _)

theorem groupPos_years_lt {ax : TimeAxis} {y i : Nat} (h : i ∈ groupPos ax.years y) :
    i < ax.stamps.length := by
  have := (mem_groupPos.1 h).1
  simpa [TimeAxis.years] using this

theorem getD_valid {ax : TimeAxis} (hv : ∀ s ∈ ax.stamps, s.date.Valid ax.cal) {i : Nat}
    (hi : i < ax.stamps.length) : (ax.stamps.getD i midMonths.default).date.Valid ax.cal := by
  rw [List.getD_eq_getElem?_getD, List.getElem?_eq_getElem hi]
  exact hv _ (List.getElem_mem hi)

/-- The weight the model uses is the length of the month of the sample. -/
theorem weight_eq {ax : TimeAxis} (hv : ∀ s ∈ ax.stamps, s.date.Valid ax.cal) {i : Nat}
    (hi : i < ax.stamps.length) :
    daysInMonth ax.cal (ax.stamps.getD i midMonths.default).date.year
      (ax.stamps.getD i midMonths.default).date.month = monthDays ax.cal ax.stamps i := by
  have h := getD_valid hv hi
  rw [daysInMonth_eq _ _ h.2.1 h.2.2.1, monthDays, List.getD_eq_getElem?_getD,
    List.getElem?_eq_getElem hi]
  rfl

theorem mSum_eq (c : Calendar) (y : Nat) {n : Nat} (hn : n ≤ 12) :
    Date.mSum c y n = ((List.range n).map (fun m => monthLength c y (m + 1))).sum := by
  unfold Date.mSum
  congr 1
  refine List.map_congr_left (fun m hm => ?_)
  have := List.mem_range.1 hm
  exact daysInMonth_eq c y (by omega) (by omega)

theorem midYear_spec (c : Calendar) {y : Nat} (hy : 1 ≤ y) : IsMidYear c y (midYear c y) := by
  have h1 := midYear_year c hy
  rw [midYear_eq c hy] at h1 ⊢
  have hv := Date.valid_ofOrd c ((Date.mk y 1 1).ord c + daysInYear c y / 2)
  have ho := Date.ord_ofOrd c ((Date.mk y 1 1).ord c + daysInYear c y / 2)
  refine ⟨hv, h1, by show _ % 2 * _ < _; omega, ?_⟩
  generalize Date.ofOrd c ((Date.mk y 1 1).ord c + daysInYear c y / 2) = d at *
  simp only at h1
  rw [Date.ord_eq, h1, show (Date.mk y 1 1).ord c = Date.ySum c (y - 1) from rfl] at ho
  have hd : dayOfYear c d - 1 = daysInYear c y / 2 := by
    rw [dayOfYear, ← mSum_eq c d.year (show d.month - 1 ≤ 12 by have := hv.2.2.1; omega), h1]
    have := hv.2.2.2.1
    omega
  rw [hd, ← daysInYear_eq]
  show 2 * (_ + daysInYear c y % 2 * 43200000000) = _
  omega

theorem midMonths_spec (c : Calendar) {y m : Nat} (hy : 1 ≤ y) (hm : m < 12) :
    ∃ s, (midMonths c y)[m]? = some s ∧ IsMidMonth c y (m + 1) s := by
  refine ⟨_, midMonths_getElem c hy hm, ⟨hy, by simp, by show m + 1 ≤ 12; omega, by simp, ?_⟩, rfl, rfl, ?_, ?_⟩
  · have := daysInMonth_pos c y (m + 1)
    show 1 + daysInMonth c y (m + 1) / 2 ≤ daysInMonth c y (m + 1)
    omega
  · show _ % 2 * _ < _; omega
  · rw [← daysInMonth_eq c y (by omega) (by omega)]
    simp only
    omega

end Momlevel
