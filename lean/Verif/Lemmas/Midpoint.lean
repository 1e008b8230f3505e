import Verif.Lemmas.Calendar

/-! # Midpoints of months and years -/

namespace Momlevel
open Date

theorem midpoint_midnight {c : Calendar} {a b : Date} (hab : a.ord c ≤ b.ord c) :
    midpoint c (Stamp.midnight a) (Stamp.midnight b)
      = ⟨ofOrd c (a.ord c + (b.ord c - a.ord c) / 2), (b.ord c - a.ord c) % 2 * 43200000000⟩ := by
  obtain ⟨n, hn⟩ := Nat.exists_eq_add_of_le hab
  have e : (Stamp.midnight a).toUs c
      + halfTimedelta ((Stamp.midnight b).toUs c - (Stamp.midnight a).toUs c)
      = ((a.ord c * 86400000000 + n * 43200000000 : Nat) : Int) := by
    simp only [Stamp.toUs, Stamp.midnight, hn, halfTimedelta, usPerDay]
    push_cast
    split_ifs <;> omega
  have h1 : (a.ord c * 86400000000 + n * 43200000000) / 86400000000 = a.ord c + n / 2 := by omega
  have h2 : (a.ord c * 86400000000 + n * 43200000000) % 86400000000 = n % 2 * 43200000000 := by omega
  rw [midpoint, e, Stamp.ofUs, Int.toNat_natCast, usPerDay, h1, h2, hn, Nat.add_sub_cancel_left]

/-- The start of the next month. -/
theorem ord_next_month (c : Calendar) {y m : Nat} (hy : 1 ≤ y) (hm : m < 12) :
    (Date.mk (y + (m + 1) / 12) ((m + 1) % 12 + 1) 1).ord c
      = (Date.mk y (m + 1) 1).ord c + daysInMonth c y (m + 1) := by
  obtain ⟨y, rfl⟩ := Nat.exists_eq_add_of_le' hy
  by_cases h : m = 11
  · subst h
    simp only [ord_eq, Nat.add_sub_cancel, Nat.reduceAdd, Nat.reduceDiv, Nat.reduceMod, ySum_succ,
      ← mSum_twelve, mSum_succ _ _ 11, mSum_zero, Nat.reduceSub]
    omega
  · have h1 : (m + 1) / 12 = 0 := by omega
    have h2 : (m + 1) % 12 = m + 1 := by omega
    simp only [h1, h2, ord_eq, Nat.add_zero, Nat.add_sub_cancel, mSum_succ]
    omega

theorem ofOrd_month (c : Calendar) {y m k : Nat} (hy : 1 ≤ y) (h1 : 1 ≤ m) (h2 : m ≤ 12)
    (hk : k < daysInMonth c y m) : ofOrd c ((Date.mk y m 1).ord c + k) = ⟨y, m, 1 + k⟩ := by
  have hv : (Date.mk y m (1 + k)).Valid c := ⟨hy, h1, h2, by simp, by show 1 + k ≤ daysInMonth c y m; omega⟩
  rw [← ofOrd_ord hv]
  congr 1
  simp only [ord_eq]
  omega

theorem midMonths_length (c : Calendar) (y : Nat) : (midMonths c y).length = 12 := by
  simp [midMonths, monthStarts]

theorem midMonths_getElem (c : Calendar) {y m : Nat} (hy : 1 ≤ y) (hm : m < 12) :
    (midMonths c y)[m]? = some ⟨⟨y, m + 1, 1 + daysInMonth c y (m + 1) / 2⟩,
      daysInMonth c y (m + 1) % 2 * 43200000000⟩ := by
  have l1 : (monthStarts y 13).getD m midMonths.default = Stamp.midnight ⟨y, m + 1, 1⟩ := by
    have h1 : m / 12 = 0 := by omega
    have h2 : m % 12 = m := by omega
    rw [List.getD_eq_getElem?_getD, monthStarts, List.getElem?_map, List.getElem?_range (by omega)]
    simp [h1, h2]
  have l2 : (monthStarts y 13).getD (m + 1) midMonths.default
      = Stamp.midnight ⟨y + (m + 1) / 12, (m + 1) % 12 + 1, 1⟩ := by
    rw [List.getD_eq_getElem?_getD, monthStarts, List.getElem?_map, List.getElem?_range (by omega)]
    simp
  have ho := ord_next_month c hy hm
  have hp := daysInMonth_pos c y (m + 1)
  have : (monthStarts y 13).length - 1 = 12 := by simp [monthStarts]
  simp only [midMonths]
  rw [this, List.getElem?_map, List.getElem?_range (by omega)]
  simp only [Option.map_some, l1, l2]
  rw [midpoint_midnight (by omega), ho, Nat.add_sub_cancel_left,
    ofOrd_month c hy (by omega) (by omega) (by omega)]

theorem ord_next_year (c : Calendar) {y : Nat} (hy : 1 ≤ y) :
    (Date.mk (y + 1) 1 1).ord c = (Date.mk y 1 1).ord c + daysInYear c y := by
  obtain ⟨y, rfl⟩ := Nat.exists_eq_add_of_le' hy
  simp only [ord_eq, Nat.add_sub_cancel, ySum_succ, Nat.sub_self, mSum_zero]
  omega

theorem midYear_eq (c : Calendar) {y : Nat} (hy : 1 ≤ y) :
    midYear c y = ⟨ofOrd c ((Date.mk y 1 1).ord c + daysInYear c y / 2),
      daysInYear c y % 2 * 43200000000⟩ := by
  have ho := ord_next_year c hy
  have e : midYear c y = midpoint c (Stamp.midnight ⟨y, 1, 1⟩) (Stamp.midnight ⟨y + 1, 1, 1⟩) := by
    simp [midYear, yearStarts, List.range_succ]
  rw [e, midpoint_midnight (by omega), ho, Nat.add_sub_cancel_left]

theorem midYear_year (c : Calendar) {y : Nat} (hy : 1 ≤ y) : (midYear c y).date.year = y := by
  rw [midYear_eq c hy]
  have hp := daysInYear_pos c y
  refine year_of_ord (valid_ofOrd c _) hy ?_ ?_
  · rw [ord_ofOrd]; omega
  · rw [ord_ofOrd, ord_next_year c hy]; omega

end Momlevel
