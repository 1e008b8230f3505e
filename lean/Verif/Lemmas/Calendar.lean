import Verif.Spec.Calendar
import Mathlib.Tactic.Linarith
import Mathlib.Tactic.NormNum
import Mathlib.Tactic.IntervalCases

/-! # Lemmas about calendars and date arithmetic -/

namespace Momlevel

theorem isLeap_iff (c : Calendar) (y : Nat) : isLeap c y = true ↔ Spec.Leap c y := by
  cases c <;> simp only [isLeap, Spec.Leap, beq_iff_eq, bne_iff_ne, Bool.or_eq_true,
    Bool.and_eq_true, Bool.false_eq_true]
  · omega
  · split <;> omega

theorem daysInMonth_eq (c : Calendar) (y : Nat) {m : Nat} (h1 : 1 ≤ m) (h2 : m ≤ 12) :
    daysInMonth c y m = Spec.monthLength c y m := by
  have hl := isLeap_iff c y
  by_cases h : isLeap c y = true
  · have h' := hl.1 h
    interval_cases m <;> cases c <;> simp_all [daysInMonth, Spec.monthLength]
  · have h' : ¬ Spec.Leap c y := fun q => h (hl.2 q)
    interval_cases m <;> cases c <;> simp_all [daysInMonth, Spec.monthLength]

theorem daysInMonth_pos (c : Calendar) (y m : Nat) : 28 ≤ daysInMonth c y m := by
  cases c <;> simp only [daysInMonth] <;> (try split) <;> (try split) <;> omega

theorem daysInMonth_le (c : Calendar) (y m : Nat) : daysInMonth c y m ≤ 31 := by
  cases c <;> simp only [daysInMonth] <;> (try split) <;> (try split) <;> omega

theorem daysInYear_eq (c : Calendar) (y : Nat) : daysInYear c y = Spec.yearLength c y := by
  have hl := isLeap_iff c y
  by_cases h : isLeap c y = true
  · have h' := hl.1 h
    cases c <;> simp_all [daysInYear, daysInMonth, Spec.yearLength, List.range_succ]
  · have h' : ¬ Spec.Leap c y := fun q => h (hl.2 q)
    cases c <;> simp_all [daysInYear, daysInMonth, Spec.yearLength, List.range_succ]

theorem daysInYear_le (c : Calendar) (y : Nat) : daysInYear c y ≤ 366 := by
  rw [daysInYear_eq]; unfold Spec.yearLength; split_ifs <;> omega

theorem daysInYear_pos (c : Calendar) (y : Nat) : 360 ≤ daysInYear c y := by
  rw [daysInYear_eq]; unfold Spec.yearLength; split_ifs <;> omega

namespace Date

theorem valid_next {c : Calendar} {d : Date} (h : d.Valid c) : (d.next c).Valid c := by
  obtain ⟨h1, h2, h3, h4, h5⟩ := h
  unfold next
  split_ifs with a b
  · exact ⟨h1, h2, h3, by simp, a⟩
  · refine ⟨h1, by simp, b, le_refl _, ?_⟩
    have := daysInMonth_pos c d.year (d.month + 1)
    show 1 ≤ daysInMonth c d.year (d.month + 1)
    omega
  · refine ⟨by simp, le_refl _, by simp, le_refl _, ?_⟩
    have := daysInMonth_pos c (d.year + 1) 1
    show 1 ≤ daysInMonth c (d.year + 1) 1
    omega

/-- Days of a year before a month (months counted from 0). -/
def mSum (c : Calendar) (y n : Nat) : Nat :=
  ((List.range n).map (fun m => daysInMonth c y (m + 1))).sum

/-- Days before a year (years counted from 0). -/
def ySum (c : Calendar) (n : Nat) : Nat :=
  ((List.range n).map (fun y => daysInYear c (y + 1))).sum

theorem mSum_zero (c : Calendar) (y : Nat) : mSum c y 0 = 0 := rfl
theorem ySum_zero (c : Calendar) : ySum c 0 = 0 := rfl

theorem mSum_succ (c : Calendar) (y n : Nat) :
    mSum c y (n + 1) = mSum c y n + daysInMonth c y (n + 1) := by
  simp [mSum, List.range_succ]

theorem ySum_succ (c : Calendar) (n : Nat) :
    ySum c (n + 1) = ySum c n + daysInYear c (n + 1) := by
  simp [ySum, List.range_succ]

theorem mSum_twelve (c : Calendar) (y : Nat) : mSum c y 12 = daysInYear c y := rfl

theorem ySum_eq (c : Calendar) (y : Nat) : ySum c (y - 1) = Spec.daysBeforeYear c y := by
  simp only [ySum, Spec.daysBeforeYear, daysInYear_eq]

theorem ord_eq (c : Calendar) (d : Date) :
    d.ord c = ySum c (d.year - 1) + mSum c d.year (d.month - 1) + (d.day - 1) := rfl

theorem ord_next {c : Calendar} {d : Date} (h : d.Valid c) : (d.next c).ord c = d.ord c + 1 := by
  obtain ⟨y, m, d⟩ := d
  obtain ⟨h1, h2, h3, h4, h5⟩ := h
  simp only at h1 h2 h3 h4 h5
  obtain ⟨y, rfl⟩ := Nat.exists_eq_add_of_le' h1
  obtain ⟨m, rfl⟩ := Nat.exists_eq_add_of_le' h2
  unfold next
  split_ifs with a b
  · simp only [ord_eq]; omega
  · simp only at a b
    simp only [ord_eq, Nat.add_sub_cancel, mSum_succ]
    omega
  · simp only at a b
    obtain rfl : m = 11 := by omega
    simp only [ord_eq, Nat.add_sub_cancel, ySum_succ, mSum_zero, Nat.sub_self,
      ← mSum_twelve, mSum_succ _ _ 11]
    omega

theorem valid_addDays {c : Calendar} {d : Date} (h : d.Valid c) (n : Nat) :
    (d.addDays c n).Valid c := by
  induction n with
  | zero => exact h
  | succ n ih => unfold addDays at *; rw [Function.iterate_succ_apply']; exact valid_next ih

theorem ord_addDays {c : Calendar} {d : Date} (h : d.Valid c) (n : Nat) :
    (d.addDays c n).ord c = d.ord c + n := by
  induction n with
  | zero => rfl
  | succ n ih =>
    have hv := valid_addDays h n
    unfold addDays at *
    rw [Function.iterate_succ_apply', ord_next hv, ih, Nat.add_assoc]

theorem valid_first (c : Calendar) {y m : Nat} (hy : 1 ≤ y) (h1 : 1 ≤ m) (h2 : m ≤ 12) :
    (Date.mk y m 1).Valid c := by
  have := daysInMonth_pos c y m
  exact ⟨hy, h1, h2, le_refl _, by show 1 ≤ daysInMonth c y m; omega⟩

theorem iter_day (c : Calendar) (y m : Nat) {k : Nat} (hk : k < daysInMonth c y m) :
    (next c)^[k] ⟨y, m, 1⟩ = ⟨y, m, 1 + k⟩ := by
  induction k with
  | zero => rfl
  | succ k ih =>
    rw [Function.iterate_succ_apply', ih (by omega), next, if_pos (by show 1 + k < daysInMonth c y m; omega)]
    simp only [mk.injEq, true_and]; omega

theorem iter_month (c : Calendar) (y m : Nat) :
    (next c)^[daysInMonth c y m] ⟨y, m, 1⟩
      = if m < 12 then ⟨y, m + 1, 1⟩ else ⟨y + 1, 1, 1⟩ := by
  have := daysInMonth_pos c y m
  obtain ⟨n, hn⟩ := Nat.exists_eq_add_of_le' (show 1 ≤ daysInMonth c y m by omega)
  rw [hn, Function.iterate_succ_apply', iter_day c y m (by omega), next,
    if_neg (by show ¬ 1 + n < daysInMonth c y m; omega)]

theorem iter_months (c : Calendar) (y : Nat) {m : Nat} (hm : m ≤ 11) :
    (next c)^[mSum c y m] ⟨y, 1, 1⟩ = ⟨y, m + 1, 1⟩ := by
  induction m with
  | zero => rfl
  | succ m ih =>
    rw [mSum_succ, Nat.add_comm, Function.iterate_add_apply, ih (by omega), iter_month,
      if_pos (by omega)]

theorem iter_year (c : Calendar) (y : Nat) :
    (next c)^[daysInYear c y] ⟨y, 1, 1⟩ = ⟨y + 1, 1, 1⟩ := by
  rw [← mSum_twelve, mSum_succ, Nat.add_comm, Function.iterate_add_apply, iter_months c y (le_refl _),
    iter_month, if_neg (by omega)]

theorem iter_years (c : Calendar) (y : Nat) :
    (next c)^[ySum c y] ⟨1, 1, 1⟩ = ⟨y + 1, 1, 1⟩ := by
  induction y with
  | zero => rfl
  | succ y ih => rw [ySum_succ, Nat.add_comm, Function.iterate_add_apply, ih, iter_year]

/-- The date with the ordinal of a valid date is that date. -/
theorem ofOrd_ord {c : Calendar} {d : Date} (h : d.Valid c) : ofOrd c (d.ord c) = d := by
  obtain ⟨y, m, d⟩ := d
  obtain ⟨h1, h2, h3, h4, h5⟩ := h
  simp only at h1 h2 h3 h4 h5
  obtain ⟨y, rfl⟩ := Nat.exists_eq_add_of_le' h1
  obtain ⟨m, rfl⟩ := Nat.exists_eq_add_of_le' h2
  simp only [ord_eq, Nat.add_sub_cancel]
  rw [ofOrd, Nat.add_comm, Function.iterate_add_apply, Nat.add_comm (ySum c y),
    Function.iterate_add_apply, iter_years, iter_months c _ (by omega), iter_day c _ _ (by omega)]
  simp only [mk.injEq, true_and]; omega

theorem ord_injective {c : Calendar} {a b : Date} (ha : a.Valid c) (hb : b.Valid c)
    (h : a.ord c = b.ord c) : a = b := by
  rw [← ofOrd_ord ha, ← ofOrd_ord hb, h]

theorem addDays_eq_ofOrd {c : Calendar} {d : Date} (h : d.Valid c) (n : Nat) :
    d.addDays c n = ofOrd c (d.ord c + n) := by
  rw [← ofOrd_ord (valid_addDays h n), ord_addDays h]

theorem valid_ofOrd (c : Calendar) (n : Nat) : (ofOrd c n).Valid c :=
  valid_addDays (valid_first c (le_refl _) (le_refl _) (by omega)) n

theorem ord_ofOrd (c : Calendar) (n : Nat) : (ofOrd c n).ord c = n := by
  have := ord_addDays (valid_first c (le_refl 1) (le_refl 1) (by omega)) n
  rw [show (Date.mk 1 1 1).ord c = 0 from rfl, Nat.zero_add] at this
  exact this

/-! ### Order of dates -/

theorem mSum_mono (c : Calendar) (y : Nat) {a b : Nat} (h : a ≤ b) : mSum c y a ≤ mSum c y b := by
  induction h with
  | refl => exact le_refl _
  | step _ ih => rw [mSum_succ]; omega

theorem ySum_mono (c : Calendar) {a b : Nat} (h : a ≤ b) : ySum c a ≤ ySum c b := by
  induction h with
  | refl => exact le_refl _
  | step _ ih => rw [ySum_succ]; omega

/-- The ordinal of a valid date lies in its month and its year. -/
theorem ord_bounds {c : Calendar} {d : Date} (h : d.Valid c) :
    ySum c (d.year - 1) + mSum c d.year (d.month - 1) ≤ d.ord c ∧
      d.ord c < ySum c (d.year - 1) + mSum c d.year d.month ∧ d.ord c < ySum c d.year := by
  obtain ⟨y, m, d⟩ := d
  obtain ⟨h1, h2, h3, h4, h5⟩ := h
  simp only at h1 h2 h3 h4 h5
  obtain ⟨y, rfl⟩ := Nat.exists_eq_add_of_le' h1
  obtain ⟨m, rfl⟩ := Nat.exists_eq_add_of_le' h2
  have hm := mSum_mono c (y + 1) h3
  rw [mSum_twelve] at hm
  simp only [ord_eq, Nat.add_sub_cancel, ySum_succ] at *
  rw [mSum_succ] at *
  refine ⟨?_, ?_, ?_⟩ <;> omega

/-- The order of valid dates is the order of their ordinals. -/
theorem lt_iff_ord {c : Calendar} {a b : Date} (ha : a.Valid c) (hb : b.Valid c) :
    lt a b = true ↔ a.ord c < b.ord c := by
  have key : ∀ {a b : Date}, a.Valid c → b.Valid c → lt a b = true → a.ord c < b.ord c := by
    intro a b ha hb h
    have h1 := ord_bounds ha
    have h2 := ord_bounds hb
    have va := ha
    have vb := hb
    obtain ⟨a1, a2, a3, a4, a5⟩ := va
    obtain ⟨b1, b2, b3, b4, b5⟩ := vb
    simp only [lt, Bool.or_eq_true, decide_eq_true_eq, Bool.and_eq_true, beq_iff_eq] at h
    rcases h with h | ⟨hy, h | ⟨hm, h⟩⟩
    · have := ySum_mono c (show a.year ≤ b.year - 1 by omega)
      omega
    · have := mSum_mono c b.year (show a.month ≤ b.month - 1 by omega)
      rw [hy] at h1
      omega
    · simp only [ord_eq, hy, hm]; omega
  refine ⟨key ha hb, fun h => ?_⟩
  by_contra hn
  have : b = a ∨ lt b a = true := by
    obtain ⟨ay, am, ad⟩ := a
    obtain ⟨bY, bm, bd⟩ := b
    simp only [lt, Bool.or_eq_true, decide_eq_true_eq, Bool.and_eq_true, beq_iff_eq, mk.injEq] at *
    omega
  rcases this with rfl | this
  · omega
  · have := key hb ha this
    omega

theorem le_iff_ord {c : Calendar} {a b : Date} (ha : a.Valid c) (hb : b.Valid c) :
    le a b = true ↔ a.ord c ≤ b.ord c := by
  have := lt_iff_ord hb ha
  unfold le
  cases h : lt b a <;> simp_all

/-- A date lies in the year whose first days enclose it. -/
theorem year_of_ord {c : Calendar} {d : Date} (h : d.Valid c) {y : Nat} (hy : 1 ≤ y)
    (h1 : (Date.mk y 1 1).ord c ≤ d.ord c) (h2 : d.ord c < (Date.mk (y + 1) 1 1).ord c) :
    d.year = y := by
  have := ord_bounds h
  obtain ⟨a1, a2, a3, a4, a5⟩ := h
  rw [show (Date.mk y 1 1).ord c = ySum c (y - 1) from rfl] at h1
  rw [show (Date.mk (y + 1) 1 1).ord c = ySum c y from rfl] at h2
  by_contra hne
  rcases Nat.lt_or_gt_of_ne hne with hl | hl
  · have := ySum_mono c (show d.year ≤ y - 1 by omega)
    omega
  · have := ySum_mono c (show y ≤ d.year - 1 by omega)
    omega

end Date

end Momlevel
