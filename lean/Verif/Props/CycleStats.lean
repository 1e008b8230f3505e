import Verif.Props.TimeStub

/-! # Statistics of a list and the middle of two times -/

set_option linter.unusedSectionVars false

namespace Momlevel.Props
open Momlevel Momlevel.Fl Momlevel.Spec

/-! ### Minimum, maximum and standard deviation of a list -/

section stats
variable {K : Type} [Field K] [LinearOrder K] [IsStrictOrderedRing K]

theorem foldr_min {l : List (Fl K)} (hl : ∀ v ∈ l, ∃ a, v = fin a) :
    (l = [] ∧ l.foldr (fun a b => if Fl.le b a then b else a) nan = nan) ∨
    ∃ q, l.foldr (fun a b => if Fl.le b a then b else a) nan = fin q ∧ fin q ∈ l ∧
      ∀ a, fin a ∈ l → q ≤ a := by
  induction l with
  | nil => exact Or.inl ⟨rfl, rfl⟩
  | cons v l ih =>
    right
    obtain ⟨a, rfl⟩ := hl v (by simp)
    rcases ih (fun v hv => hl v (by simp [hv])) with ⟨rfl, h⟩ | ⟨q, h, hm, hle⟩
    · exact ⟨a, by simp, by simp, fun b hb => by simp at hb; rw [hb]⟩
    · rw [List.foldr_cons, h, Fl.le_fin]
      by_cases hqa : q ≤ a
      · refine ⟨q, by simp [hqa], by simp [hm], fun b hb => ?_⟩
        rcases List.mem_cons.1 hb with h | h
        · obtain rfl : b = a := by simpa using h
          exact hqa
        · exact hle b h
      · refine ⟨a, by simp [hqa], by simp, fun b hb => ?_⟩
        rcases List.mem_cons.1 hb with h | h
        · obtain rfl : b = a := by simpa using h
          exact le_refl _
        · exact (not_le.1 hqa).le.trans (hle b h)

theorem foldr_max {l : List (Fl K)} (hl : ∀ v ∈ l, ∃ a, v = fin a) :
    (l = [] ∧ l.foldr (fun a b => if Fl.le a b then b else a) nan = nan) ∨
    ∃ q, l.foldr (fun a b => if Fl.le a b then b else a) nan = fin q ∧ fin q ∈ l ∧
      ∀ a, fin a ∈ l → a ≤ q := by
  induction l with
  | nil => exact Or.inl ⟨rfl, rfl⟩
  | cons v l ih =>
    right
    obtain ⟨a, rfl⟩ := hl v (by simp)
    rcases ih (fun v hv => hl v (by simp [hv])) with ⟨rfl, h⟩ | ⟨q, h, hm, hle⟩
    · exact ⟨a, by simp, by simp, fun b hb => by simp at hb; rw [hb]⟩
    · rw [List.foldr_cons, h, Fl.le_fin]
      by_cases hqa : a ≤ q
      · refine ⟨q, by simp [hqa], by simp [hm], fun b hb => ?_⟩
        rcases List.mem_cons.1 hb with h | h
        · obtain rfl : b = a := by simpa using h
          exact hqa
        · exact hle b h
      · refine ⟨a, by simp [hqa], by simp, fun b hb => ?_⟩
        rcases List.mem_cons.1 hb with h | h
        · obtain rfl : b = a := by simpa using h
          exact le_refl _
        · exact (hle b h).trans (not_le.1 hqa).le

theorem mem_present_list {pos : List Nat} {v : Nat → Fl K} (hv : ∀ i ∈ pos, FN (v i)) :
    (∀ w ∈ (pos.map v).filter Fl.notnull, ∃ a, w = fin a) ∧
    (∀ a, fin a ∈ (pos.map v).filter Fl.notnull ↔ ∃ i ∈ pos.toFinset, v i = fin a) ∧
    ((pos.map v).filter Fl.notnull = [] → ∀ i ∈ pos.toFinset, v i = nan) := by
  refine ⟨fun w hw => ?_, fun a => ?_, fun h i hi => ?_⟩
  · obtain ⟨h1, h2⟩ := List.mem_filter.1 hw
    obtain ⟨i, hi, rfl⟩ := List.mem_map.1 h1
    rcases hv i hi with h | h
    · rw [h] at h2; simp [Fl.notnull] at h2
    · exact h
  · simp only [List.mem_filter, List.mem_map, List.mem_toFinset]
    constructor
    · rintro ⟨h, -⟩; exact h
    · intro h; exact ⟨h, rfl⟩
  · rw [List.mem_toFinset] at hi
    rcases hv i hi with h' | ⟨a, h'⟩
    · exact h'
    · have : v i ∈ (pos.map v).filter Fl.notnull :=
        List.mem_filter.2 ⟨List.mem_map_of_mem hi, by rw [h']; rfl⟩
      rw [h] at this
      simp at this

theorem nanmin_spec {pos : List Nat} {v : Nat → Fl K} (hv : ∀ i ∈ pos, FN (v i)) :
    IsMin pos.toFinset v (nanmin (pos.map v)) := by
  obtain ⟨h1, h2, h3⟩ := mem_present_list hv
  rcases foldr_min h1 with ⟨h, hf⟩ | ⟨q, hf, hm, hle⟩
  · exact Or.inl ⟨h3 h, hf⟩
  · exact Or.inr ⟨q, hf, (h2 q).1 hm, fun i hi a ha => hle a ((h2 a).2 ⟨i, hi, ha⟩)⟩

theorem nanmax_spec {pos : List Nat} {v : Nat → Fl K} (hv : ∀ i ∈ pos, FN (v i)) :
    IsMax pos.toFinset v (nanmax (pos.map v)) := by
  obtain ⟨h1, h2, h3⟩ := mem_present_list hv
  rcases foldr_max h1 with ⟨h, hf⟩ | ⟨q, hf, hm, hle⟩
  · exact Or.inl ⟨h3 h, hf⟩
  · exact Or.inr ⟨q, hf, (h2 q).1 hm, fun i hi a ha => hle a ((h2 a).2 ⟨i, hi, ha⟩)⟩

theorem card_present_pos {S : Finset Nat} {v : Nat → Fl K} (h : ∃ i ∈ S, v i ≠ nan) :
    (0 : K) < ((present S v).card : K) := by
  obtain ⟨i, hi, hv⟩ := h
  have : 0 < (present S v).card := Finset.card_pos.2 ⟨i, Finset.mem_filter.2 ⟨hi, hv⟩⟩
  exact_mod_cast this

/-- The mean lies between the minimum and the maximum. -/
theorem min_le_mean_le_max {S : Finset Nat} {v : Nat → Fl K} {a b c : K} (h1 : IsMin S v (fin a))
    (h2 : IsMean S v (fin b)) (h3 : IsMax S v (fin c)) (hv : ∀ i ∈ S, FN (v i)) :
    a ≤ b ∧ b ≤ c := by
  rcases h1 with ⟨-, h1⟩ | ⟨a', h1, -, hmin⟩
  · simp at h1
  rcases h3 with ⟨-, h3⟩ | ⟨c', h3, -, hmax⟩
  · simp at h3
  rcases h2 with ⟨-, h2⟩ | ⟨hex, b', h2, hmean⟩
  · simp at h2
  obtain rfl : a = a' := by simpa using h1
  obtain rfl : b = b' := by simpa using h2
  obtain rfl : c = c' := by simpa using h3
  have hpos := card_present_pos hex
  have hval : ∀ i ∈ present S v, a ≤ val0 (v i) ∧ val0 (v i) ≤ c := by
    intro i hi
    obtain ⟨hi1, hi2⟩ := Finset.mem_filter.1 hi
    rcases hv i hi1 with h | ⟨x, h⟩
    · exact absurd h hi2
    · rw [h]; exact ⟨hmin i hi1 x h, hmax i hi1 x h⟩
  constructor
  · refine le_of_mul_le_mul_right ?_ hpos
    rw [hmean, mul_comm, ← nsmul_eq_mul]
    exact Finset.card_nsmul_le_sum _ _ _ (fun i hi => (hval i hi).1)
  · refine le_of_mul_le_mul_right ?_ hpos
    rw [hmean, mul_comm c, ← nsmul_eq_mul]
    exact Finset.sum_le_card_nsmul _ _ _ (fun i hi => (hval i hi).2)

/-- A standard deviation is zero exactly when the samples present are all equal. -/
theorem std_zero_iff {S : Finset Nat} {v : Nat → Fl K} {s : K} (h : IsStd S v (fin s))
    (hv : ∀ i ∈ S, FN (v i)) :
    0 ≤ s ∧ (s = 0 ↔ ∀ i ∈ S, ∀ j ∈ S, v i ≠ nan → v j ≠ nan → v i = v j) := by
  rcases h with ⟨-, h⟩ | ⟨q, s', hmean, h, hs, hex, hsum⟩
  · simp at h
  obtain rfl : s = s' := by simpa using h
  have hpos := card_present_pos hex
  refine ⟨hs, ?_, ?_⟩
  · intro h0 i hi j hj hvi hvj
    have hz : ∑ i ∈ present S v, (val0 (v i) - q) * (val0 (v i) - q) = 0 := by
      rw [← hsum, h0]; ring
    have hz' := (Finset.sum_eq_zero_iff_of_nonneg (fun i _ => mul_self_nonneg _)).1 hz
    have hone : ∀ i ∈ S, v i ≠ nan → v i = fin q := by
      intro i hi hvi
      have := hz' i (Finset.mem_filter.2 ⟨hi, hvi⟩)
      rcases hv i hi with h | ⟨a, h⟩
      · exact absurd h hvi
      · rw [h, val0_fin] at this
        have := sub_eq_zero.1 (mul_self_eq_zero.1 this)
        rw [h, this]
    rw [hone i hi hvi, hone j hj hvj]
  · intro hall
    rcases hmean with ⟨-, hmean⟩ | ⟨-, q', hq, hmean⟩
    · simp at hmean
    obtain rfl : q = q' := by simpa using hq
    obtain ⟨j, hj, hvj⟩ := hex
    rcases hv j hj with h | ⟨a, ha⟩
    · exact absurd h hvj
    have hone : ∀ i ∈ present S v, val0 (v i) = a := by
      intro i hi
      obtain ⟨hi1, hi2⟩ := Finset.mem_filter.1 hi
      rw [hall i hi1 j hj hi2 hvj, ha]; rfl
    have hqa : q = a := by
      have e : q * ((present S v).card : K) = a * ((present S v).card : K) := by
        rw [hmean, Finset.sum_congr rfl hone, Finset.sum_const, nsmul_eq_mul, mul_comm]
      exact mul_right_cancel₀ hpos.ne' e
    have h0 : s * s * ((present S v).card : K) = 0 := by
      rw [hsum]
      refine Finset.sum_eq_zero (fun i hi => ?_)
      rw [hone i hi, hqa]; ring
    rcases mul_eq_zero.1 h0 with h | h
    · exact mul_self_eq_zero.1 h
    · exact absurd h hpos.ne'

end stats

theorem nanstd_fin {l : List (Fl ℝ)} (hl : ∀ x ∈ l, FN x) {q : ℝ} (hq : nanmean l = fin q) :
    nanstd l = flSqrt (nanmean (l.map (fun w => (w - fin q) * (w - fin q)))) := by
  have key : ∀ l : List (Fl ℝ), (∀ x ∈ l, FN x) →
      ((l.filter notnull).map (fun w => (w - fin q) * (w - fin q))).foldr (· + ·) (fin 0)
        = nansum (l.map (fun w => (w - fin q) * (w - fin q))) ∧
      (l.filter notnull).length = ((l.map (fun w => (w - fin q) * (w - fin q))).filter notnull).length := by
    intro l
    induction l with
    | nil => intro _; exact ⟨rfl, rfl⟩
    | cons a l ih =>
      intro h
      obtain ⟨i1, i2⟩ := ih (fun x hx => h x (List.mem_cons_of_mem _ hx))
      rcases h a (by simp) with rfl | ⟨x, rfl⟩
      · have e : (nan - fin q) * (nan - fin q) = (nan : Fl ℝ) := by simp
        rw [List.map_cons, nansum_cons, e, ← i1, List.filter_cons_of_neg (by simp [notnull]),
          List.filter_cons_of_neg (by simp [notnull])]
        refine ⟨?_, i2⟩
        rw [fillna_nan, i1, nansum_eq, fin_add, zero_add]
        intro y hy
        obtain ⟨w, hw, rfl⟩ := List.mem_map.1 hy
        rcases h w (List.mem_cons_of_mem _ hw) with rfl | ⟨x, rfl⟩ <;> simp
      · have e : (fin x - fin q) * (fin x - fin q) = (fin ((x - q) * (x - q)) : Fl ℝ) := by simp
        rw [List.map_cons, nansum_cons, e, ← i1, List.filter_cons_of_pos (by simp [notnull]),
          List.filter_cons_of_pos (by simp [notnull]), List.map_cons, List.foldr_cons, e]
        refine ⟨rfl, ?_⟩
        rw [List.length_cons, List.length_cons, i2]
  obtain ⟨k1, k2⟩ := key l hl
  show flSqrt (_ / fin ((l.filter notnull).length : ℝ)) = flSqrt (_ / fin _)
  rw [hq, k1, k2]

theorem nanstd_spec {pos : List Nat} (hn : pos.Nodup) {v : Nat → Fl ℝ}
    (hv : ∀ i ∈ pos, FN (v i)) : IsStd pos.toFinset v (nanstd (pos.map v)) := by
  have hm := nanmean_spec hn hv
  rcases hm with ⟨hall, h⟩ | ⟨hex, q, h, hq⟩
  · left
    refine ⟨hall, ?_⟩
    have : (pos.map v).filter notnull = [] := by
      rw [List.filter_eq_nil_iff]
      intro x hx
      obtain ⟨i, hi, rfl⟩ := List.mem_map.1 hx
      rw [hall i (by simpa using hi)]
      simp [notnull]
    unfold nanstd
    have e : (fin 0 / fin 0 : Fl ℝ) = nan := by
      show (if _ then _ else _) = _
      simp [Fl.infOfSign]
    simp only [this, List.map_nil, List.foldr_nil, List.length_nil, Nat.cast_zero, e]
    rfl
  · right
    rw [nanstd_fin (by
      intro x hx
      obtain ⟨i, hi, rfl⟩ := List.mem_map.1 hx
      exact hv i hi) h, List.map_map]
    set d : Nat → Fl ℝ := (fun w : Fl ℝ => (w - fin q) * (w - fin q)) ∘ v with hd
    have hdv : ∀ i ∈ pos, FN (d i) := by
      intro i hi
      rcases hv i hi with h | ⟨a, h⟩ <;> simp [hd, h]
    have hdn : ∀ i ∈ pos, d i ≠ nan ↔ v i ≠ nan := by
      intro i hi
      rcases hv i hi with h | ⟨a, h⟩ <;> simp [hd, h]
    have hpres : present pos.toFinset d = present pos.toFinset v := by
      refine Finset.filter_congr (fun i hi => hdn i (by simpa using hi))
    rcases nanmean_spec hn hdv with ⟨hall, -⟩ | ⟨-, s, hs, hsum⟩
    · obtain ⟨i, hi, hvi⟩ := hex
      exact absurd (hall i hi) ((hdn i (by simpa using hi)).2 hvi)
    · rw [hs]
      have hpos := card_present_pos hex
      rw [hpres] at hsum
      have hsq : ∀ i ∈ present pos.toFinset v, val0 (d i) = (val0 (v i) - q) * (val0 (v i) - q) := by
        intro i hi
        obtain ⟨hi1, hi2⟩ := Finset.mem_filter.1 hi
        rcases hv i (by simpa using hi1) with h | ⟨a, h⟩
        · exact absurd h hi2
        · simp [hd, h]
      rw [Finset.sum_congr rfl hsq] at hsum
      have hs0 : 0 ≤ s := by
        have : 0 ≤ s * ((present pos.toFinset v).card : ℝ) := by
          rw [hsum]; exact Finset.sum_nonneg (fun i _ => mul_self_nonneg _)
        exact nonneg_of_mul_nonneg_left this hpos
      refine ⟨q, Real.sqrt s, Or.inr ⟨hex, q, rfl, hq⟩, ?_, Real.sqrt_nonneg _, hex, ?_⟩
      · simp [flSqrt, Fl.liftFn, not_lt.2 hs0]
      · rw [Real.mul_self_sqrt hs0, hsum]

/-! ### The time axis -/

/-- The middle of two times, rounded to a microsecond, lies between them. -/
theorem halfTimedelta_bounds (n : Int) : n - 1 ≤ 2 * halfTimedelta n ∧ 2 * halfTimedelta n ≤ n + 1 := by
  unfold halfTimedelta; split_ifs <;> omega

theorem halfTimedelta_mem (n : Int) : min n 0 ≤ halfTimedelta n ∧ halfTimedelta n ≤ max n 0 := by
  unfold halfTimedelta; split_ifs <;> omega

theorem toUs_ofUs (c : Calendar) {n : Int} (hn : 0 ≤ n) : (Stamp.ofUs c n).toUs c = n := by
  simp only [Stamp.toUs, Stamp.ofUs, Date.ord_ofOrd]
  rw [Nat.div_add_mod']
  omega

theorem midpoint_toUs (c : Calendar) (a b : Stamp) :
    (midpoint c a b).toUs c = a.toUs c + halfTimedelta (b.toUs c - a.toUs c) := by
  have h1 := halfTimedelta_mem (b.toUs c - a.toUs c)
  have ha : 0 ≤ a.toUs c := Int.natCast_nonneg _
  have hb : 0 ≤ b.toUs c := Int.natCast_nonneg _
  rw [midpoint, toUs_ofUs]
  omega

theorem midpoint_valid (c : Calendar) (a b : Stamp) : (midpoint c a b).date.Valid c :=
  Date.valid_ofOrd c _

theorem toUs_elapsed {c : Calendar} {s : Stamp} (h : s.date.Valid c) :
    s.toUs c = (elapsed c s : Int) := by
  rw [elapsed_eq h, Stamp.toUs, usPerDay]

/-- The middle of two times in one year is in that year. -/
theorem midpoint_year {c : Calendar} {a b : Stamp} {y : Nat} (ha : a.date.Valid c)
    (hb : b.date.Valid c) (hay : a.date.year = y) (hby : b.date.year = y)
    (ua : a.us < 86400000000) (ub : b.us < 86400000000) : (midpoint c a b).date.year = y := by
  have hy : 1 ≤ y := hay ▸ ha.1
  have h0 := midpoint_toUs c a b
  have h1 := halfTimedelta_mem (b.toUs c - a.toUs c)
  have hle : ∀ s : Stamp, s.date.Valid c → s.date.year = y → s.us < 86400000000 →
      (Date.mk y 1 1).ord c ≤ s.date.ord c ∧ s.date.ord c < (Date.mk (y + 1) 1 1).ord c := by
    intro s hs hsy _
    have := Date.ord_bounds hs
    rw [hsy] at this
    refine ⟨?_, this.2.2⟩
    rw [show (Date.mk y 1 1).ord c = Date.ySum c (y - 1) from rfl]
    omega
  obtain ⟨a1, a2⟩ := hle a ha hay ua
  obtain ⟨b1, b2⟩ := hle b hb hby ub
  have hmu : (midpoint c a b).us < 86400000000 := by
    simp only [midpoint, Stamp.ofUs, usPerDay]
    exact Nat.mod_lt _ (Nat.zero_lt_succ _)
  have key : ∀ A B M Y Z u v w : Nat, ((M * 86400000000 + w : Nat) : Int)
        ≥ min ((A * 86400000000 + u : Nat) : Int) ((B * 86400000000 + v : Nat) : Int) →
      ((M * 86400000000 + w : Nat) : Int)
        ≤ max ((A * 86400000000 + u : Nat) : Int) ((B * 86400000000 + v : Nat) : Int) →
      u < 86400000000 → v < 86400000000 → w < 86400000000 →
      Y ≤ A → Y ≤ B → A < Z → B < Z → Y ≤ M ∧ M < Z := by
    intro A B M Y Z u v w h1 h2 hu hv hw hA hB hA' hB'
    rw [ge_iff_le, min_le_iff] at h1
    rw [le_max_iff] at h2
    norm_cast at h1 h2
    constructor
    · rcases h1 with h1 | h1 <;> omega
    · rcases h2 with h2 | h2 <;> omega
  have e : ∀ s : Stamp, s.toUs c = ((s.date.ord c * 86400000000 + s.us : Nat) : Int) := by
    intro s; rw [Stamp.toUs, usPerDay]
  have gen : ∀ A B H : Int, min (B - A) 0 ≤ H ∧ H ≤ max (B - A) 0 →
      A + H ≥ min A B ∧ A + H ≤ max A B := by
    intro A B H h
    omega
  obtain ⟨l1, l2⟩ := gen _ _ _ h1
  rw [← h0] at l1 l2
  rw [e a, e b, e (midpoint c a b)] at l1 l2
  have h2 := key _ _ _ _ _ _ _ _ l1 l2 ua ub hmu a1 b1 a2 b2
  exact Date.year_of_ord (midpoint_valid c a b) hy h2.1 h2.2

end Momlevel.Props
