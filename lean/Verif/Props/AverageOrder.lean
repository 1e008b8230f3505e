import Verif.Spec.Order
import Verif.Props.Linear
import Verif.Props.LocalTime
import Mathlib.Algebra.Order.BigOperators.Ring.Finset

/-!
# C124: averages preserve order and do not amplify errors
-/

set_option linter.unusedSectionVars false

namespace Momlevel.Props
open Momlevel Momlevel.Fl Momlevel.Spec

variable {K : Type} [Field K] [LinearOrder K] [IsStrictOrderedRing K] {d : K}

theorem noMore_FN {u v : Fl K} (h : NoMore d u v) : FN u ∧ FN v := by
  rcases h with ⟨h1, h2⟩ | ⟨p, q, h1, h2, -⟩
  · exact ⟨Or.inl h1, Or.inl h2⟩
  · exact ⟨Or.inr ⟨_, h1⟩, Or.inr ⟨_, h2⟩⟩

theorem noMore_nan {u v : Fl K} (h : NoMore d u v) : u = nan ↔ v = nan := by
  rcases h with ⟨h1, h2⟩ | ⟨p, q, h1, h2, -⟩ <;> simp [h1, h2]

theorem noMore_val0 {u v : Fl K} (h : NoMore d u v) (hn : v ≠ nan) : val0 u ≤ val0 v + d := by
  rcases h with ⟨h1, h2⟩ | ⟨p, q, h1, h2, h3⟩
  · exact absurd h2 hn
  · simpa [h1, h2] using h3

theorem present_noMore {S : Finset Nat} {u v : Nat → Fl K} (h : ∀ i ∈ S, NoMore d (u i) (v i)) :
    present S u = present S v := by
  refine Finset.filter_congr (fun i hi => ?_)
  rw [Ne, Ne, noMore_nan (h i hi)]

theorem weightedMean_noMore {S : Finset Nat} {W : Nat → Nat} {u v : Nat → Fl K} {x y : Fl K}
    (hW : ∀ i ∈ S, 0 < W i) (h : ∀ i ∈ S, NoMore d (u i) (v i))
    (hx : IsWeightedMean S W u x) (hy : IsWeightedMean S W v y) : NoMore d x y := by
  have hu := present_noMore h
  rcases hy with ⟨hn, rfl⟩ | ⟨⟨j, hj, hvj⟩, q, rfl, hq⟩
  · left
    refine ⟨?_, rfl⟩
    rcases hx with ⟨-, h1⟩ | ⟨⟨i, hi, h1⟩, -⟩
    · exact h1
    · exact absurd ((noMore_nan (h i hi)).2 (hn i hi)) h1
  · right
    have hpos : 0 < ∑ i ∈ present S v, (W i : K) := by
      refine Finset.sum_pos (fun i hi => ?_) ⟨j, Finset.mem_filter.2 ⟨hj, hvj⟩⟩
      exact_mod_cast hW i (Finset.mem_filter.1 hi).1
    rcases hx with ⟨h1, -⟩ | ⟨-, p, rfl, hp⟩
    · exact absurd ((noMore_nan (h j hj)).1 (h1 j hj)) hvj
    refine ⟨p, q, rfl, rfl, ?_⟩
    rw [hu] at hp
    refine le_of_mul_le_mul_right ?_ hpos
    rw [add_mul, hp, hq, Finset.mul_sum, ← Finset.sum_add_distrib]
    refine Finset.sum_le_sum (fun i hi => ?_)
    obtain ⟨hi, hn⟩ := Finset.mem_filter.1 hi
    have := mul_le_mul_of_nonneg_left (noMore_val0 (h i hi) hn) (Nat.cast_nonneg (α := K) (W i))
    linarith

theorem mean_noMore {S : Finset Nat} {u v : Nat → Fl K} {x y : Fl K} (h : ∀ i ∈ S, NoMore d (u i) (v i))
    (hx : IsMean S u x) (hy : IsMean S v y) : NoMore d x y :=
  weightedMean_noMore (fun _ _ => Nat.one_pos) h (isMean_weighted.1 hx) (isMean_weighted.1 hy)

theorem min_noMore {S : Finset Nat} {u v : Nat → Fl K} {x y : Fl K} (h : ∀ i ∈ S, NoMore d (u i) (v i))
    (hx : IsMin S u x) (hy : IsMin S v y) : NoMore d x y := by
  rcases hy with ⟨hn, rfl⟩ | ⟨q, rfl, ⟨j, hj, hvj⟩, hq⟩
  · rcases hx with ⟨-, rfl⟩ | ⟨p, rfl, ⟨i, hi, hui⟩, -⟩
    · exact Or.inl ⟨rfl, rfl⟩
    · rw [(noMore_nan (h i hi)).2 (hn i hi)] at hui
      cases hui
  · rcases h j hj with ⟨-, h2⟩ | ⟨a, b, h1, h2, h3⟩
    · rw [hvj] at h2; cases h2
    · rw [hvj] at h2
      cases h2
      rcases hx with ⟨hn, -⟩ | ⟨p, rfl, -, hp⟩
      · rw [hn j hj] at h1; cases h1
      · exact Or.inr ⟨p, q, rfl, rfl, (hp j hj a h1).trans h3⟩

theorem max_noMore {S : Finset Nat} {u v : Nat → Fl K} {x y : Fl K} (h : ∀ i ∈ S, NoMore d (u i) (v i))
    (hx : IsMax S u x) (hy : IsMax S v y) : NoMore d x y := by
  rcases hx with ⟨hn, rfl⟩ | ⟨p, rfl, ⟨j, hj, huj⟩, hp⟩
  · rcases hy with ⟨-, rfl⟩ | ⟨q, rfl, ⟨i, hi, hvi⟩, -⟩
    · exact Or.inl ⟨rfl, rfl⟩
    · rw [(noMore_nan (h i hi)).1 (hn i hi)] at hvi
      cases hvi
  · rcases h j hj with ⟨h1, -⟩ | ⟨a, b, h1, h2, h3⟩
    · rw [huj] at h1; cases h1
    · rw [huj] at h1
      cases h1
      rcases hy with ⟨hn, -⟩ | ⟨q, rfl, -, hq⟩
      · rw [hn j hj] at h2; cases h2
      · exact Or.inr ⟨p, q, rfl, rfl, h3.trans (by have := hq j hj b h2; linarith)⟩

/-- The standard deviation, on a common scale. -/
theorem std_le {P : Finset Nat} {x y : Nat → ℝ} {mx my s t d : ℝ} (hP : P.Nonempty)
    (hmx : mx * (P.card : ℝ) = ∑ i ∈ P, x i) (hmy : my * (P.card : ℝ) = ∑ i ∈ P, y i)
    (hs : s * s * (P.card : ℝ) = ∑ i ∈ P, (x i - mx) * (x i - mx))
    (ht : t * t * (P.card : ℝ) = ∑ i ∈ P, (y i - my) * (y i - my))
    (hs0 : 0 ≤ s) (ht0 : 0 ≤ t) (hd : 0 ≤ d) (h : ∀ i ∈ P, |x i - y i| ≤ d) : s ≤ t + d := by
  have hc : (0 : ℝ) < (P.card : ℝ) := by exact_mod_cast hP.card_pos
  have cs := Finset.sum_mul_sq_le_sq_mul_sq P (fun i => x i - mx) (fun i => y i - my)
  have e1 : ∑ i ∈ P, (x i - mx) ^ 2 = s * s * P.card := by
    rw [hs]; exact Finset.sum_congr rfl (fun i _ => by ring)
  have e2 : ∑ i ∈ P, (y i - my) ^ 2 = t * t * P.card := by
    rw [ht]; exact Finset.sum_congr rfl (fun i _ => by ring)
  rw [e1, e2] at cs
  have cs' : ∑ i ∈ P, (x i - mx) * (y i - my) ≤ s * t * P.card := by
    refine abs_le_of_sq_le_sq' ?_ (by positivity) |>.2
    calc _ ≤ _ := cs
      _ = _ := by ring
  have e3 : ∑ i ∈ P, (x i - y i) ^ 2 ≤ d * d * P.card := by
    calc ∑ i ∈ P, (x i - y i) ^ 2 ≤ ∑ _i ∈ P, d ^ 2 :=
          Finset.sum_le_sum (fun i hi => by rw [← sq_abs]; exact pow_le_pow_left₀ (abs_nonneg _) (h i hi) 2)
      _ = d * d * P.card := by rw [Finset.sum_const, nsmul_eq_mul]; ring
  have e4 : ∑ i ∈ P, (x i - y i) ^ 2 = (∑ i ∈ P, (x i - mx) ^ 2) + (∑ i ∈ P, (y i - my) ^ 2)
      - 2 * (∑ i ∈ P, (x i - mx) * (y i - my)) + (mx - my) ^ 2 * P.card := by
    have a1 : ∀ i ∈ P, (x i - y i) ^ 2 = (x i - mx) ^ 2 + (y i - my) ^ 2 - 2 * ((x i - mx) * (y i - my))
        + 2 * (mx - my) * (x i - y i) - (mx - my) ^ 2 := fun i _ => by ring
    rw [Finset.sum_congr rfl a1, Finset.sum_sub_distrib, Finset.sum_add_distrib, Finset.sum_sub_distrib,
      Finset.sum_add_distrib, Finset.sum_const, nsmul_eq_mul, ← Finset.mul_sum, ← Finset.mul_sum,
      Finset.sum_sub_distrib, ← hmx, ← hmy]
    ring
  have e5 : (s - t) ^ 2 * P.card ≤ d ^ 2 * P.card := by
    have : 0 ≤ (mx - my) ^ 2 * (P.card : ℝ) := by positivity
    nlinarith
  have e6 : (s - t) ^ 2 ≤ d ^ 2 := le_of_mul_le_mul_right e5 hc
  have := (abs_le_of_sq_le_sq' e6 hd).2
  linarith

theorem mean_unique {S : Finset Nat} {v : Nat → Fl ℝ} {q : ℝ} (h : IsMean S v (fin q)) :
    q * ((present S v).card : ℝ) = ∑ i ∈ present S v, val0 (v i) := by
  rcases h with ⟨-, h⟩ | ⟨-, p, h1, h2⟩
  · cases h
  · cases h1; exact h2

theorem std_noMore {S : Finset Nat} {u v : Nat → Fl ℝ} {x y : Fl ℝ} {d : ℝ} (hd : 0 ≤ d)
    (h : ∀ i ∈ S, NoMore d (u i) (v i) ∧ NoMore d (v i) (u i))
    (hx : IsStd S u x) (hy : IsStd S v y) : NoMore d x y := by
  have hu := present_noMore (fun i hi => (h i hi).1)
  rcases hx with ⟨hn, rfl⟩ | ⟨mx, s, hmx, rfl, hs0, ⟨j, hj, huj⟩, hs⟩
  · rcases hy with ⟨-, rfl⟩ | ⟨q, t, -, rfl, -, ⟨i, hi, hvi⟩, -⟩
    · exact Or.inl ⟨rfl, rfl⟩
    · exact absurd ((noMore_nan (h i hi).1).1 (hn i hi)) hvi
  · rcases hy with ⟨hn, -⟩ | ⟨my, t, hmy, rfl, ht0, -, ht⟩
    · exact absurd ((noMore_nan (h j hj).1).2 (hn j hj)) huj
    · refine Or.inr ⟨s, t, rfl, rfl, ?_⟩
      have e1 := mean_unique hmx
      have e2 := mean_unique hmy
      rw [← hu] at e2 ht
      refine std_le ⟨j, Finset.mem_filter.2 ⟨hj, huj⟩⟩ e1 e2 hs ht hs0 ht0 hd (fun i hi => ?_)
      obtain ⟨hi, hn⟩ := Finset.mem_filter.1 hi
      have hv : v i ≠ nan := fun hh => hn ((noMore_nan (h i hi).1).2 hh)
      rw [abs_le]
      have h1 := noMore_val0 (h i hi).1 hv
      have h2 := noMore_val0 (h i hi).2 hn
      constructor <;> linarith

/-- Annual averages: if one series exceeds another by at most `d` everywhere, so do the averages. -/
theorem C124_annual {x y rx : Timed (DA (Fl K))} {tc : String} {ax : TimeAxis}
    (hx : x.axes.lookup tc = some ax) (hy : y.axes.lookup tc = some ax) (g : GoodAxis ax)
    (hd : x.obj.dims = y.obj.dims) (hs : ∀ e, NoMore d (x.obj.get e) (y.obj.get e))
    (hrx : annualAverage x tc = .ok rx) :
    ∃ ry, annualAverage y tc = .ok ry ∧ ry.obj.dims = rx.obj.dims ∧ ry.axes = rx.axes ∧
      ∀ e n, rx.obj.dims.lookup "time" = some n → e "time" < n →
        NoMore d (rx.obj.get e) (ry.obj.get e) := by
  have hok : ∃ r, annualAverage y tc = .ok r ∧ r.axes = rx.axes := by
    unfold annualAverage at *
    rw [axis_ok hx g.nonempty, ok_bind] at hrx
    rw [axis_ok hy g.nonempty, ok_bind]
    cases hc : annualCheck ax with
    | error => rw [hc] at hrx; cases hrx
    | ok =>
      rw [hc, ok_bind] at hrx
      rw [ok_bind]
      cases hrx
      exact ⟨_, rfl, rfl⟩
  obtain ⟨r, hr, ha⟩ := hok
  obtain ⟨ys, hp, hm, hdx, -, hvx⟩ := C38_value hx g (fun e => (noMore_FN (hs e)).1) hrx
  obtain ⟨zs, hpz, hmz, hdz, -, hvz⟩ := C38_value hy g (fun e => (noMore_FN (hs e)).2) hr
  obtain rfl : ys = zs := eq_of_pairwise_lt hp hpz (fun k => (hm k).trans (hmz k).symm)
  refine ⟨r, hr, by rw [hdz, hdx, hd], ha, fun e n hn he => ?_⟩
  rw [hdx] at hn
  simp only [List.lookup_cons_self, Option.some.injEq] at hn
  subst hn
  have h := List.getElem?_eq_getElem he
  exact weightedMean_noMore (fun i hi => monthDays_pos g hi) (fun i _ => hs _) (hvx e _ h) (hvz e _ h)

/-- Monthly averages. -/
theorem C124_monthly {x y rx : Timed (DA (Fl K))} {tc : String} {ax : TimeAxis}
    (hx : x.axes.lookup tc = some ax) (hy : y.axes.lookup tc = some ax) (g : GoodAxis ax)
    (hd : x.obj.dims = y.obj.dims) (hs : ∀ e, NoMore d (x.obj.get e) (y.obj.get e))
    (hrx : monthlyAverage x tc = .ok rx) :
    ∃ ry, monthlyAverage y tc = .ok ry ∧ ry.obj.dims = rx.obj.dims ∧ ry.axes = rx.axes ∧
      ∀ e n, rx.obj.dims.lookup tc = some n → e tc < n →
        NoMore d (rx.obj.get e) (ry.obj.get e) := by
  have hok : ∃ r, monthlyAverage y tc = .ok r ∧ r.axes = rx.axes := by
    unfold monthlyAverage at *
    rw [axis_ok hx g.nonempty, ok_bind] at hrx
    rw [axis_ok hy g.nonempty, ok_bind]
    dsimp only at hrx ⊢
    split at hrx
    · rw [if_pos ‹_›]
      cases hrx
      exact ⟨_, rfl, rfl⟩
    · cases hrx
  obtain ⟨r, hr, ha⟩ := hok
  obtain ⟨ys, hp, hm, hdx, -, hvx⟩ := C41_value hx g (fun e => (noMore_FN (hs e)).1) hrx
  obtain ⟨zs, hpz, hmz, hdz, -, hvz⟩ := C41_value hy g (fun e => (noMore_FN (hs e)).2) hr
  obtain rfl : ys = zs := eq_of_pairwise_lt hp hpz (fun k => (hm k).trans (hmz k).symm)
  refine ⟨r, hr, by rw [hdz, hdx, hd], ha, fun e n hn he => ?_⟩
  rw [hdx] at hn
  simp only [List.lookup_cons_self, Option.some.injEq] at hn
  subst hn
  have h := List.getElem?_eq_getElem (l := ys) (i := e tc / 12) (by omega)
  exact mean_noMore (fun i _ => hs _) (hvx e _ h) (hvz e _ h)

/-- Annual cycles: mean, minimum and maximum. -/
theorem C124_cycle {x y rx : Timed (DA (Fl ℝ))} {tc func : String} {ax : TimeAxis} {d : ℝ} {yr : Option Nat}
    (hx : x.axes.lookup tc = some ax) (hy : y.axes.lookup tc = some ax) (g : GoodAxis ax)
    (hd : x.obj.dims = y.obj.dims) (hs : ∀ e, NoMore d (x.obj.get e) (y.obj.get e))
    (hrx : annualCycle x tc func yr = .ok rx) :
    ∃ ry, annualCycle y tc func yr = .ok ry ∧ ry.obj.dims = rx.obj.dims ∧ ry.axes = rx.axes ∧
      (func ≠ "std" → ∀ e, e tc < 12 → NoMore d (rx.obj.get e) (ry.obj.get e)) ∧
      (func = "std" → 0 ≤ d → (∀ e, NoMore d (y.obj.get e) (x.obj.get e)) →
        ∀ e, e tc < 12 → NoMore d (rx.obj.get e) (ry.obj.get e)) := by
  have hall : func ∈ ["mean", "min", "max", "std"] ∧ ∀ m, 1 ≤ m → m ≤ 12 → ∃ s ∈ ax.stamps, s.date.month = m := by
    by_contra hcon
    have := (C40_errors (x := x) (func := func) (yr := yr) hx g).2 hcon
    rw [hrx] at this
    cases this
  obtain ⟨r, hr⟩ := (C40_errors (x := y) (func := func) (yr := yr) hy g).1 hall
  obtain ⟨hdx, hvx⟩ := C40_value hx g (fun e => (noMore_FN (hs e)).1) hrx
  obtain ⟨hdy, hvy⟩ := C40_value hy g (fun e => (noMore_FN (hs e)).2) hr
  obtain ⟨-, -, -, -, hax, -⟩ := annualCycle_ok hx g hrx
  obtain ⟨-, -, -, -, hay, -⟩ := annualCycle_ok hy g hr
  refine ⟨r, hr, by rw [hdy, hdx, hd], by rw [hax, hay], fun hf e he => ?_, fun hf h0 hs' e he => ?_⟩
  · obtain ⟨a1, a2, a3, -⟩ := hvx e he
    obtain ⟨b1, b2, b3, -⟩ := hvy e he
    have hm := hall.1
    simp only [List.mem_cons, List.not_mem_nil, or_false] at hm
    rcases hm with rfl | rfl | rfl | rfl
    · exact mean_noMore (fun i _ => hs _) (a1 rfl) (b1 rfl)
    · exact min_noMore (fun i _ => hs _) (a2 rfl) (b2 rfl)
    · exact max_noMore (fun i _ => hs _) (a3 rfl) (b3 rfl)
    · exact absurd rfl hf
  · exact std_noMore h0 (fun i _ => ⟨hs _, hs' _⟩) ((hvx e he).2.2.2 hf) ((hvy e he).2.2.2 hf)

/-! ## Cases -/

/-- The series `locM` raised by a quarter, with the same gap. -/
def locUp : DA (Fl ℚ) := ⟨locM.dims, fun e => locM.get e + fin (1 / 4)⟩

theorem locUp_above : ∀ e, NoMore 0 (locM.get e) (locUp.get e) := by
  intro e
  show NoMore 0 (locM.get e) (locM.get e + fin (1 / 4))
  simp only [locM]
  split
  · exact Or.inl ⟨rfl, rfl⟩
  · refine Or.inr ⟨_, _, rfl, rfl, ?_⟩
    norm_num

theorem locUp_near : ∀ e, NoMore (1 / 4) (locUp.get e) (locM.get e) := by
  intro e
  show NoMore (1 / 4) (locM.get e + fin (1 / 4)) (locM.get e)
  simp only [locM]
  split
  · exact Or.inl ⟨rfl, rfl⟩
  · refine Or.inr ⟨_, _, rfl, rfl, ?_⟩
    norm_num

/-- Both hypotheses hold for a pair of series with a gap, for annual and monthly averages. -/
example : ∃ r r', annualAverage ⟨locM, exMonthly.axes⟩ "time" = .ok r ∧
    annualAverage ⟨locUp, exMonthly.axes⟩ "time" = .ok r' ∧
    ∀ e, e "time" < 1 → NoMore 0 (r.obj.get e) (r'.obj.get e) ∧ NoMore (1 / 4) (r'.obj.get e) (r.obj.get e) := by
  obtain ⟨r, h⟩ := (C38_twelve (x := ⟨locM, exMonthly.axes⟩) (ax := exAxis) (tc := "time") rfl
    exAxis_good.nonempty).1 (by decide)
  obtain ⟨r', h1, h2, h3, h4⟩ := C124_annual (x := ⟨locM, exMonthly.axes⟩)
    (y := ⟨locUp, exMonthly.axes⟩) (tc := "time") (ax := exAxis) rfl rfl exAxis_good rfl
    locUp_above h
  obtain ⟨r'', h5, h6, h7, h8⟩ := C124_annual (x := ⟨locUp, exMonthly.axes⟩) (y := ⟨locM, exMonthly.axes⟩)
    (tc := "time") (ax := exAxis) rfl rfl exAxis_good rfl locUp_near h1
  rw [h] at h5
  cases h5
  have hd : r.obj.dims.lookup "time" = some 1 := by
    unfold annualAverage at h
    have ha : (⟨locM, exMonthly.axes⟩ : Timed (DA (Fl ℚ))).axis "time" = .ok exAxis :=
      axis_ok (x := ⟨locM, exMonthly.axes⟩) rfl exAxis_good.nonempty
    simp only [ha, ok_bind, bind_ok, pure_ok] at h
    obtain ⟨_, _, h⟩ := h
    cases h
    rfl
  refine ⟨r, r', h, h1, fun e he => ⟨h4 e 1 hd he, h8 e 1 (h2 ▸ hd) he⟩⟩

/-- The series `locMR` raised by a quarter. -/
noncomputable def locUpR : DA (Fl ℝ) := ⟨locMR.dims, fun e => locMR.get e + fin (1 / 4)⟩

/-- The spread within every month. -/
example : ∃ r r', annualCycle ⟨locMR, exCycle.axes⟩ "time" "std" none = .ok r ∧
    annualCycle ⟨locUpR, exCycle.axes⟩ "time" "std" none = .ok r' ∧
    ∀ e, e "time" < 12 → NoMore (1 / 4) (r.obj.get e) (r'.obj.get e) := by
  obtain ⟨r, h⟩ := (C40_errors (x := ⟨locMR, exCycle.axes⟩) (tc := "time") (func := "std") (yr := none) rfl
    exCycle_good).1 ⟨by decide, fun m h1 h2 => by
      refine ⟨⟨⟨2001 + (m - 1) / 12, (m - 1) % 12 + 1, 10⟩, 0⟩,
        List.mem_map_of_mem (List.mem_range.2 (by omega)), ?_⟩
      show (m - 1) % 12 + 1 = m
      omega⟩
  have up : ∀ e, NoMore (1 / 4) (locMR.get e) (locUpR.get e) ∧ NoMore (1 / 4) (locUpR.get e) (locMR.get e) := by
    intro e
    show NoMore (1 / 4) (locMR.get e) (locMR.get e + fin (1 / 4)) ∧
      NoMore (1 / 4) (locMR.get e + fin (1 / 4)) (locMR.get e)
    simp only [locMR]
    split
    · exact ⟨Or.inl ⟨rfl, rfl⟩, Or.inl ⟨rfl, rfl⟩⟩
    · refine ⟨Or.inr ⟨_, _, rfl, rfl, ?_⟩, Or.inr ⟨_, _, rfl, rfl, ?_⟩⟩ <;> norm_num
      linarith
  obtain ⟨r', h1, -, -, -, h2⟩ := C124_cycle (x := ⟨locMR, exCycle.axes⟩) (tc := "time")
    (y := ⟨locUpR, exCycle.axes⟩) (d := 1 / 4) rfl rfl exCycle_good rfl
    (fun e => (up e).1) h
  exact ⟨r, r', h, h1, h2 rfl (by norm_num) (fun e => (up e).2)⟩

end Momlevel.Props
