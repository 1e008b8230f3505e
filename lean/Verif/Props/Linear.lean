import Verif.Spec.Linear
import Verif.Props.Annual
import Verif.Props.Monthly
import Verif.Props.AnnualCycle
import Verif.Props.TrendCases

/-!
# C118: averages and trends of a superposition
-/

set_option linter.unusedSectionVars false

namespace Momlevel.Props
open Momlevel Momlevel.Fl Momlevel.Spec

variable {K : Type} [Field K] [LinearOrder K] [IsStrictOrderedRing K]

theorem superposed_FN {a b : K} {u v w : Fl K} (h : Superposed a b u v w) : FN u ∧ FN v ∧ FN w := by
  rcases h with ⟨h1, h2, h3⟩ | ⟨p, q, h1, h2, h3⟩
  · exact ⟨Or.inl h1, Or.inl h2, Or.inl h3⟩
  · exact ⟨Or.inr ⟨_, h1⟩, Or.inr ⟨_, h2⟩, Or.inr ⟨_, h3⟩⟩

theorem superposed_nan {a b : K} {u v w : Fl K} (h : Superposed a b u v w) :
    (u = nan ↔ w = nan) ∧ (v = nan ↔ w = nan) := by
  rcases h with ⟨h1, h2, h3⟩ | ⟨p, q, h1, h2, h3⟩
  · simp [h1, h2, h3]
  · simp [h1, h2, h3]

theorem superposed_val0 {a b : K} {u v w : Fl K} (h : Superposed a b u v w) :
    val0 w = a * val0 u + b * val0 v := by
  rcases h with ⟨h1, h2, h3⟩ | ⟨p, q, h1, h2, h3⟩
  · simp [h1, h2, h3, val0]
  · simp [h1, h2, h3]

theorem present_superposed {a b : K} {S : Finset Nat} {u v w : Nat → Fl K}
    (h : ∀ i ∈ S, Superposed a b (u i) (v i) (w i)) : present S u = present S w ∧ present S v = present S w := by
  constructor
  · refine Finset.filter_congr (fun i hi => ?_)
    rw [Ne, Ne, (superposed_nan (h i hi)).1]
  · refine Finset.filter_congr (fun i hi => ?_)
    rw [Ne, Ne, (superposed_nan (h i hi)).2]

theorem weightedMean_superposed {a b : K} {S : Finset Nat} {W : Nat → Nat} {u v w : Nat → Fl K}
    {x y z : Fl K} (hW : ∀ i ∈ S, 0 < W i) (h : ∀ i ∈ S, Superposed a b (u i) (v i) (w i))
    (hx : IsWeightedMean S W u x) (hy : IsWeightedMean S W v y) (hz : IsWeightedMean S W w z) :
    Superposed a b x y z := by
  obtain ⟨hu, hv⟩ := present_superposed h
  rcases hz with ⟨hn, rfl⟩ | ⟨⟨j, hj, hwj⟩, r, rfl, hr⟩
  · left
    refine ⟨?_, ?_, rfl⟩
    · rcases hx with ⟨-, h1⟩ | ⟨⟨i, hi, h1⟩, -⟩
      · exact h1
      · exact absurd ((superposed_nan (h i hi)).1.2 (hn i hi)) h1
    · rcases hy with ⟨-, h1⟩ | ⟨⟨i, hi, h1⟩, -⟩
      · exact h1
      · exact absurd ((superposed_nan (h i hi)).2.2 (hn i hi)) h1
  · right
    have hpos : 0 < ∑ i ∈ present S w, (W i : K) := by
      refine Finset.sum_pos (fun i hi => ?_) ⟨j, Finset.mem_filter.2 ⟨hj, hwj⟩⟩
      exact_mod_cast hW i (Finset.mem_filter.1 hi).1
    rcases hx with ⟨h1, -⟩ | ⟨-, p, rfl, hp⟩
    · exact absurd ((superposed_nan (h j hj)).1.1 (h1 j hj)) hwj
    rcases hy with ⟨h1, -⟩ | ⟨-, q, rfl, hq⟩
    · exact absurd ((superposed_nan (h j hj)).2.1 (h1 j hj)) hwj
    refine ⟨p, q, rfl, rfl, ?_⟩
    rw [hu] at hp
    rw [hv] at hq
    congr 1
    refine mul_right_cancel₀ hpos.ne' ?_
    rw [hr, add_mul, mul_assoc, mul_assoc, hp, hq, Finset.mul_sum, Finset.mul_sum,
      ← Finset.sum_add_distrib]
    refine Finset.sum_congr rfl (fun i hi => ?_)
    rw [superposed_val0 (h i (Finset.mem_filter.1 hi).1)]
    ring

theorem isMean_weighted {S : Finset Nat} {v : Nat → Fl K} {r : Fl K} :
    IsMean S v r ↔ IsWeightedMean S (fun _ => 1) v r := by
  unfold IsMean IsWeightedMean
  simp

theorem mean_superposed {a b : K} {S : Finset Nat} {u v w : Nat → Fl K}
    {x y z : Fl K} (h : ∀ i ∈ S, Superposed a b (u i) (v i) (w i))
    (hx : IsMean S u x) (hy : IsMean S v y) (hz : IsMean S w z) : Superposed a b x y z :=
  weightedMean_superposed (fun _ _ => Nat.one_pos) h (isMean_weighted.1 hx) (isMean_weighted.1 hy)
    (isMean_weighted.1 hz)

/-- C118: `annual_average` of `a x + b y` is `a` times that of `x` plus `b` times that of `y`. -/
theorem C118_annual {x y w rx ry : Timed (DA (Fl K))} {tc : String} {ax : TimeAxis} {a b : K}
    (hx : x.axes.lookup tc = some ax) (hy : y.axes.lookup tc = some ax)
    (hw : w.axes.lookup tc = some ax) (g : GoodAxis ax)
    (hd : x.obj.dims = w.obj.dims) (hd' : y.obj.dims = w.obj.dims)
    (hs : ∀ e, Superposed a b (x.obj.get e) (y.obj.get e) (w.obj.get e))
    (hrx : annualAverage x tc = .ok rx) (hry : annualAverage y tc = .ok ry) :
    ∃ rw, annualAverage w tc = .ok rw ∧ rw.obj.dims = rx.obj.dims ∧ rw.obj.dims = ry.obj.dims ∧
      rw.axes = rx.axes ∧ rw.axes = ry.axes ∧
      ∀ e n, rw.obj.dims.lookup "time" = some n → e "time" < n →
        Superposed a b (rx.obj.get e) (ry.obj.get e) (rw.obj.get e) := by
  have hok : ∃ r, annualAverage w tc = .ok r ∧ r.axes = rx.axes ∧ r.axes = ry.axes := by
    unfold annualAverage at *
    rw [axis_ok hx g.nonempty, ok_bind] at hrx
    rw [axis_ok hy g.nonempty, ok_bind] at hry
    rw [axis_ok hw g.nonempty, ok_bind]
    cases hc : annualCheck ax with
    | error => rw [hc] at hrx; cases hrx
    | ok =>
      rw [hc, ok_bind] at hrx hry
      rw [ok_bind]
      cases hrx
      cases hry
      exact ⟨_, rfl, rfl, rfl⟩
  obtain ⟨r, hr, ha1, ha2⟩ := hok
  obtain ⟨ys, hp, hm, hdx, -, hvx⟩ := C38_value hx g (fun e => (superposed_FN (hs e)).1) hrx
  obtain ⟨ys', hp', hm', hdy, -, hvy⟩ := C38_value hy g (fun e => (superposed_FN (hs e)).2.1) hry
  obtain ⟨zs, hpz, hmz, hdz, -, hvz⟩ := C38_value hw g (fun e => (superposed_FN (hs e)).2.2) hr
  obtain rfl : ys = zs := eq_of_pairwise_lt hp hpz (fun k => (hm k).trans (hmz k).symm)
  obtain rfl : ys' = ys := eq_of_pairwise_lt hp' hp (fun k => (hm' k).trans (hm k).symm)
  refine ⟨r, hr, by rw [hdz, hdx, hd], by rw [hdz, hdy, hd'], ha1, ha2, fun e n hn he => ?_⟩
  rw [hdz] at hn
  simp only [List.lookup_cons_self, Option.some.injEq] at hn
  subst hn
  have h := List.getElem?_eq_getElem he
  exact weightedMean_superposed (fun i hi => monthDays_pos g hi) (fun i _ => hs _) (hvx e _ h)
    (hvy e _ h) (hvz e _ h)

/-- C118: the same for `monthly_average`. -/
theorem C118_monthly {x y w rx ry : Timed (DA (Fl K))} {tc : String} {ax : TimeAxis} {a b : K}
    (hx : x.axes.lookup tc = some ax) (hy : y.axes.lookup tc = some ax)
    (hw : w.axes.lookup tc = some ax) (g : GoodAxis ax)
    (hd : x.obj.dims = w.obj.dims) (hd' : y.obj.dims = w.obj.dims)
    (hs : ∀ e, Superposed a b (x.obj.get e) (y.obj.get e) (w.obj.get e))
    (hrx : monthlyAverage x tc = .ok rx) (hry : monthlyAverage y tc = .ok ry) :
    ∃ rw, monthlyAverage w tc = .ok rw ∧ rw.obj.dims = rx.obj.dims ∧ rw.obj.dims = ry.obj.dims ∧
      rw.axes = rx.axes ∧ rw.axes = ry.axes ∧
      ∀ e n, rw.obj.dims.lookup tc = some n → e tc < n →
        Superposed a b (rx.obj.get e) (ry.obj.get e) (rw.obj.get e) := by
  have hok : ∃ r, monthlyAverage w tc = .ok r ∧ r.axes = rx.axes ∧ r.axes = ry.axes := by
    unfold monthlyAverage at *
    rw [axis_ok hx g.nonempty, ok_bind] at hrx
    rw [axis_ok hy g.nonempty, ok_bind] at hry
    rw [axis_ok hw g.nonempty, ok_bind]
    dsimp only at hrx hry ⊢
    split at hrx
    · rw [if_pos ‹_›] at hry ⊢
      cases hrx
      cases hry
      exact ⟨_, rfl, rfl, rfl⟩
    · cases hrx
  obtain ⟨r, hr, ha1, ha2⟩ := hok
  obtain ⟨ys, hp, hm, hdx, -, hvx⟩ := C41_value hx g (fun e => (superposed_FN (hs e)).1) hrx
  obtain ⟨ys', hp', hm', hdy, -, hvy⟩ := C41_value hy g (fun e => (superposed_FN (hs e)).2.1) hry
  obtain ⟨zs, hpz, hmz, hdz, -, hvz⟩ := C41_value hw g (fun e => (superposed_FN (hs e)).2.2) hr
  obtain rfl : ys = zs := eq_of_pairwise_lt hp hpz (fun k => (hm k).trans (hmz k).symm)
  obtain rfl : ys' = ys := eq_of_pairwise_lt hp' hp (fun k => (hm' k).trans (hm k).symm)
  refine ⟨r, hr, by rw [hdz, hdx, hd], by rw [hdz, hdy, hd'], ha1, ha2, fun e n hn he => ?_⟩
  rw [hdz] at hn
  simp only [List.lookup_cons_self, Option.some.injEq] at hn
  subst hn
  have h := List.getElem?_eq_getElem (l := ys') (i := e tc / 12) (by omega)
  exact mean_superposed (fun i _ => hs _) (hvx e _ h) (hvy e _ h) (hvz e _ h)

/-- C118: the same for the mean `annual_cycle`. -/
theorem C118_cycle {x y w rx ry : Timed (DA (Fl ℝ))} {tc : String} {ax : TimeAxis} {a b : ℝ}
    {yr : Option Nat} (hx : x.axes.lookup tc = some ax) (hy : y.axes.lookup tc = some ax)
    (hw : w.axes.lookup tc = some ax) (g : GoodAxis ax)
    (hd : x.obj.dims = w.obj.dims) (hd' : y.obj.dims = w.obj.dims)
    (hs : ∀ e, Superposed a b (x.obj.get e) (y.obj.get e) (w.obj.get e))
    (hrx : annualCycle x tc "mean" yr = .ok rx) (hry : annualCycle y tc "mean" yr = .ok ry) :
    ∃ rw, annualCycle w tc "mean" yr = .ok rw ∧ rw.obj.dims = rx.obj.dims ∧
      rw.obj.dims = ry.obj.dims ∧ rw.axes = rx.axes ∧ rw.axes = ry.axes ∧
      ∀ e, e tc < 12 → Superposed a b (rx.obj.get e) (ry.obj.get e) (rw.obj.get e) := by
  have hall : ∀ m, 1 ≤ m → m ≤ 12 → ∃ s ∈ ax.stamps, s.date.month = m := by
    by_contra hcon
    have := (C40_errors (x := x) (func := "mean") (yr := yr) hx g).2 (fun h => hcon h.2)
    rw [hrx] at this
    cases this
  obtain ⟨r, hr⟩ := (C40_errors (x := w) (func := "mean") (yr := yr) hw g).1 ⟨by decide, hall⟩
  obtain ⟨hdx, hvx⟩ := C40_value hx g (fun e => (superposed_FN (hs e)).1) hrx
  obtain ⟨hdy, hvy⟩ := C40_value hy g (fun e => (superposed_FN (hs e)).2.1) hry
  obtain ⟨hdz, hvz⟩ := C40_value hw g (fun e => (superposed_FN (hs e)).2.2) hr
  obtain ⟨-, -, -, -, hax, -⟩ := annualCycle_ok hx g hrx
  obtain ⟨-, -, -, -, hay, -⟩ := annualCycle_ok hy g hry
  obtain ⟨-, -, -, -, haw, -⟩ := annualCycle_ok hw g hr
  refine ⟨r, hr, by rw [hdz, hdx, hd], by rw [hdz, hdy, hd'], by rw [hax, haw], by rw [hay, haw],
    fun e he => ?_⟩
  exact mean_superposed (fun i _ => hs _) ((hvx e he).1 rfl) ((hvy e he).1 rfl) ((hvz e he).1 rfl)

/-! ### Trends -/

theorem superposed_along {x y w : TrendArray K} {a b : K}
    (hs : ∀ e, Superposed a b (x.da.get e) (y.da.get e) (w.da.get e)) (dim : String) (e : Env) (k : Nat) :
    Superposed a b (along x dim e k) (along y dim e k) (along w dim e k) := hs _

theorem overValid_superposed {n : Nat} {a b : K} {u v w : Nat → Fl K} {f : Nat → K}
    {g1 g2 g3 : Nat → K} (h : ∀ k < n, Superposed a b (u k) (v k) (w k))
    (hg : ∀ k < n, g3 k = a * g1 k + b * g2 k) :
    overValid n w (fun k z => f k * (z - g3 k)) = a * overValid n u (fun k z => f k * (z - g1 k))
      + b * overValid n v (fun k z => f k * (z - g2 k)) := by
  unfold overValid
  rw [Finset.mul_sum, Finset.mul_sum, ← Finset.sum_add_distrib]
  refine Finset.sum_congr rfl (fun k hk => ?_)
  have hk := Finset.mem_range.1 hk
  rcases h k hk with ⟨h1, h2, h3⟩ | ⟨p, q, h1, h2, h3⟩
  · rw [h1, h2, h3]; simp [ifValid]
  · rw [h1, h2, h3]
    simp only [ifValid]
    rw [hg k hk]
    ring

theorem normal_superposed {n : Nat} {t : Nat → K} {a b : K} {u v w : Nat → Fl K} {m q m' q' : K}
    (h : ∀ k < n, Superposed a b (u k) (v k) (w k)) (h1 : Normal (fitPairs n t u) m q)
    (h2 : Normal (fitPairs n t v) m' q') :
    Normal (fitPairs n t w) (a * m + b * m') (a * q + b * q') := by
  unfold Normal at *
  rw [lsum_fitPairs, lsum_fitPairs] at *
  have e1 := overValid_superposed (f := fun _ => 1) (g1 := fun k => m * t k + q)
    (g2 := fun k => m' * t k + q') (g3 := fun k => (a * m + b * m') * t k + (a * q + b * q')) h
    (fun k _ => by ring)
  have e2 := overValid_superposed (f := t) (g1 := fun k => m * t k + q)
    (g2 := fun k => m' * t k + q') (g3 := fun k => (a * m + b * m') * t k + (a * q + b * q')) h
    (fun k _ => by ring)
  simp only [one_mul] at e1
  constructor
  · rw [e1]; linear_combination a * h1.1 + b * h2.1
  · rw [e2]; linear_combination a * h1.2 + b * h2.2

/-- C118: slope and intercept of `a x + b y` are those of `x` and `y` combined, for every series with
valid samples at two positions (and missing for a series without valid samples). -/
theorem C118_trend {x y w sx bx sy bY : TrendArray K} {dim : String} {ix : DimIndex K} {n : Nat}
    {u : Option String} {c a b : K} (hx : HasAxis x dim ix n) (hy : HasAxis y dim ix n)
    (hw : HasAxis w dim ix n) (hc : unitScale ix u = some c)
    (hd : x.da.dims = w.da.dims) (hd' : y.da.dims = w.da.dims)
    (hs : ∀ e, Superposed a b (x.da.get e) (y.da.get e) (w.da.get e))
    (hrx : calcLinearTrend x dim u = .ok (sx, bx)) (hry : calcLinearTrend y dim u = .ok (sy, bY)) :
    ∃ sw bw, calcLinearTrend w dim u = .ok (sw, bw) ∧ sw.da.dims = sx.da.dims ∧
      sw.da.dims = sy.da.dims ∧ bw.da.dims = bx.da.dims ∧ bw.da.dims = bY.da.dims ∧
      ∀ e, ((∃ i < n, ∃ j < n, along w dim e i ≠ nan ∧ along w dim e j ≠ nan ∧
            position ix i ≠ position ix j) ∨ ∀ i < n, along w dim e i = nan) →
        Superposed a b (sx.da.get e) (sy.da.get e) (sw.da.get e) ∧
        Superposed a b (bx.da.get e) (bY.da.get e) (bw.da.get e) := by
  obtain ⟨s1, b1, h1, hs1, hb1, hg1, hq1, -⟩ := calc_ok hx hc
  obtain ⟨s2, b2, h2, hs2, hb2, hg2, hq2, -⟩ := calc_ok hy hc
  obtain ⟨s3, b3, h3, hs3, hb3, hg3, hq3, -⟩ := calc_ok hw hc
  rw [hrx] at h1
  rw [hry] at h2
  cases h1
  cases h2
  refine ⟨s3, b3, h3, by rw [hs3, hs1, hd], by rw [hs3, hs2, hd'], by rw [hb3, hb1, hd],
    by rw [hb3, hb2, hd'], fun e he => ?_⟩
  have hal := superposed_along hs dim e
  rcases he with ⟨i, hi, j, hj, hvi, hvj, hne⟩ | hm
  · have ht : OffOrigin ix n := by
      by_contra hcon
      have hz : ∀ k < n, position ix k = 0 := fun k hk => by
        by_contra hk0; exact hcon ⟨k, hk, hk0⟩
      exact hne (by rw [hz i hi, hz j hj])
    have nx : along x dim e i ≠ nan := fun h => hvi ((superposed_nan (hal i)).1.1 h)
    have ny : along y dim e i ≠ nan := fun h => hvi ((superposed_nan (hal i)).2.1 h)
    rcases fit_cases hx (fun k _ => (superposed_FN (hal k)).1) ht with ⟨h, -⟩ | ⟨-, m, q, f1, n1⟩
    · exact absurd (h i hi) nx
    rcases fit_cases hy (fun k _ => (superposed_FN (hal k)).2.1) ht with ⟨h, -⟩ | ⟨-, m', q', f2, n2⟩
    · exact absurd (h i hi) ny
    rcases fit_cases hw (fun k _ => (superposed_FN (hal k)).2.2) ht with ⟨h, -⟩ | ⟨-, m3, q3, f3, n3⟩
    · exact absurd (h i hi) hvi
    obtain ⟨vi, hvi'⟩ := ((superposed_FN (hal i)).2.2).resolve_left hvi
    obtain ⟨vj, hvj'⟩ := ((superposed_FN (hal j)).2.2).resolve_left hvj
    obtain ⟨rfl, rfl⟩ := normal_determined n3 (normal_superposed (fun k _ => hal k) n1 n2) hi hj hvi'
      hvj' hne
    rw [hg1, hg2, hg3, hq1, hq2, hq3, f1, f2, f3]
    constructor
    · refine Or.inr ⟨m * c, m' * c, by rw [fin_mul], by rw [fin_mul], ?_⟩
      rw [fin_mul]; congr 1; ring
    · exact Or.inr ⟨q, q', rfl, rfl, rfl⟩
  · have mx : ∀ k < n, along x dim e k = nan := fun k hk => (superposed_nan (hal k)).1.2 (hm k hk)
    have my : ∀ k < n, along y dim e k = nan := fun k hk => (superposed_nan (hal k)).2.2 (hm k hk)
    obtain ⟨p1, p2⟩ := C51_missing hx hc hrx mx
    obtain ⟨p3, p4⟩ := C51_missing hy hc hry my
    obtain ⟨p5, p6⟩ := C51_missing hw hc h3 hm
    exact ⟨Or.inl ⟨p1, p3, p5⟩, Or.inl ⟨p2, p4, p6⟩⟩

/-- C118: removing the trend from `a x + b y` gives `a` times the residual of `x` plus `b` times the
residual of `y`. -/
theorem C118_detrend {x y w : TrendArray K} {dim : String} {ix : DimIndex K} {n : Nat} {a b : K}
    (hx : HasAxis x dim ix n) (hy : HasAxis y dim ix n) (hw : HasAxis w dim ix n)
    (hi : Increasing ix n) (ht : OffOrigin ix n)
    (px : PlainUnits ix x) (py : PlainUnits ix y) (pw : PlainUnits ix w)
    (hd : x.da.dims = w.da.dims) (hd' : y.da.dims = w.da.dims)
    (hs : ∀ e, Superposed a b (x.da.get e) (y.da.get e) (w.da.get e)) :
    ∃ rx ry rw, linearDetrend (.array x) dim 1 "remove" = .ok (.array rx) ∧
      linearDetrend (.array y) dim 1 "remove" = .ok (.array ry) ∧
      linearDetrend (.array w) dim 1 "remove" = .ok (.array rw) ∧
      rw.da.dims = rx.da.dims ∧ rw.da.dims = ry.da.dims ∧
      ∀ e, e dim < n → Superposed a b (rx.da.get e) (ry.da.get e) (rw.da.get e) := by
  obtain ⟨rx, h1, d1, -, -, g1⟩ := detrend_ok hx hi px (Or.inl rfl)
  obtain ⟨ry, h2, d2, -, -, g2⟩ := detrend_ok hy hi py (Or.inl rfl)
  obtain ⟨rw', h3, d3, -, -, g3⟩ := detrend_ok hw hi pw (Or.inl rfl)
  simp only [if_true] at g1 g2 g3
  refine ⟨rx, ry, rw', h1, h2, h3, by rw [d3, d1, hd], by rw [d3, d2, hd'], fun e he => ?_⟩
  have hal := superposed_along hs dim e
  rw [g1, g2, g3]
  rcases hs e with ⟨e1, e2, e3⟩ | ⟨p, q, e1, e2, e3⟩
  · rw [e1, e2, e3]
    exact Or.inl ⟨rfl, rfl, rfl⟩
  · have a1 : along x dim e (e dim) = fin p := by rw [along_self, e1]
    have a2 : along y dim e (e dim) = fin q := by rw [along_self, e2]
    have a3 : along w dim e (e dim) = fin (a * p + b * q) := by rw [along_self, e3]
    rcases fit_cases hx (fun k _ => (superposed_FN (hal k)).1) ht with ⟨h, -⟩ | ⟨-, m, r, f1, n1⟩
    · rw [h _ he] at a1; cases a1
    rcases fit_cases hy (fun k _ => (superposed_FN (hal k)).2.1) ht with ⟨h, -⟩ | ⟨-, m', r', f2, n2⟩
    · rw [h _ he] at a2; cases a2
    rcases fit_cases hw (fun k _ => (superposed_FN (hal k)).2.2) ht with ⟨h, -⟩ | ⟨-, m3, r3, f3, n3⟩
    · rw [h _ he] at a3; cases a3
    have := normal_unique n3 (normal_superposed (fun k _ => hal k) n1 n2)
      (position ix (e dim), a * p + b * q) (mem_fitPairs.2 ⟨_, he, rfl, a3⟩)
    dsimp only at this
    rw [e1, e2, e3, f1, f2, f3]
    simp only [fin_mul, fin_add, fin_sub]
    refine Or.inr ⟨_, _, rfl, rfl, ?_⟩
    congr 1
    linear_combination -this

/-! ### Examples -/

/-- Any field without infinities, its square, and a combination of the two are superposed. -/
theorem superposed_square {a b : K} {u : Fl K} (h : FN u) :
    Superposed a b u (u * u) (fin a * u + fin b * (u * u)) := by
  rcases h with rfl | ⟨p, rfl⟩
  · exact Or.inl ⟨rfl, rfl, rfl⟩
  · exact Or.inr ⟨p, p * p, rfl, by rw [fin_mul], by simp only [fin_mul, fin_add]⟩

/-- The hypotheses of `C118_annual` are met by a monthly series and its square. -/
example : ∃ rx ry rw, annualAverage exMonthly "time" = .ok rx ∧
    annualAverage ⟨⟨exMonthly.obj.dims, fun e => exMonthly.obj.get e * exMonthly.obj.get e⟩,
      exMonthly.axes⟩ "time" = .ok ry ∧
    annualAverage ⟨⟨exMonthly.obj.dims, fun e => fin 2 * exMonthly.obj.get e
      + fin 3 * (exMonthly.obj.get e * exMonthly.obj.get e)⟩, exMonthly.axes⟩ "time" = .ok rw ∧
    Superposed 2 3 (rx.obj.get (fun _ => 0)) (ry.obj.get (fun _ => 0)) (rw.obj.get (fun _ => 0)) := by
  obtain ⟨rx, hrx⟩ := exMonthly_ok
  obtain ⟨ry, hry⟩ := (C38_twelve (x := ⟨⟨exMonthly.obj.dims,
    fun e => exMonthly.obj.get e * exMonthly.obj.get e⟩, exMonthly.axes⟩) (tc := "time")
    (ax := exAxis) rfl (by decide)).1 (by decide)
  have hsq : ∀ e, Superposed (2 : ℚ) 3 (exMonthly.obj.get e)
      (exMonthly.obj.get e * exMonthly.obj.get e)
      (fin 2 * exMonthly.obj.get e + fin 3 * (exMonthly.obj.get e * exMonthly.obj.get e)) :=
    fun e => superposed_square (exMonthly_FN e)
  obtain ⟨r, hr, hd, -, -, -, h⟩ := C118_annual (a := 2) (b := 3) (x := exMonthly) (tc := "time")
    (y := ⟨⟨exMonthly.obj.dims, fun e => exMonthly.obj.get e * exMonthly.obj.get e⟩, exMonthly.axes⟩)
    (w := ⟨⟨exMonthly.obj.dims, fun e => fin 2 * exMonthly.obj.get e
      + fin 3 * (exMonthly.obj.get e * exMonthly.obj.get e)⟩, exMonthly.axes⟩) (ax := exAxis)
    rfl rfl rfl exAxis_good rfl rfl hsq hrx hry
  refine ⟨rx, ry, r, hrx, hry, hr, h _ 1 ?_ (by norm_num)⟩
  obtain ⟨ys, hp, hm, hdx, -⟩ := C38_value (ax := exAxis) rfl exAxis_good exMonthly_FN hrx
  have hys : ys = [2004] := eq_of_pairwise_lt hp (by simp) (fun k => by
    rw [hm]
    constructor
    · rintro ⟨s, hs, rfl⟩
      have : ∀ s ∈ exAxis.stamps, s.date.year = 2004 := by decide
      simp [this s hs]
    · intro h
      rw [List.mem_singleton.1 h]
      exact ⟨exAxis.stamps[0]'(by decide), List.getElem_mem _, by decide⟩)
  rw [hd, hdx, hys]
  rfl

/-- The hypotheses of `C118_trend` and `C118_detrend` are met by a series with a gap and its square. -/
example : ∃ rx ry rw, linearDetrend (.array trA) "time" 1 "remove" = .ok (.array rx) ∧
    linearDetrend (.array { trA with da := ⟨trA.da.dims, fun e => trA.da.get e * trA.da.get e⟩ })
      "time" 1 "remove" = .ok (.array ry) ∧
    linearDetrend (.array { trA with da := ⟨trA.da.dims, fun e => fin 2 * trA.da.get e
      + fin 3 * (trA.da.get e * trA.da.get e)⟩ }) "time" 1 "remove" = .ok (.array rw) ∧
    Superposed 2 3 (rx.da.get (fun _ => 1)) (ry.da.get (fun _ => 1)) (rw.da.get (fun _ => 1)) := by
  have hF : ∀ e, FN (trA.da.get e) := by
    intro e
    simp only [trA]
    repeat' split
    all_goals first | exact Or.inl rfl | exact Or.inr ⟨_, rfl⟩
  have hsq : ∀ e, Superposed (2 : ℚ) 3 (trA.da.get e) (trA.da.get e * trA.da.get e)
      (fin 2 * trA.da.get e + fin 3 * (trA.da.get e * trA.da.get e)) :=
    fun e => superposed_square (hF e)
  obtain ⟨rx, ry, r, h1, h2, h3, -, -, h⟩ := C118_detrend (a := 2) (b := 3) trA_axis
    (y := { trA with da := ⟨trA.da.dims, fun e => trA.da.get e * trA.da.get e⟩ })
    (w := { trA with da := ⟨trA.da.dims, fun e => fin 2 * trA.da.get e
      + fin 3 * (trA.da.get e * trA.da.get e)⟩ })
    ⟨trA_axis.distinct, trA_axis.index, trA_axis.dim_mem, trA_axis.count⟩
    ⟨trA_axis.distinct, trA_axis.index, trA_axis.dim_mem, trA_axis.count⟩
    trA_increasing trA_off trA_plain trA_plain trA_plain rfl rfl hsq
  exact ⟨rx, ry, r, h1, h2, h3, h _ (by norm_num)⟩

/-- The hypotheses of `C118_monthly` are met by the monthly series and its square. -/
example : ∃ rx ry rw, monthlyAverage exMonthly "time" = .ok rx ∧
    monthlyAverage ⟨⟨exMonthly.obj.dims, fun e => exMonthly.obj.get e * exMonthly.obj.get e⟩,
      exMonthly.axes⟩ "time" = .ok ry ∧
    monthlyAverage ⟨⟨exMonthly.obj.dims, fun e => fin 2 * exMonthly.obj.get e
      + fin 3 * (exMonthly.obj.get e * exMonthly.obj.get e)⟩, exMonthly.axes⟩ "time" = .ok rw ∧
    rw.obj.dims = rx.obj.dims ∧ ∀ e n, rw.obj.dims.lookup "time" = some n → e "time" < n →
      Superposed 2 3 (rx.obj.get e) (ry.obj.get e) (rw.obj.get e) := by
  have hc : ∀ s ∈ exAxis.stamps, ∀ m, 1 ≤ m → m ≤ 12 →
      ∃ s' ∈ exAxis.stamps, s'.date.year = s.date.year ∧ s'.date.month = m := by
    intro s hs m h1 h2
    have hy : ∀ s ∈ exAxis.stamps, s.date.year = 2004 := by decide
    rw [hy s hs]
    exact ⟨⟨⟨2004, m - 1 + 1, 15⟩, 0⟩, List.mem_map.2 ⟨m - 1, List.mem_range.2 (by omega), rfl⟩, rfl, by
      show m - 1 + 1 = m; omega⟩
  obtain ⟨rx, hrx⟩ := (C41_complete (x := exMonthly) (ax := exAxis) (tc := "time") rfl exAxis_good).1 hc
  obtain ⟨ry, hry⟩ := (C41_complete (x := ⟨⟨exMonthly.obj.dims,
    fun e => exMonthly.obj.get e * exMonthly.obj.get e⟩, exMonthly.axes⟩) (tc := "time")
    (ax := exAxis) rfl exAxis_good).1 hc
  obtain ⟨r, hr, hd, -, -, -, h⟩ := C118_monthly (a := 2) (b := 3) (x := exMonthly) (tc := "time")
    (y := ⟨⟨exMonthly.obj.dims, fun e => exMonthly.obj.get e * exMonthly.obj.get e⟩, exMonthly.axes⟩)
    (w := ⟨⟨exMonthly.obj.dims, fun e => fin 2 * exMonthly.obj.get e
      + fin 3 * (exMonthly.obj.get e * exMonthly.obj.get e)⟩, exMonthly.axes⟩) (ax := exAxis)
    rfl rfl rfl exAxis_good rfl rfl (fun e => superposed_square (exMonthly_FN e)) hrx hry
  exact ⟨rx, ry, r, hrx, hry, hr, hd, h⟩

/-- `C118_cycle`: the same of the annual cycle (real numbers, one missing value). -/
example : ∃ rx ry rw, annualCycle exCycle "time" "mean" none = .ok rx ∧
    annualCycle ⟨⟨exCycle.obj.dims, fun e => exCycle.obj.get e * exCycle.obj.get e⟩, exCycle.axes⟩ "time" "mean" none
      = .ok ry ∧
    annualCycle ⟨⟨exCycle.obj.dims, fun e => fin 2 * exCycle.obj.get e
      + fin 3 * (exCycle.obj.get e * exCycle.obj.get e)⟩, exCycle.axes⟩ "time" "mean" none = .ok rw ∧
    Superposed 2 3 (rx.obj.get (fun _ => 0)) (ry.obj.get (fun _ => 0)) (rw.obj.get (fun _ => 0)) := by
  obtain ⟨rx, hrx⟩ := exCycle_ok "mean" (by decide)
  obtain ⟨ry, hry⟩ := (C40_errors (x := ⟨⟨exCycle.obj.dims, fun e => exCycle.obj.get e * exCycle.obj.get e⟩,
    exCycle.axes⟩) (tc := "time") (func := "mean") (yr := none) rfl exCycle_good).1
    ⟨by decide, fun m h1 h2 => by
      refine ⟨⟨⟨2001 + (m - 1) / 12, (m - 1) % 12 + 1, 10⟩, 0⟩,
        List.mem_map_of_mem (List.mem_range.2 (by omega)), ?_⟩
      show (m - 1) % 12 + 1 = m
      omega⟩
  obtain ⟨r, hr, -, -, -, -, h⟩ := C118_cycle (a := 2) (b := 3) (x := exCycle) (tc := "time")
    (y := ⟨⟨exCycle.obj.dims, fun e => exCycle.obj.get e * exCycle.obj.get e⟩, exCycle.axes⟩)
    (w := ⟨⟨exCycle.obj.dims, fun e => fin 2 * exCycle.obj.get e
      + fin 3 * (exCycle.obj.get e * exCycle.obj.get e)⟩, exCycle.axes⟩)
    rfl rfl rfl exCycle_good rfl rfl (fun e => superposed_square (exCycle_FN e)) hrx hry
  exact ⟨rx, ry, r, hrx, hry, hr, h _ (by norm_num)⟩

end Momlevel.Props
