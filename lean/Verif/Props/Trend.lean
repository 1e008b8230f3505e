import Verif.Lemmas.Trend
import Mathlib.Tactic.NormNum

/-!
# Linear trends (C51–C54)
-/

set_option linter.unusedSectionVars false

namespace Momlevel.Props
open Momlevel

variable {K : Type} [Field K] [LinearOrder K] [IsStrictOrderedRing K]

theorem slopeUnits_comment (attrs : List (String × String)) (v u : String) :
    slopeUnits (dictSet attrs "comment" v) u = slopeUnits attrs u := by
  unfold slopeUnits
  rw [lookup_dictSet_ne attrs v (by decide : ("units" : String) ≠ "comment")]

/-- `calc_linear_trend` in full: slope and intercept of the fit of every series, the slope scaled. -/
theorem calc_ok {x : TrendArray K} {dim : String} {ix : DimIndex K} {n : Nat} {u : Option String}
    {c : K} (h : Spec.HasAxis x dim ix n) (hc : Spec.unitScale ix u = some c) :
    ∃ s b, calcLinearTrend x dim u = .ok (s, b) ∧
      s.da.dims = x.da.dims.filter (fun p => p.1 != dim) ∧
      b.da.dims = x.da.dims.filter (fun p => p.1 != dim) ∧
      (∀ e, s.da.get e = (fitAt x dim ix n e).1 * .fin c) ∧
      (∀ e, b.da.get e = (fitAt x dim ix n e).2) ∧
      (ix.isCftime = true →
        s.attrs.lookup "units" = some (slopeUnits x.attrs (u.getD "ns"))) := by
  have hd : dictGet x.indexes dim = .ok ix := by unfold dictGet; rw [h.index]
  cases ix with
  | numeric vals =>
    have hc1 : c = 1 := (Option.some.inj hc).symm
    subst hc1
    refine ⟨⟨⟨x.da.dims.filter (fun p => p.1 != dim), fun e => (fitAt x dim (.numeric vals) n e).1⟩,
        x.indexes.filter (fun p => p.1 != dim), dictSet x.attrs "comment" "Slope of linear trend"⟩,
      ⟨⟨x.da.dims.filter (fun p => p.1 != dim), fun e => (fitAt x dim (.numeric vals) n e).2⟩,
        x.indexes.filter (fun p => p.1 != dim), dictSet x.attrs "comment" "Y-intercept of linear trend"⟩,
      ?_, rfl, rfl, ?_, fun _ => rfl, fun hh => by cases hh⟩
    · unfold calcLinearTrend
      simp only [hd, ok_bind, polyfitCoefficients_ok h, scaleSlope, DimIndex.isCftime]
      rfl
    · intro e
      exact (FN_mul_one (polyfit1_FN _ _).1).symm
  | cftime ax =>
    obtain ⟨v, hv, hcv⟩ : ∃ v, Spec.nsPer (K := K) (u.getD "ns") = some v ∧ v = c := by
      cases u with
      | none => exact ⟨1, rfl, Option.some.inj hc⟩
      | some u => exact ⟨c, hc, rfl⟩
    subst hcv
    have hv0 := nsPer_ne_zero hv
    have hns : Spec.nsPer (K := K) "ns" = some 1 := rfl
    have hf : timeConversionFactor (K := K) "ns" (u.getD "ns") = .ok (.fin (1 / v)) := by
      rw [default_conversion, hns, hv]
    have hdiv : (1.0 / .fin (1 / v) : Fl K) = .fin v := by
      rw [Fl.ofSci, Fl.fin_div_of_ne _ (one_div_ne_zero hv0)]
      congr 1
      norm_num
    refine ⟨⟨⟨x.da.dims.filter (fun p => p.1 != dim), fun e => (fitAt x dim (.cftime ax) n e).1⟩ *
        DA.scalar (1.0 / .fin (1 / v)), x.indexes.filter (fun p => p.1 != dim),
        dictSet (dictSet x.attrs "comment" "Slope of linear trend") "units"
          (slopeUnits (dictSet x.attrs "comment" "Slope of linear trend") (u.getD "ns"))⟩,
      ⟨⟨x.da.dims.filter (fun p => p.1 != dim), fun e => (fitAt x dim (.cftime ax) n e).2⟩,
        x.indexes.filter (fun p => p.1 != dim), dictSet x.attrs "comment" "Y-intercept of linear trend"⟩,
      ?_, dims_mul_scalar _ _, rfl, ?_, fun _ => rfl, ?_⟩
    · unfold calcLinearTrend
      simp only [hd, ok_bind, polyfitCoefficients_ok h, scaleSlope, DimIndex.isCftime, hf]
      rfl
    · intro e
      rw [DA.get_mul, DA.get_scalar, hdiv]
    · intro _
      rw [lookup_dictSet_self, slopeUnits_comment]

/-- The slope found, converted back to nanoseconds by `broadcast_trend`. -/
theorem slopeToNs_calc {x s : TrendArray K} {u : String} {v : K} {f : Env → Fl K}
    (hu : Spec.nsPer u = some v) (hf : ∀ e, Fl.FN (f e)) (hs : ∀ e, s.da.get e = f e * .fin v)
    (ha : s.attrs.lookup "units" = some (slopeUnits x.attrs u))
    (hp : ∀ s, x.attrs.lookup "units" = some s → ¬ Spec.mentionsPer s) :
    ∃ m, slopeToNs s = .ok m ∧ m.dims = s.da.dims ∧ ∀ e, m.get e = f e := by
  have hper : perUnits (slopeUnits x.attrs u) = [u] := by
    rw [perUnits_slope _ (nsPer_recognised hu)]
    cases hl : x.attrs.lookup "units" with
    | none => rfl
    | some t => simp only [perUnits_plain (hp t hl), List.nil_append]
  have hv0 := nsPer_ne_zero hu
  unfold slopeToNs
  rw [ha]
  simp only [hper]
  by_cases hns : u = "ns"
  · rw [if_pos hns]
    have : v = 1 := by
      subst hns
      exact (Option.some.inj hu).symm
    subst this
    exact ⟨_, rfl, rfl, fun e => by rw [hs, FN_mul_one (hf e)]⟩
  · rw [if_neg hns]
    have hns' : Spec.nsPer (K := K) "ns" = some 1 := rfl
    have hc : timeConversionFactor (K := K) u "ns" = .ok (.fin v) := by
      rw [default_conversion, hu, hns']
      simp
    simp only [hc, ok_bind]
    refine ⟨_, rfl, dims_mul_scalar _ _, fun e => ?_⟩
    rw [DA.get_mul, DA.get_scalar, hs, Fl.ofSci, Fl.fin_div_of_ne _ hv0]
    rcases hf e with h | ⟨a, h⟩
    · rw [h]; rfl
    · rw [h, Fl.fin_mul, Fl.fin_mul]
      congr 1
      field_simp
      norm_num

/-- Units with "-1" make `broadcast_trend` fail on the slope of the trend. -/
theorem slopeToNs_per {x s : TrendArray K} {u t : String} (hu : Spec.Recognised u)
    (ha : s.attrs.lookup "units" = some (slopeUnits x.attrs u))
    (hx : x.attrs.lookup "units" = some t) (hp : Spec.mentionsPer t) :
    slopeToNs s = .error .valueError := by
  unfold slopeToNs
  rw [ha]
  simp only [perUnits_slope x.attrs hu, hx]
  obtain ⟨a, l, e⟩ := List.exists_cons_of_ne_nil (perUnits_per hp)
  rw [e]
  cases l <;> rfl

theorem unitScale_cftime {ax : TimeAxis} {u : Option String} {c : K}
    (h : Spec.unitScale (.cftime ax) u = some c) : Spec.nsPer (u.getD "ns") = some c := by
  cases u with
  | none => exact h
  | some u => exact h

/-- `broadcast_trend` of the slope found, for any requested unit: the slope per nanosecond (per unit
of the axis) times the position. -/
theorem broadcast_calc {x : TrendArray K} {dim : String} {ix : DimIndex K} {n : Nat}
    {u : Option String} {c : K} (h : Spec.HasAxis x dim ix n) (hi : Spec.Increasing ix n)
    (hp : Spec.PlainUnits ix x) (hc : Spec.unitScale ix u = some c) :
    ∃ s b r, calcLinearTrend x dim u = .ok (s, b) ∧
      broadcastTrend (some s) (some ⟨[dim], some ix⟩) = .ok r ∧
      r.dims = x.da.dims.filter (fun p => p.1 != dim) ++ [(dim, n)] ∧
      (∀ e, r.get e = (fitAt x dim ix n e).1 * .fin (Spec.position ix (e dim))) ∧
      b.da.dims = x.da.dims.filter (fun p => p.1 != dim) ∧
      (∀ e, b.da.get e = (fitAt x dim ix n e).2) := by
  obtain ⟨s, b, hs, hsd, hbd, hsg, hbg, hatt⟩ := calc_ok h hc
  have hcl : cleanInterpIndex ix = .ok ix.numbers := by
    apply cleanInterpIndex_ok
    rw [h.count]; exact hi
  have hl : ix.numbers.length = n := by rw [numbers_length, h.count]
  have hfn : ∀ e, Fl.FN (fitAt x dim ix n e).1 := fun e => (polyfit1_FN _ _).1
  have key : ∃ m, slopeForIndex s ix = .ok m ∧
      m.dims = x.da.dims.filter (fun p => p.1 != dim) ∧ ∀ e, m.get e = (fitAt x dim ix n e).1 := by
    cases ix with
    | numeric vals =>
      have hc1 : c = 1 := (Option.some.inj hc).symm
      subst hc1
      exact ⟨_, rfl, hsd, fun e => by rw [hsg, FN_mul_one (hfn e)]⟩
    | cftime ax =>
      obtain ⟨m, hm, hmd, hmg⟩ := slopeToNs_calc (unitScale_cftime hc) hfn hsg (hatt rfl) (hp ax rfl)
      exact ⟨m, hm, hmd.trans hsd, hmg⟩
  obtain ⟨m, hm, hmd, hmg⟩ := key
  refine ⟨s, b, m * indexArray dim ix.numbers, hs, ?_, ?_, ?_, hbd, hbg⟩
  · unfold broadcastTrend
    simp only [Option.elim, ok_bind, List.length_singleton, beq_self_eq_true, pyAssert_true, hm, hcl,
      List.headD_cons]
    rfl
  · rw [DA.dims_mul, hmd]
    have : (indexArray (K := K) dim ix.numbers).dims = [(dim, n)] := by
      unfold indexArray; rw [hl]
    rw [this]
    apply DA.bdims_disjoint
    intro p hp
    simp only [List.mem_singleton] at hp
    subst hp
    simp
  · intro e
    rw [DA.get_mul, hmg]
    unfold indexArray
    simp only [numbers_getD]

/-- Detrending in full, for both modes. -/
theorem detrend_ok {x : TrendArray K} {dim : String} {ix : DimIndex K} {n : Nat} {mode : String}
    (h : Spec.HasAxis x dim ix n) (hi : Spec.Increasing ix n) (hp : Spec.PlainUnits ix x)
    (hm : mode = "remove" ∨ mode = "correct") :
    ∃ y, linearDetrend (.array x) dim 1 mode = .ok (.array y) ∧ y.da.dims = x.da.dims ∧
      y.indexes = x.indexes ∧ (∀ k, k ≠ "detrend_comment" → y.attrs.lookup k = x.attrs.lookup k) ∧
      ∀ e, y.da.get e = x.da.get e -
        (if mode = "remove" then (fitAt x dim ix n e).1 * .fin (Spec.position ix (e dim)) +
          (fitAt x dim ix n e).2
         else (fitAt x dim ix n e).1 * .fin (Spec.position ix (e dim))) := by
  have hc : ∃ c, Spec.unitScale ix none = some c := by
    cases ix <;> exact ⟨1, rfl⟩
  obtain ⟨c, hc⟩ := hc
  obtain ⟨s, b, r, hs, hr, hrd, hrg, hbd, hbg⟩ := broadcast_calc h hi hp hc
  have hd : dictGet x.indexes dim = .ok ix := by unfold dictGet; rw [h.index]
  have hsub : ∀ p ∈ r.dims, p ∈ x.da.dims := by
    intro p hp
    rw [hrd, List.mem_append] at hp
    rcases hp with hp | hp
    · exact List.mem_of_mem_filter hp
    · rw [List.mem_singleton.1 hp]; exact h.dim_mem
  have key : ∃ f, modeFit mode r b.da = .ok f ∧ (∀ p ∈ f.dims, p ∈ x.da.dims) ∧
      ∀ e, f.get e = if mode = "remove" then (fitAt x dim ix n e).1 * .fin (Spec.position ix (e dim)) +
          (fitAt x dim ix n e).2
         else (fitAt x dim ix n e).1 * .fin (Spec.position ix (e dim)) := by
    rcases hm with rfl | rfl
    · refine ⟨r + b.da, rfl, ?_, ?_⟩
      · intro p hp
        rw [DA.dims_add] at hp
        rcases DA.mem_bdims hp with hp | hp
        · exact hsub p hp
        · rw [hbd] at hp; exact List.mem_of_mem_filter hp
      · intro e
        rw [DA.get_add, hrg, hbg, if_pos rfl]
    · exact ⟨r, rfl, hsub, fun e => by rw [hrg, if_neg (by decide)]⟩
  obtain ⟨f, hf, hfd, hfg⟩ := key
  refine ⟨⟨x.da - f, x.indexes, dictSet x.attrs "detrend_comment" mode⟩, ?_, ?_, rfl, ?_, ?_⟩
  · unfold linearDetrend detrendArray
    simp only [beq_self_eq_true, pyAssert_true, ok_bind, hs, hd, hr, hf]
    rfl
  · rw [DA.dims_sub]; exact DA.bdims_eq_left hfd
  · intro k hk; exact lookup_dictSet_ne _ _ hk
  · intro e; rw [DA.get_sub, hfg]


/-! ### One series -/

theorem fit_cases {x : TrendArray K} {dim : String} {ix : DimIndex K} {n : Nat} {e : Env}
    (h : Spec.HasAxis x dim ix n) (ho : Spec.Ordinary n (Spec.along x dim e))
    (ht : Spec.OffOrigin ix n) :
    ((∀ k < n, Spec.along x dim e k = .nan) ∧ fitAt x dim ix n e = (.nan, .nan)) ∨
    ((∃ k < n, ∃ v, Spec.along x dim e k = .fin v) ∧ ∃ m b, fitAt x dim ix n e = (.fin m, .fin b) ∧
      Normal (fitPairs n (Spec.position ix) (Spec.along x dim e)) m b) := by
  rcases ordinary_cases ho with hm | hv
  · exact Or.inl ⟨hm, polyfit1_missing h.count hm⟩
  · exact Or.inr ⟨hv, polyfit1_fit h.count ho ht hv⟩

theorem misfit_eq (n : Nat) (t : Nat → K) (s : Nat → Fl K) (m b : K) :
    Spec.misfit n t s m b =
      lsum (fitPairs n t s) (fun p => (p.2 - (m * p.1 + b)) * (p.2 - (m * p.1 + b))) := by
  rw [lsum_fitPairs]
  unfold Spec.misfit
  simp only [pow_two]

/-- A line through all valid samples satisfies the normal equations. -/
theorem normal_exact {n : Nat} {t : Nat → K} {s : Nat → Fl K} {m b : K}
    (h : ∀ k < n, ∀ v, s k = .fin v → v = m * t k + b) : Normal (fitPairs n t s) m b := by
  have key : ∀ p ∈ fitPairs n t s, p.2 - (m * p.1 + b) = 0 := by
    intro p hp
    obtain ⟨k, hk, h1, h2⟩ := mem_fitPairs.1 hp
    rw [h k hk p.2 h2, h1, sub_self]
  constructor
  · rw [lsum_congr key, lsum_const, mul_zero]
  · rw [lsum_congr (g := fun _ => 0) (fun p hp => by rw [key p hp, mul_zero]), lsum_const, mul_zero]

/-- With two different positions among the valid samples the line is determined. -/
theorem normal_determined {n : Nat} {t : Nat → K} {s : Nat → Fl K} {m b m' b' : K}
    (h : Normal (fitPairs n t s) m b) (h' : Normal (fitPairs n t s) m' b')
    {i j : Nat} (hi : i < n) (hj : j < n) {v w : K} (hv : s i = .fin v) (hw : s j = .fin w)
    (hne : t i ≠ t j) : m = m' ∧ b = b' := by
  have e1 := normal_unique h h' (t i, v) (mem_fitPairs.2 ⟨i, hi, rfl, hv⟩)
  have e2 := normal_unique h h' (t j, w) (mem_fitPairs.2 ⟨j, hj, rfl, hw⟩)
  dsimp only at e1 e2
  have hz : (m - m') * (t i - t j) = 0 := by linear_combination e1 - e2
  have hm : m = m' := sub_eq_zero.1 ((mul_eq_zero.1 hz).resolve_right (sub_ne_zero.2 hne))
  subst hm
  exact ⟨rfl, by linear_combination e1⟩

/-! ### C51: `calc_linear_trend` is the least-squares line -/

/-- C51. The slope (in the requested unit) and the intercept minimise the sum of squared misfits over
the valid samples of each series; they have the dimensions of the input without `dim`. -/
theorem C51_least_squares {x : TrendArray K} {dim : String} {ix : DimIndex K} {n : Nat}
    {u : Option String} {c : K} (h : Spec.HasAxis x dim ix n) (ht : Spec.OffOrigin ix n)
    (hc : Spec.unitScale ix u = some c) :
    ∃ s b, calcLinearTrend x dim u = .ok (s, b) ∧
      s.da.dims = x.da.dims.filter (fun p => p.1 != dim) ∧
      b.da.dims = x.da.dims.filter (fun p => p.1 != dim) ∧
      ∀ e, Spec.Ordinary n (Spec.along x dim e) → (∃ k < n, ∃ v, Spec.along x dim e k = .fin v) →
        ∃ m q, s.da.get e = .fin (m * c) ∧ b.da.get e = .fin q ∧
          ∀ m' q', Spec.misfit n (Spec.position ix) (Spec.along x dim e) m q ≤
            Spec.misfit n (Spec.position ix) (Spec.along x dim e) m' q' := by
  obtain ⟨s, b, hs, hsd, hbd, hsg, hbg, -⟩ := calc_ok h hc
  refine ⟨s, b, hs, hsd, hbd, fun e ho hv => ?_⟩
  rcases fit_cases h ho ht with ⟨hm, -⟩ | ⟨-, m, q, hfit, hn⟩
  · obtain ⟨k, hk, v, hkv⟩ := hv
    rw [hm k hk] at hkv; cases hkv
  · refine ⟨m, q, ?_, ?_, fun m' q' => ?_⟩
    · rw [hsg, hfit, Fl.fin_mul]
    · rw [hbg, hfit]
    · rw [misfit_eq, misfit_eq, normal_min hn m' q']
      exact le_add_of_nonneg_right (lsum_sq_nonneg _ _)

/-- C51. No other line does as well when two valid samples lie at different positions. -/
theorem C51_unique {x s b : TrendArray K} {dim : String} {ix : DimIndex K} {n : Nat}
    {u : Option String} {c : K} (h : Spec.HasAxis x dim ix n)
    (hc : Spec.unitScale ix u = some c) (hs : calcLinearTrend x dim u = .ok (s, b)) {e : Env}
    (ho : Spec.Ordinary n (Spec.along x dim e)) {i j : Nat} (hi : i < n) (hj : j < n) {v w : K}
    (hv : Spec.along x dim e i = .fin v) (hw : Spec.along x dim e j = .fin w)
    (hne : Spec.position ix i ≠ Spec.position ix j) {m q : K}
    (hmin : ∀ m' q', Spec.misfit n (Spec.position ix) (Spec.along x dim e) m q ≤
            Spec.misfit n (Spec.position ix) (Spec.along x dim e) m' q') :
    s.da.get e = .fin (m * c) ∧ b.da.get e = .fin q := by
  have ht : Spec.OffOrigin ix n := by
    by_contra hcon
    have hz : ∀ k < n, Spec.position ix k = 0 := fun k hk => by
      by_contra hk0; exact hcon ⟨k, hk, hk0⟩
    exact hne (by rw [hz i hi, hz j hj])
  obtain ⟨s', b', hs', -, -, hsg, hbg, -⟩ := calc_ok h hc
  rw [hs] at hs'
  cases hs'
  rcases fit_cases h ho ht with ⟨hm, -⟩ | ⟨-, m0, q0, hfit, hn⟩
  · rw [hm i hi] at hv; cases hv
  · have hle := hmin m0 q0
    rw [misfit_eq, misfit_eq, normal_min hn m q] at hle
    have hz := lsum_sq_eq_zero (le_antisymm (by linarith)
      (lsum_sq_nonneg (fitPairs n (Spec.position ix) (Spec.along x dim e))
        (fun p => (m0 - m) * p.1 + (q0 - q))))
    have e1 := hz (Spec.position ix i, v) (mem_fitPairs.2 ⟨i, hi, rfl, hv⟩)
    have e2 := hz (Spec.position ix j, w) (mem_fitPairs.2 ⟨j, hj, rfl, hw⟩)
    dsimp only at e1 e2
    have hp : (m0 - m) * (Spec.position ix i - Spec.position ix j) = 0 := by
      linear_combination e1 - e2
    have hmm : m0 = m := sub_eq_zero.1 ((mul_eq_zero.1 hp).resolve_right (sub_ne_zero.2 hne))
    subst hmm
    have hqq : q0 = q := by linear_combination e1
    subst hqq
    exact ⟨by rw [hsg, hfit, Fl.fin_mul], by rw [hbg, hfit]⟩

/-- C51. An exactly linear series (apart from missing samples) returns its own slope, in the
requested unit, and its intercept. -/
theorem C51_exact {x s b : TrendArray K} {dim : String} {ix : DimIndex K} {n : Nat}
    {u : Option String} {c : K} (h : Spec.HasAxis x dim ix n)
    (hc : Spec.unitScale ix u = some c) (hs : calcLinearTrend x dim u = .ok (s, b)) {e : Env}
    {m q : K} (hlin : ∀ k < n, Spec.along x dim e k = .nan ∨
      Spec.along x dim e k = .fin (m * Spec.position ix k + q))
    {i j : Nat} (hi : i < n) (hj : j < n) (hv : Spec.along x dim e i ≠ .nan)
    (hw : Spec.along x dim e j ≠ .nan) (hne : Spec.position ix i ≠ Spec.position ix j) :
    s.da.get e = .fin (m * c) ∧ b.da.get e = .fin q := by
  have ho : Spec.Ordinary n (Spec.along x dim e) := fun k hk =>
    (hlin k hk).imp id (fun h => ⟨_, h⟩)
  refine C51_unique h hc hs ho hi hj ((hlin i hi).resolve_left hv) ((hlin j hj).resolve_left hw)
    hne (fun m' q' => ?_)
  have hz : Spec.misfit n (Spec.position ix) (Spec.along x dim e) m q = 0 := by
    unfold Spec.misfit Spec.overValid
    apply Finset.sum_eq_zero
    intro k hk
    rcases hlin k (Finset.mem_range.1 hk) with h | h <;> rw [h] <;> simp [Spec.ifValid]
  rw [hz, misfit_eq]
  exact lsum_sq_nonneg _ _

/-- C51. A series with nothing but missing samples has missing slope and intercept. -/
theorem C51_missing {x s b : TrendArray K} {dim : String} {ix : DimIndex K} {n : Nat}
    {u : Option String} {c : K} (h : Spec.HasAxis x dim ix n)
    (hc : Spec.unitScale ix u = some c) (hs : calcLinearTrend x dim u = .ok (s, b)) {e : Env}
    (hm : ∀ k < n, Spec.along x dim e k = .nan) : s.da.get e = .nan ∧ b.da.get e = .nan := by
  obtain ⟨s', b', hs', -, -, hsg, hbg, -⟩ := calc_ok h hc
  rw [hs] at hs'
  cases hs'
  have hfit : fitAt x dim ix n e = (.nan, .nan) := polyfit1_missing h.count hm
  exact ⟨by rw [hsg, hfit]; rfl, by rw [hbg, hfit]⟩

/-- C51. An unknown time unit is an AssertionError for a time axis of dates. -/
theorem C51_unknown_unit {x : TrendArray K} {dim : String} {ax : TimeAxis} {n : Nat} {u : String}
    (h : Spec.HasAxis x dim (.cftime ax) n) (hu : ¬ Spec.Recognised u) :
    calcLinearTrend x dim (some u) = .error .assertionError := by
  have hd : dictGet x.indexes dim = .ok (.cftime ax) := by unfold dictGet; rw [h.index]
  have hnone : Spec.nsPer (K := K) u = none := by
    cases hn : Spec.nsPer (K := K) u with
    | none => rfl
    | some v => exact absurd (nsPer_recognised hn) hu
  have hf : timeConversionFactor (K := K) "ns" u = .error .assertionError := by
    rw [default_conversion, hnone]
    cases Spec.nsPer (K := K) "ns" <;> rfl
  unfold calcLinearTrend
  simp only [hd, ok_bind, polyfitCoefficients_ok h, scaleSlope, DimIndex.isCftime,
    Option.getD_some, hf, if_true]
  rfl

/-- C51. Without the dimension, or without a coordinate for it, the call is a KeyError. -/
theorem C51_no_dim {x : TrendArray K} {dim : String} {u : Option String}
    (h : dim ∉ x.da.dimNames ∨ x.indexes.lookup dim = none) :
    calcLinearTrend x dim u = .error .keyError := by
  unfold calcLinearTrend dictGet
  cases hl : x.indexes.lookup dim with
  | none => rfl
  | some ix =>
    have hd : dim ∉ x.da.dimNames := h.resolve_right (by rw [hl]; simp)
    have : polyfitCoefficients x dim ix = .error .keyError := by
      unfold polyfitCoefficients
      rw [if_neg]
      rw [List.contains_iff_mem]; exact hd
    simp only [ok_bind, this, error_bind]

/-- C51. The slope of a time trend carries the units "<units of the input>  <time unit>-1". -/
theorem C51_units {x s b : TrendArray K} {dim : String} {ax : TimeAxis} {n : Nat}
    {u : Option String} {c : K} (h : Spec.HasAxis x dim (.cftime ax) n)
    (hc : Spec.unitScale (.cftime ax) u = some c) (hs : calcLinearTrend x dim u = .ok (s, b)) :
    s.attrs.lookup "units" = some
      (((x.attrs.lookup "units").elim "" (fun t => t ++ " ")) ++ " " ++ u.getD "ns" ++ "-1") := by
  obtain ⟨s', b', hs', -, -, -, -, hatt⟩ := calc_ok h hc
  rw [hs] at hs'
  cases hs'
  rw [hatt rfl]
  unfold slopeUnits
  cases x.attrs.lookup "units" <;> rfl

/-! ### C52: removing the trend -/

theorem along_self (x : TrendArray K) (dim : String) (e : Env) :
    Spec.along x dim e (e dim) = x.da.get e := by
  unfold Spec.along; rw [Function.update_eq_self]

theorem fitAt_update (x : TrendArray K) (dim : String) (ix : DimIndex K) (n : Nat) (e : Env) (k : Nat) :
    fitAt x dim ix n (Function.update e dim k) = fitAt x dim ix n e := by
  unfold fitAt
  congr 1
  apply List.map_congr_left
  intro i _
  unfold Spec.along
  rw [Function.update_idem]

/-- The residual of one series, sample by sample. -/
theorem residual_along {x y : TrendArray K} {dim : String} {ix : DimIndex K} {n : Nat}
    (hg : ∀ e, y.da.get e = x.da.get e - ((fitAt x dim ix n e).1 * .fin (Spec.position ix (e dim)) +
          (fitAt x dim ix n e).2)) (e : Env) (k : Nat) :
    Spec.along y dim e k = Spec.along x dim e k -
      ((fitAt x dim ix n e).1 * .fin (Spec.position ix k) + (fitAt x dim ix n e).2) := by
  unfold Spec.along
  rw [hg, fitAt_update, Function.update_self]

/-- Sums over the valid samples of a series and of its shifted copy. -/
theorem overValid_shift {n : Nat} {s r : Nat → Fl K} {g : Nat → K} {f : Nat → K → K}
    (hmiss : ∀ k < n, s k = .nan → r k = .nan) (ho : Spec.Ordinary n s)
    (hval : ∀ k < n, ∀ v, s k = .fin v → r k = .fin (v - g k)) :
    Spec.overValid n r f = Spec.overValid n s (fun k v => f k (v - g k)) := by
  unfold Spec.overValid
  apply Finset.sum_congr rfl
  intro k hk
  have hk := Finset.mem_range.1 hk
  rcases ho k hk with h | ⟨v, h⟩
  · rw [hmiss k hk h, h]; rfl
  · rw [hval k hk v h, h]; rfl

theorem fitPairs_shift {n : Nat} {t : Nat → K} {s r : Nat → Fl K} {m b m' b' : K} (f : K → K)
    (hf : ∀ k < n, f (t k) = m' * t k + b')
    (hmiss : ∀ k < n, s k = .nan → r k = .nan) (ho : Spec.Ordinary n s)
    (hval : ∀ k < n, ∀ v, s k = .fin v → r k = .fin (v - f (t k)))
    (hn : Normal (fitPairs n t s) m b) : Normal (fitPairs n t r) (m - m') (b - b') := by
  unfold Normal at *
  rw [lsum_fitPairs, lsum_fitPairs] at *
  rw [overValid_shift (g := fun k => f (t k)) hmiss ho hval,
    overValid_shift (g := fun k => f (t k)) hmiss ho hval]
  refine ⟨Eq.trans ?_ hn.1, Eq.trans ?_ hn.2⟩
  all_goals
    unfold Spec.overValid
    apply Finset.sum_congr rfl
    intro k hk
    have hk := Finset.mem_range.1 hk
    congr 1
    funext v
    dsimp only
    rw [hf k hk]
    ring

/-- C52. Removing the trend: the array keeps its dimensions and indexes; a sample is missing in the
result exactly where it is missing in the input; what is subtracted from each series is a straight
line; the residuals have zero sum and zero first moment over the valid samples. -/
theorem C52_residual {x : TrendArray K} {dim : String} {ix : DimIndex K} {n : Nat}
    (h : Spec.HasAxis x dim ix n) (hi : Spec.Increasing ix n) (ht : Spec.OffOrigin ix n)
    (hp : Spec.PlainUnits ix x) :
    ∃ y, linearDetrend (.array x) dim 1 "remove" = .ok (.array y) ∧ y.da.dims = x.da.dims ∧
      y.indexes = x.indexes ∧
      ∀ e, Spec.Ordinary n (Spec.along x dim e) →
        Spec.Ordinary n (Spec.along y dim e) ∧
        (∀ k < n, Spec.along y dim e k = .nan ↔ Spec.along x dim e k = .nan) ∧
        (∃ m b, ∀ k < n, ∀ v, Spec.along x dim e k = .fin v →
          Spec.along y dim e k = .fin (v - (m * Spec.position ix k + b))) ∧
        Spec.overValid n (Spec.along y dim e) (fun _ r => r) = 0 ∧
        Spec.overValid n (Spec.along y dim e) (fun k r => Spec.position ix k * r) = 0 := by
  obtain ⟨y, hy, hyd, hyi, -, hyg⟩ := detrend_ok h hi hp (Or.inl rfl)
  simp only [if_true] at hyg
  refine ⟨y, hy, hyd, hyi, fun e ho => ?_⟩
  have hr := residual_along hyg e
  rcases fit_cases h ho ht with ⟨hm, hfit⟩ | ⟨-, m, b, hfit, hn⟩
  · have hz : ∀ k < n, Spec.along y dim e k = .nan := fun k hk => by rw [hr, hm k hk]; rfl
    have hsum : ∀ f, Spec.overValid n (Spec.along y dim e) f = 0 := by
      intro f
      unfold Spec.overValid
      apply Finset.sum_eq_zero
      intro k hk
      rw [hz k (Finset.mem_range.1 hk)]; rfl
    refine ⟨fun k hk => Or.inl (hz k hk), fun k hk => by simp [hz k hk, hm k hk],
      ⟨0, 0, fun k hk v hv => ?_⟩, hsum _, hsum _⟩
    rw [hm k hk] at hv; cases hv
  · have hval : ∀ k < n, ∀ v, Spec.along x dim e k = .fin v →
        Spec.along y dim e k = .fin (v - (m * Spec.position ix k + b)) := by
      intro k _ v hv
      rw [hr, hv, hfit]
      simp
    have hmiss : ∀ k < n, Spec.along x dim e k = .nan → Spec.along y dim e k = .nan := by
      intro k _ hv
      rw [hr, hv]; rfl
    refine ⟨?_, ?_, ⟨m, b, hval⟩, ?_, ?_⟩
    · intro k hk
      rcases ho k hk with hv | ⟨v, hv⟩
      · exact Or.inl (hmiss k hk hv)
      · exact Or.inr ⟨_, hval k hk v hv⟩
    · intro k hk
      refine ⟨fun hy => ?_, hmiss k hk⟩
      rcases ho k hk with hv | ⟨v, hv⟩
      · exact hv
      · rw [hval k hk v hv] at hy; cases hy
    · rw [overValid_shift (g := fun k => m * Spec.position ix k + b) hmiss ho hval]
      have := hn.1
      rwa [lsum_fitPairs] at this
    · rw [overValid_shift (g := fun k => m * Spec.position ix k + b) hmiss ho hval]
      have := hn.2
      rwa [lsum_fitPairs] at this

/-- What removing the trend gives, sample by sample: a property of the residual that does not mention
the fit. -/
theorem residual_unique {x x' y y' : TrendArray K} {dim : String} {ix : DimIndex K} {n : Nat}
    (h : Spec.HasAxis x dim ix n) (h' : Spec.HasAxis x' dim ix n) (ht : Spec.OffOrigin ix n)
    (hg : ∀ e, y.da.get e = x.da.get e - ((fitAt x dim ix n e).1 * .fin (Spec.position ix (e dim)) +
          (fitAt x dim ix n e).2))
    (hg' : ∀ e, y'.da.get e = x'.da.get e -
      ((fitAt x' dim ix n e).1 * .fin (Spec.position ix (e dim)) + (fitAt x' dim ix n e).2))
    {e : Env} (ho : Spec.Ordinary n (Spec.along x dim e)) {p q : K}
    (hmiss : ∀ k < n, Spec.along x dim e k = .nan → Spec.along x' dim e k = .nan)
    (hval : ∀ k < n, ∀ v, Spec.along x dim e k = .fin v →
      Spec.along x' dim e k = .fin (v - (p * Spec.position ix k + q)))
    {k : Nat} (hk : k < n) : Spec.along y' dim e k = Spec.along y dim e k := by
  rw [residual_along hg, residual_along hg']
  rcases ho k hk with hv | ⟨v, hv⟩
  · rw [hv, hmiss k hk hv]; rfl
  · have ho' : Spec.Ordinary n (Spec.along x' dim e) := by
      intro i hi
      rcases ho i hi with hv | ⟨v, hv⟩
      · exact Or.inl (hmiss i hi hv)
      · exact Or.inr ⟨_, hval i hi v hv⟩
    have hv' := hval k hk v hv
    rcases fit_cases h ho ht with ⟨hm, -⟩ | ⟨-, m, b, hfit, hn⟩
    · rw [hm k hk] at hv; cases hv
    rcases fit_cases h' ho' ht with ⟨hm, -⟩ | ⟨-, m', b', hfit', hn'⟩
    · rw [hm k hk] at hv'; cases hv'
    have hn2 := fitPairs_shift (fun t => p * t + q) (fun _ _ => rfl) hmiss ho hval hn
    have := normal_unique hn2 hn' (Spec.position ix k, v - (p * Spec.position ix k + q))
      (mem_fitPairs.2 ⟨k, hk, rfl, hv'⟩)
    dsimp only at this
    rw [hfit, hfit', hv, hv']
    simp only [Fl.fin_mul, Fl.fin_add, Fl.fin_sub]
    congr 1
    linear_combination this

/-- C52. Detrending a detrended array changes nothing. -/
theorem C52_idempotent {x : TrendArray K} {dim : String} {ix : DimIndex K} {n : Nat}
    (h : Spec.HasAxis x dim ix n) (hi : Spec.Increasing ix n) (ht : Spec.OffOrigin ix n)
    (hp : Spec.PlainUnits ix x) :
    ∃ y z, linearDetrend (.array x) dim 1 "remove" = .ok (.array y) ∧
      linearDetrend (.array y) dim 1 "remove" = .ok (.array z) ∧ z.da.dims = y.da.dims ∧
      ∀ e, Spec.Ordinary n (Spec.along x dim e) → ∀ k < n,
        Spec.along z dim e k = Spec.along y dim e k := by
  obtain ⟨y, hy, hyd, hyi, hya, hyg⟩ := detrend_ok h hi hp (Or.inl rfl)
  simp only [if_true] at hyg
  have hY : Spec.HasAxis y dim ix n :=
    ⟨by unfold DA.dimNames; rw [hyd]; exact h.distinct, by rw [hyi]; exact h.index,
      by rw [hyd]; exact h.dim_mem, h.count⟩
  have hpy : Spec.PlainUnits ix y := by
    intro ax hax t ht'
    rw [hya "units" (by decide)] at ht'
    exact hp ax hax t ht'
  obtain ⟨z, hz, hzd, -, -, hzg⟩ := detrend_ok hY hi hpy (Or.inl rfl)
  simp only [if_true] at hzg
  refine ⟨y, z, hy, hz, hzd, fun e ho k hk => ?_⟩
  have hr := residual_along hyg e
  rcases fit_cases h ho ht with ⟨hm, -⟩ | ⟨-, m, b, hfit, hn⟩
  · rw [residual_along hzg, hr, hm k hk]; rfl
  · refine residual_unique h hY ht hyg hzg ho (p := m) (q := b) ?_ ?_ hk
    · intro i _ hv
      rw [hr, hv]; rfl
    · intro i _ v hv
      rw [hr, hv, hfit]
      simp

/-- C52. Adding a straight line to every series of the input (a different one for each series, if
wanted) does not change the result. -/
theorem C52_add_line {x : TrendArray K} {dim : String} {ix : DimIndex K} {n : Nat}
    (h : Spec.HasAxis x dim ix n) (hi : Spec.Increasing ix n) (ht : Spec.OffOrigin ix n)
    (hp : Spec.PlainUnits ix x) (slope offset : Env → K)
    (hs : ∀ e k, slope (Function.update e dim k) = slope e)
    (hq : ∀ e k, offset (Function.update e dim k) = offset e) :
    ∃ y y', linearDetrend (.array x) dim 1 "remove" = .ok (.array y) ∧
      linearDetrend (.array { x with da := ⟨x.da.dims, fun e =>
        x.da.get e + .fin (slope e * Spec.position ix (e dim) + offset e)⟩ }) dim 1 "remove" =
          .ok (.array y') ∧ y'.da.dims = y.da.dims ∧
      ∀ e, Spec.Ordinary n (Spec.along x dim e) → ∀ k < n,
        Spec.along y' dim e k = Spec.along y dim e k := by
  obtain ⟨y, hy, hyd, -, -, hyg⟩ := detrend_ok h hi hp (Or.inl rfl)
  have hX : Spec.HasAxis { x with da := ⟨x.da.dims, fun e =>
        x.da.get e + .fin (slope e * Spec.position ix (e dim) + offset e)⟩ } dim ix n :=
    ⟨h.distinct, h.index, h.dim_mem, h.count⟩
  obtain ⟨y', hy', hyd', -, -, hyg'⟩ := detrend_ok hX hi hp (Or.inl rfl)
  simp only [if_true] at hyg hyg'
  refine ⟨y, y', hy, hy', by rw [hyd, hyd'], fun e ho k hk => ?_⟩
  refine residual_unique h hX ht hyg hyg' ho (p := -slope e) (q := -offset e) ?_ ?_ hk
  · intro i _ hv
    unfold Spec.along at *
    dsimp only
    rw [hv]; rfl
  · intro i _ v hv
    unfold Spec.along at *
    dsimp only
    rw [hv, hs, hq, Function.update_self, Fl.fin_add]
    congr 1
    ring

end Momlevel.Props
