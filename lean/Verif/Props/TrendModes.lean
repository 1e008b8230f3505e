import Verif.Props.Trend
import Verif.Lemmas.Steric
import Mathlib.Algebra.BigOperators.Ring.Finset

/-!
# Detrending modes, units, datasets (C53–C56, C68)
-/

set_option linter.unusedSectionVars false

namespace Momlevel.Props
open Momlevel

variable {K : Type} [Field K] [LinearOrder K] [IsStrictOrderedRing K]

theorem unitScale_none (ix : DimIndex K) : Spec.unitScale ix none = some 1 := by
  cases ix <;> rfl

/-! ### C53: mode "correct" -/

/-- C53. The corrected array is the detrended array plus the fitted intercept. -/
theorem C53_value {x : TrendArray K} {dim : String} {ix : DimIndex K} {n : Nat}
    (h : Spec.HasAxis x dim ix n) (hi : Spec.Increasing ix n) (ht : Spec.OffOrigin ix n)
    (hp : Spec.PlainUnits ix x) :
    ∃ s b yr yc, calcLinearTrend x dim none = .ok (s, b) ∧
      linearDetrend (.array x) dim 1 "remove" = .ok (.array yr) ∧
      linearDetrend (.array x) dim 1 "correct" = .ok (.array yc) ∧
      yc.da.dims = x.da.dims ∧ yc.indexes = x.indexes ∧
      ∀ e, Spec.Ordinary n (Spec.along x dim e) → ∀ k < n,
        Spec.along yc dim e k = Spec.along yr dim e k + b.da.get e := by
  obtain ⟨s, b, hs, -, -, -, hbg, -⟩ := calc_ok h (unitScale_none ix)
  obtain ⟨yr, hyr, -, -, -, hrg⟩ := detrend_ok h hi hp (Or.inl rfl)
  obtain ⟨yc, hyc, hcd, hci, -, hcg⟩ := detrend_ok h hi hp (Or.inr rfl)
  refine ⟨s, b, yr, yc, hs, hyr, hyc, hcd, hci, fun e ho k hk => ?_⟩
  have hv := ho k hk
  unfold Spec.along at hv ⊢
  rw [hrg, hcg, hbg, fitAt_update, Function.update_self, if_pos rfl, if_neg (by decide)]
  rcases hv with hv | ⟨v, hv⟩
  · rw [hv]; rfl
  · rcases fit_cases h ho ht with ⟨hm, -⟩ | ⟨-, m, q, hfit, -⟩
    · have := hm k hk
      unfold Spec.along at this
      rw [hv] at this; cases this
    · rw [hv, hfit]
      simp only [Fl.fin_mul, Fl.fin_add, Fl.fin_sub]
      congr 1
      ring

/-- C53. Fitting the corrected array again gives slope zero and the same intercept, for every series
with valid samples at two different positions. -/
theorem C53_no_slope {x s b yc : TrendArray K} {dim : String} {ix : DimIndex K} {n : Nat}
    (h : Spec.HasAxis x dim ix n) (hi : Spec.Increasing ix n)
    (hp : Spec.PlainUnits ix x) (hs : calcLinearTrend x dim none = .ok (s, b))
    (hyc : linearDetrend (.array x) dim 1 "correct" = .ok (.array yc)) :
    ∃ s' b', calcLinearTrend yc dim none = .ok (s', b') ∧
      ∀ e, Spec.Ordinary n (Spec.along x dim e) → ∀ i j, i < n → j < n →
        Spec.along x dim e i ≠ .nan → Spec.along x dim e j ≠ .nan →
        Spec.position ix i ≠ Spec.position ix j →
        s'.da.get e = .fin 0 ∧ b'.da.get e = b.da.get e := by
  obtain ⟨s1, b1, hs1, -, -, hsg, hbg, -⟩ := calc_ok h (unitScale_none ix)
  rw [hs] at hs1
  cases hs1
  obtain ⟨y1, hy1, hcd, hci, -, hcg⟩ := detrend_ok h hi hp (Or.inr rfl)
  rw [hyc] at hy1
  cases hy1
  simp only [show ("correct" : String) ≠ "remove" by decide, if_false] at hcg
  have hY : Spec.HasAxis yc dim ix n :=
    ⟨by unfold DA.dimNames; rw [hcd]; exact h.distinct, by rw [hci]; exact h.index,
      by rw [hcd]; exact h.dim_mem, h.count⟩
  obtain ⟨s', b', hs', -, -, hsg', hbg', -⟩ := calc_ok hY (unitScale_none ix)
  refine ⟨s', b', hs', fun e ho i j hin hjn hvi hvj hne => ?_⟩
  have ht : Spec.OffOrigin ix n := by
    by_contra hcon
    have hz : ∀ k < n, Spec.position ix k = 0 := fun k hk => by
      by_contra hk0; exact hcon ⟨k, hk, hk0⟩
    exact hne (by rw [hz i hin, hz j hjn])
  obtain ⟨vi, hvi⟩ := (ho i hin).resolve_left hvi
  obtain ⟨vj, hvj⟩ := (ho j hjn).resolve_left hvj
  rcases fit_cases h ho ht with ⟨hm, -⟩ | ⟨-, m, q, hfit, hn⟩
  · rw [hm i hin] at hvi; cases hvi
  have hr : ∀ k, Spec.along yc dim e k = Spec.along x dim e k - .fin (m * Spec.position ix k) := by
    intro k
    unfold Spec.along
    rw [hcg, fitAt_update, Function.update_self, hfit, Fl.fin_mul]
  have hmiss : ∀ k < n, Spec.along x dim e k = .nan → Spec.along yc dim e k = .nan :=
    fun k _ hv => by rw [hr, hv]; rfl
  have hval : ∀ k < n, ∀ v, Spec.along x dim e k = .fin v →
      Spec.along yc dim e k = .fin (v - m * Spec.position ix k) :=
    fun k _ v hv => by rw [hr, hv, Fl.fin_sub]
  have ho' : Spec.Ordinary n (Spec.along yc dim e) := by
    intro k hk
    rcases ho k hk with hv | ⟨v, hv⟩
    · exact Or.inl (hmiss k hk hv)
    · exact Or.inr ⟨_, hval k hk v hv⟩
  have hn2 := fitPairs_shift (m' := m) (b' := 0) (fun t => m * t) (fun _ _ => by ring) hmiss ho hval hn
  rcases fit_cases hY ho' ht with ⟨hm, -⟩ | ⟨-, m', q', hfit', hn'⟩
  · have := hval i hin vi hvi
    rw [hm i hin] at this; cases this
  obtain ⟨e1, e2⟩ := normal_determined hn2 hn' hin hjn (hval i hin vi hvi) (hval j hjn vj hvj) hne
  rw [hsg', hbg', hbg, hfit, hfit']
  simp only [Fl.fin_mul]
  rw [← e1, ← e2]
  simp

/-- The corrected series, sample by sample. -/
theorem corrected_along {x s b yc : TrendArray K} {dim : String} {ix : DimIndex K} {n : Nat}
    (h : Spec.HasAxis x dim ix n) (hi : Spec.Increasing ix n)
    (hp : Spec.PlainUnits ix x) (hs : calcLinearTrend x dim none = .ok (s, b))
    (hyc : linearDetrend (.array x) dim 1 "correct" = .ok (.array yc)) {e : Env} {m : K}
    (hm : s.da.get e = .fin m) (k : Nat) :
    Spec.along yc dim e k = Spec.along x dim e k - .fin (m * Spec.position ix k) := by
  obtain ⟨s1, b1, hs1, -, -, hsg, -, -⟩ := calc_ok h (unitScale_none ix)
  rw [hs] at hs1
  cases hs1
  obtain ⟨y1, hy1, -, -, -, hcg⟩ := detrend_ok h hi hp (Or.inr rfl)
  rw [hyc] at hy1
  cases hy1
  simp only [show ("correct" : String) ≠ "remove" by decide, if_false] at hcg
  have hf : (fitAt x dim ix n e).1 = .fin m := by
    have := hsg e
    rw [hm, FN_mul_one (x := (fitAt x dim ix n e).1) (polyfit1_FN _ _).1] at this
    exact this.symm
  unfold Spec.along
  rw [hcg, fitAt_update, Function.update_self, hf, Fl.fin_mul]

/-- C53. A valid sample keeps its value only if the slope is zero or the sample lies at the origin of
the axis (1970-01-01 for dates). -/
theorem C53_epoch {x s b yc : TrendArray K} {dim : String} {ix : DimIndex K} {n : Nat}
    (h : Spec.HasAxis x dim ix n) (hi : Spec.Increasing ix n)
    (hp : Spec.PlainUnits ix x) (hs : calcLinearTrend x dim none = .ok (s, b))
    (hyc : linearDetrend (.array x) dim 1 "correct" = .ok (.array yc)) {e : Env} {m : K}
    (hm : s.da.get e = .fin m) {k : Nat} {v : K} (hv : Spec.along x dim e k = .fin v) :
    Spec.along yc dim e k = Spec.along x dim e k ↔ m = 0 ∨ Spec.position ix k = 0 := by
  rw [corrected_along h hi hp hs hyc hm, hv, Fl.fin_sub, Fl.fin.injEq, sub_eq_self, mul_eq_zero]

/-- C53. The sum over the valid samples changes by the slope times the sum of their positions, so the
mean is preserved only if the slope is zero or the mean position is the origin of the axis. -/
theorem C53_mean {x s b yc : TrendArray K} {dim : String} {ix : DimIndex K} {n : Nat}
    (h : Spec.HasAxis x dim ix n) (hi : Spec.Increasing ix n)
    (hp : Spec.PlainUnits ix x) (hs : calcLinearTrend x dim none = .ok (s, b))
    (hyc : linearDetrend (.array x) dim 1 "correct" = .ok (.array yc)) {e : Env} {m : K}
    (hm : s.da.get e = .fin m) (ho : Spec.Ordinary n (Spec.along x dim e)) :
    Spec.overValid n (Spec.along yc dim e) (fun _ v => v) =
      Spec.overValid n (Spec.along x dim e) (fun _ v => v) -
        m * Spec.overValid n (Spec.along x dim e) (fun k _ => Spec.position ix k) := by
  have hr := corrected_along h hi hp hs hyc hm
  rw [overValid_shift (s := Spec.along x dim e) (g := fun k => m * Spec.position ix k)
    (fun k _ hv => by rw [hr, hv]; rfl) ho (fun k _ v hv => by rw [hr, hv, Fl.fin_sub])]
  unfold Spec.overValid
  rw [Finset.mul_sum, ← Finset.sum_sub_distrib]
  apply Finset.sum_congr rfl
  intro k hk
  rcases ho k (Finset.mem_range.1 hk) with hv | ⟨v, hv⟩ <;> rw [hv] <;> simp [Spec.ifValid]

/-! ### C54: units of the slope round-trip -/

/-- C54. `broadcast_trend` of the slope returned by `calc_linear_trend` gives the same array for every
requested unit: the least-squares slope per nanosecond times the time in nanoseconds. -/
theorem C54_roundtrip {x : TrendArray K} {dim : String} {ix : DimIndex K} {n : Nat}
    {u u' : Option String} {c c' : K} (h : Spec.HasAxis x dim ix n) (hi : Spec.Increasing ix n)
    (hp : Spec.PlainUnits ix x) (hc : Spec.unitScale ix u = some c)
    (hc' : Spec.unitScale ix u' = some c') :
    ∃ s b s' b' r r', calcLinearTrend x dim u = .ok (s, b) ∧
      calcLinearTrend x dim u' = .ok (s', b') ∧
      broadcastTrend (some s) (some ⟨[dim], some ix⟩) = .ok r ∧
      broadcastTrend (some s') (some ⟨[dim], some ix⟩) = .ok r' ∧
      r.dims = r'.dims ∧ (∀ e, r.get e = r'.get e) ∧
      ∀ e k, r.get (Function.update e dim k) * .fin c = s.da.get e * .fin (Spec.position ix k) := by
  obtain ⟨s, b, r, hs, hr, hrd, hrg, -, -⟩ := broadcast_calc h hi hp hc
  obtain ⟨s', b', r', hs', hr', hrd', hrg', -, -⟩ := broadcast_calc h hi hp hc'
  obtain ⟨s1, b1, hs1, -, -, hsg, -, -⟩ := calc_ok h hc
  rw [hs] at hs1
  cases hs1
  refine ⟨s, b, s', b', r, r', hs, hs', hr, hr', by rw [hrd, hrd'],
    fun e => by rw [hrg, hrg'], fun e k => ?_⟩
  rw [hrg, hsg, fitAt_update, Function.update_self]
  rcases (polyfit1_FN ix.numbers ((List.range n).map (Spec.along x dim e))).1 with hf | ⟨m, hf⟩
  · have : (fitAt x dim ix n e).1 = .nan := hf
    rw [this]; rfl
  · have : (fitAt x dim ix n e).1 = .fin m := hf
    rw [this]
    simp only [Fl.fin_mul]
    congr 1
    ring

/-! ### C55: units with "-1" -/

/-- C55 (defect). Detrending a time series whose units contain "-1" is a ValueError, whatever the data
and the mode. -/
theorem C55_per {x : TrendArray K} {dim : String} {ax : TimeAxis} {n : Nat} {t : String}
    (h : Spec.HasAxis x dim (.cftime ax) n) (ht : x.attrs.lookup "units" = some t)
    (hp : Spec.mentionsPer t) (mode : String) :
    linearDetrend (.array x) dim 1 mode = .error .valueError := by
  obtain ⟨s, b, hs, -, -, -, -, hatt⟩ := calc_ok h (unitScale_none (.cftime ax))
  have hd : dictGet x.indexes dim = .ok (.cftime ax) := by unfold dictGet; rw [h.index]
  have hb : broadcastTrend (some s) (some ⟨[dim], some (.cftime ax)⟩) = .error .valueError := by
    unfold broadcastTrend slopeForIndex
    simp only [Option.elim, ok_bind, List.length_singleton, beq_self_eq_true, pyAssert_true,
      DimIndex.isCftime, if_true,
      slopeToNs_per (nsPer_recognised (K := K) (u := "ns") rfl) (hatt rfl) ht hp]
    rfl
  unfold linearDetrend detrendArray
  simp only [beq_self_eq_true, pyAssert_true, ok_bind, hs, hd, hb]
  rfl

/-- C55, the part that holds (the full claim, without `hp`, is refuted by `C55_counterexample`):
detrending succeeds when the units do not contain "-1". -/
theorem C55_partial {x : TrendArray K} {dim : String} {ix : DimIndex K} {n : Nat} {mode : String}
    (h : Spec.HasAxis x dim ix n) (hi : Spec.Increasing ix n) (hp : Spec.PlainUnits ix x)
    (hm : mode = "remove" ∨ mode = "correct") :
    ∃ y, linearDetrend (.array x) dim 1 mode = .ok (.array y) ∧ y.da.dims = x.da.dims := by
  obtain ⟨y, hy, hyd, -⟩ := detrend_ok h hi hp hm
  exact ⟨y, hy, hyd⟩

/-! ### C56: datasets, modes and orders -/

/-- C56. An order other than 1 is an AssertionError. -/
theorem C56_order {x : TrendArray K} {dim mode : String} {order : Int} (h : order ≠ 1) :
    linearDetrend (.array x) dim order mode = .error .assertionError := by
  unfold linearDetrend detrendArray
  have : (order == 1) = false := beq_false_of_ne h
  simp only [this, pyAssert_false]
  rfl

/-- C56. An unknown mode is a ValueError for every array with an increasing axis. -/
theorem C56_mode {x : TrendArray K} {dim mode : String} {ix : DimIndex K} {n : Nat}
    (h : Spec.HasAxis x dim ix n) (hi : Spec.Increasing ix n) (h1 : mode ≠ "remove")
    (h2 : mode ≠ "correct") : linearDetrend (.array x) dim 1 mode = .error .valueError := by
  have key : Spec.PlainUnits ix x → linearDetrend (.array x) dim 1 mode = .error .valueError := by
    intro hp
    obtain ⟨s, b, r, hs, hr, -⟩ := broadcast_calc h hi hp (unitScale_none ix)
    have hd : dictGet x.indexes dim = .ok ix := by unfold dictGet; rw [h.index]
    have hm : modeFit mode r b.da = .error .valueError := by
      unfold modeFit; rw [if_neg h1, if_neg h2]
    unfold linearDetrend detrendArray
    simp only [beq_self_eq_true, pyAssert_true, ok_bind, hs, hd, hr, hm]
    rfl
  by_cases hp : Spec.PlainUnits ix x
  · exact key hp
  · unfold Spec.PlainUnits at hp
    push Not at hp
    obtain ⟨ax, rfl, t, ht, hper⟩ := hp
    exact C55_per h ht hper mode

theorem mapM_pairs {A B : Type} (f : A → Except PyErr B) (l : List (String × A))
    (out : List (String × B)) :
    (l.mapM (fun p => do return (p.1, ← f p.2)) : Except PyErr _) = .ok out ↔
      List.Forall₂ (fun p q => p.1 = q.1 ∧ f p.2 = .ok q.2) l out := by
  induction l generalizing out with
  | nil =>
    rw [List.mapM_nil]
    constructor
    · intro h; cases h; exact .nil
    · intro h; cases h; rfl
  | cons p l ih =>
    rw [List.mapM_cons]
    constructor
    · intro h
      obtain ⟨q, hq, h⟩ := bind_ok.1 h
      obtain ⟨b, hb, hq⟩ := bind_ok.1 hq
      obtain ⟨out', ho, h⟩ := bind_ok.1 h
      cases hq
      cases h
      exact .cons ⟨rfl, hb⟩ ((ih out').1 ho)
    · intro h
      cases h with
      | cons hpq hrest =>
        rename_i q out'
        have := (ih out').2 hrest
        rw [this, hpq.2]
        obtain ⟨q1, q2⟩ := q
        have e := hpq.1
        dsimp only at e
        subst e
        rfl

/-- C56. A dataset keeps its variables and their order; a variable without the dimension is returned
unchanged, a variable with it is what detrending that variable alone gives. -/
theorem C56_dataset {vars out : List (String × TrendArray K)} {dim mode : String} {order : Int} :
    linearDetrend (.dataset vars) dim order mode = .ok (.dataset out) ↔
      List.Forall₂ (fun p q => p.1 = q.1 ∧
        ((dim ∉ p.2.da.dimNames ∧ q.2 = p.2) ∨
         (dim ∈ p.2.da.dimNames ∧
          linearDetrend (.array p.2) dim order mode = .ok (.array q.2)))) vars out := by
  have h1 : linearDetrend (.dataset vars) dim order mode = .ok (.dataset out) ↔
      (vars.mapM (fun p => do return (p.1, ← detrendVar dim order mode p.2)) : Except PyErr _) =
        .ok out := by
    unfold linearDetrend
    dsimp only
    cases (vars.mapM (fun p => do return (p.1, ← detrendVar dim order mode p.2)) : Except PyErr _) with
    | error er => simp
    | ok o =>
      simp only [ok_bind]
      constructor
      · intro h; cases h; rfl
      · intro h; cases h; rfl
  rw [h1, mapM_pairs]
  have h2 : ∀ (p q : String × TrendArray K), (p.1 = q.1 ∧ detrendVar dim order mode p.2 = .ok q.2) ↔
      (p.1 = q.1 ∧ ((dim ∉ p.2.da.dimNames ∧ q.2 = p.2) ∨
         (dim ∈ p.2.da.dimNames ∧
          linearDetrend (.array p.2) dim order mode = .ok (.array q.2)))) := by
    intro p q
    apply and_congr_right
    intro _
    unfold detrendVar
    by_cases hd : dim ∈ p.2.da.dimNames
    · rw [if_pos (List.contains_iff_mem.2 hd)]
      unfold linearDetrend
      dsimp only
      cases detrendArray p.2 dim order mode with
      | error er => simp [hd]
      | ok y =>
        simp only [ok_bind, hd, not_true_eq_false, false_and, true_and, false_or]
        constructor
        · intro h; cases h; rfl
        · intro h; cases h; rfl
    · rw [if_neg (by rw [List.contains_iff_mem]; exact hd)]
      simp only [hd, not_false_eq_true, true_and, false_and, or_false]
      constructor
      · intro h; exact (Except.ok.inj h).symm
      · intro h; rw [h]
  simp only [h2]

/-- C56. Something that is neither an array nor a dataset is a TypeError. -/
theorem C56_other {dim mode : String} {order : Int} :
    linearDetrend (K := K) .other dim order mode = .error .typeError := rfl

end Momlevel.Props
