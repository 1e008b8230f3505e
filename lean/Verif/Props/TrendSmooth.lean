import Verif.Props.TrendSize
import Verif.Lemmas.MidpointRule
import Mathlib.Analysis.Calculus.Darboux

/-! # C159: trends of smooth series

The trend of a differentiable series is its rate of change at some moment of the record; for evenly spaced samples
without gaps it is close to the rate of change in the middle, and equal to it if the series is quadratic. -/

set_option linter.unusedSectionVars false

namespace Momlevel.Props
open Momlevel Momlevel.Fl

section
variable {x s b : TrendArray ℝ} {dim : String} {ix : DimIndex ℝ} {n : Nat} {u : Option String} {c : ℝ}

/-- C159 (some moment): if the valid samples are those of a differentiable function, whatever samples are missing, the
slope is the derivative of the function at some moment between the first and the last. -/
theorem C159_moment
    (h : Spec.HasAxis x dim ix n) (hc : Spec.unitScale ix u = some c)
    (hs : calcLinearTrend x dim u = .ok (s, b)) {e : Env} {f f1 : ℝ → ℝ} {lo hi : ℝ}
    (hf : ∀ t, lo ≤ t → t ≤ hi → HasDerivAt f (f1 t) t)
    (hx : ∀ k < n, Spec.along x dim e k = .nan ∨
      (Spec.along x dim e k = .fin (f (Spec.position ix k)) ∧ lo ≤ Spec.position ix k ∧ Spec.position ix k ≤ hi))
    {i j : Nat} (hi' : i < n) (hj : j < n) (hv : Spec.along x dim e i ≠ .nan) (hw : Spec.along x dim e j ≠ .nan)
    (hne : Spec.position ix j < Spec.position ix i) :
    ∃ t, lo ≤ t ∧ t ≤ hi ∧ s.da.get e = .fin (f1 t * c) := by
  have ho : Spec.Ordinary n (Spec.along x dim e) := fun k hk => (hx k hk).imp id (fun q => ⟨_, q.1⟩)
  obtain ⟨vi, li, ui⟩ := (hx i hi').resolve_left hv
  obtain ⟨vj, lj, uj⟩ := (hx j hj).resolve_left hw
  obtain ⟨m, q, hm, -, hn⟩ := fit_of h hc hs ho hi' hj vi hne
  by_cases hmem : m ∈ f1 '' Set.Icc lo hi
  · obtain ⟨t, ht, rfl⟩ := hmem
    exact ⟨t, ht.1, ht.2, hm⟩
  exfalso
  have hord := (Set.ordConnected_Icc (a := lo) (b := hi)).image_hasDerivWithinAt
    (fun t ht => (hf t ht.1 ht.2).hasDerivWithinAt)
  have hp : (Spec.position ix i, f (Spec.position ix i)) ∈ fitPairs n (Spec.position ix) (Spec.along x dim e) :=
    mem_fitPairs.2 ⟨i, hi', rfl, vi⟩
  have hq : (Spec.position ix j, f (Spec.position ix j)) ∈ fitPairs n (Spec.position ix) (Spec.along x dim e) :=
    mem_fitPairs.2 ⟨j, hj, rfl, vj⟩
  have pairs : ∀ p ∈ fitPairs n (Spec.position ix) (Spec.along x dim e), p.2 = f p.1 ∧ lo ≤ p.1 ∧ p.1 ≤ hi := by
    rintro ⟨p1, p2⟩ hp
    obtain ⟨k, hk, rfl, hk'⟩ := mem_fitPairs.1 hp
    rcases hx k hk with h | ⟨h, q⟩
    · rw [h] at hk'; cases hk'
    · rw [h] at hk'; cases hk'; exact ⟨rfl, q⟩
  have chord : ∀ p ∈ fitPairs n (Spec.position ix) (Spec.along x dim e),
      ∀ q ∈ fitPairs n (Spec.position ix) (Spec.along x dim e), q.1 < p.1 →
      ∃ t, lo ≤ t ∧ t ≤ hi ∧ p.2 - q.2 = f1 t * (p.1 - q.1) := by
    intro p hp q hq hlt
    obtain ⟨a1, a2, a3⟩ := pairs p hp
    obtain ⟨b1, b2, b3⟩ := pairs q hq
    obtain ⟨t, ht, et⟩ := exists_hasDerivAt_eq_slope f f1 hlt
      (fun t ht => (hf t (b2.trans ht.1) (ht.2.trans a3)).continuousAt.continuousWithinAt)
      (fun t ht => hf t (b2.trans ht.1.le) (ht.2.le.trans a3))
    refine ⟨t, b2.trans ht.1.le, ht.2.le.trans a3, ?_⟩
    have : p.1 - q.1 ≠ 0 := (sub_pos.2 hlt).ne'
    rw [et, a1, b1]; field_simp
  by_cases hall : ∀ t, lo ≤ t → t ≤ hi → m < f1 t
  · have := (normal_ge (lo := m) hn (fun p hp q hq hlt => by
      obtain ⟨t, t1, t2, t3⟩ := chord p hp q hq hlt
      rw [t3]; exact mul_le_mul_of_nonneg_right (hall t t1 t2).le (sub_pos.2 hlt).le) hp hq hne).2 rfl
    obtain ⟨t, t1, t2, t3⟩ := chord _ hp _ hq hne
    rw [t3] at this
    exact (hall t t1 t2).ne (mul_right_cancel₀ (sub_pos.2 hne).ne' this).symm
  · have hall' : ∀ t, lo ≤ t → t ≤ hi → f1 t < m := by
      intro t t1 t2
      by_contra hcon
      refine hall (fun r r1 r2 => ?_)
      by_contra hr
      exact hmem (hord.out ⟨r, ⟨r1, r2⟩, rfl⟩ ⟨t, ⟨t1, t2⟩, rfl⟩ ⟨not_lt.1 hr, not_lt.1 hcon⟩)
    have := (normal_le (hi := m) hn (fun p hp q hq hlt => by
      obtain ⟨t, t1, t2, t3⟩ := chord p hp q hq hlt
      rw [t3]; exact mul_le_mul_of_nonneg_right (hall' t t1 t2).le (sub_pos.2 hlt).le) hp hq hne).2 rfl
    obtain ⟨t, t1, t2, t3⟩ := chord _ hp _ hq hne
    rw [t3] at this
    exact (hall' t t1 t2).ne (mul_right_cancel₀ (sub_pos.2 hne).ne' this)

theorem rolle_ne {F F' : ℝ → ℝ} {a t : ℝ} (hab : a ≠ t) (hd : ∀ r ∈ Set.uIcc a t, HasDerivAt F (F' r) r) (h : F a = F t) :
    ∃ r ∈ Set.uIcc a t, r ≠ a ∧ F' r = 0 := by
  rcases lt_or_gt_of_ne hab with hlt | hlt
  · rw [Set.uIcc_of_le hlt.le] at hd ⊢
    obtain ⟨r, hr, e⟩ := exists_hasDerivAt_eq_zero hlt (fun q hq => (hd q hq).continuousAt.continuousWithinAt) h
      (fun q hq => hd q ⟨hq.1.le, hq.2.le⟩)
    exact ⟨r, ⟨hr.1.le, hr.2.le⟩, hr.1.ne', e⟩
  · rw [Set.uIcc_of_ge hlt.le] at hd ⊢
    obtain ⟨r, hr, e⟩ := exists_hasDerivAt_eq_zero hlt (fun q hq => (hd q hq).continuousAt.continuousWithinAt) h.symm
      (fun q hq => hd q ⟨hq.1.le, hq.2.le⟩)
    exact ⟨r, ⟨hr.1.le, hr.2.le⟩, hr.2.ne, e⟩

/-- Taylor's formula. -/
theorem taylor_error {f f1 f2 f3 : ℝ → ℝ} {lo hi M a t : ℝ} (hf : Smooth f f1 f2 f3 lo hi M) (ha : lo ≤ a ∧ a ≤ hi)
    (ht : lo ≤ t ∧ t ≤ hi) :
    |f t - (f a + f1 a * (t - a) + f2 a / 2 * (t - a) ^ 2)| ≤ M / 6 * |t - a| ^ 3 := by
  by_cases hat : a = t
  · subst hat; simp
  have sub : ∀ r, r ∈ Set.uIcc a t → lo ≤ r ∧ r ≤ hi := fun r hr => by
    have := Set.uIcc_subset_Icc (Set.mem_Icc.2 ha) (Set.mem_Icc.2 ht) hr
    exact this
  have hta : t - a ≠ 0 := sub_ne_zero.2 (Ne.symm hat)
  set κ := (f t - (f a + f1 a * (t - a) + f2 a / 2 * (t - a) ^ 2)) / (t - a) ^ 3 with hκ
  have lin : ∀ r, HasDerivAt (fun r : ℝ => r - a) 1 r := fun r => (hasDerivAt_id r).sub_const a
  have k1 : ∀ r ∈ Set.uIcc a t, HasDerivAt (fun r => f r - (f a + f1 a * (r - a) + f2 a / 2 * (r - a) ^ 2) - κ * (r - a) ^ 3)
      (f1 r - (f1 a + f2 a * (r - a)) - κ * (3 * (r - a) ^ 2)) r := fun r hr => by
    have q := hf.d1 r (sub r hr).1 (sub r hr).2
    refine ((q.sub ((((lin r).const_mul (f1 a)).const_add (f a)).add (((lin r).pow 2).const_mul (f2 a / 2)))).sub
      (((lin r).pow 3).const_mul κ)).congr_deriv ?_
    push_cast; ring
  have k2 : ∀ r ∈ Set.uIcc a t, HasDerivAt (fun r => f1 r - (f1 a + f2 a * (r - a)) - κ * (3 * (r - a) ^ 2))
      (f2 r - f2 a - κ * (6 * (r - a))) r := fun r hr => by
    have q := hf.d2 r (sub r hr).1 (sub r hr).2
    refine ((q.sub (((lin r).const_mul (f2 a)).const_add (f1 a))).sub
      ((((lin r).pow 2).const_mul 3).const_mul κ)).congr_deriv ?_
    push_cast; ring
  have k3 : ∀ r ∈ Set.uIcc a t, HasDerivAt (fun r => f2 r - f2 a - κ * (6 * (r - a))) (f3 r - κ * 6) r := fun r hr => by
    have q := hf.d3 r (sub r hr).1 (sub r hr).2
    refine ((q.sub_const (f2 a)).sub (((lin r).const_mul 6).const_mul κ)).congr_deriv ?_
    ring
  obtain ⟨r1, m1, n1, e1⟩ := rolle_ne hat k1 (by simp only [hκ]; field_simp; ring)
  have s1 : ∀ r ∈ Set.uIcc a r1, r ∈ Set.uIcc a t := fun r hr => Set.uIcc_subset_uIcc_left m1 hr
  obtain ⟨r2, m2, n2, e2⟩ := rolle_ne n1.symm (fun r hr => k2 r (s1 r hr)) (by rw [e1]; ring)
  have s2 : ∀ r ∈ Set.uIcc a r2, r ∈ Set.uIcc a r1 := fun r hr => Set.uIcc_subset_uIcc_left m2 hr
  obtain ⟨r3, m3, -, e3⟩ := rolle_ne n2.symm (fun r hr => k3 r (s1 r (s2 r hr))) (by rw [e2]; ring)
  have hb := hf.bound r3 (sub r3 (s1 r3 (s2 r3 m3))).1 (sub r3 (s1 r3 (s2 r3 m3))).2
  have e4 : f t - (f a + f1 a * (t - a) + f2 a / 2 * (t - a) ^ 2) = f3 r3 / 6 * (t - a) ^ 3 := by
    rw [show f3 r3 = κ * 6 by linarith, hκ]; field_simp
  rw [e4, abs_mul, abs_pow, abs_div, abs_of_pos (by norm_num : (0 : ℝ) < 6)]
  exact mul_le_mul_of_nonneg_right (div_le_div_of_nonneg_right hb (by norm_num)) (by positivity)

theorem overValid_all {n : Nat} {y : Nat → Fl ℝ} {v : Nat → ℝ} (hy : ∀ k < n, y k = .fin (v k)) (g : Nat → ℝ → ℝ) :
    Spec.overValid n y g = ∑ k ∈ Finset.range n, g k (v k) :=
  Finset.sum_congr rfl (fun k hk => by rw [hy k (Finset.mem_range.1 hk)]; rfl)

/-- C159 (gaps): if moreover the second derivative is at most `M`, the slope differs from the derivative in the middle of
the record by at most `M/2` times the length of the record, whatever samples are missing. -/
theorem C159_gaps
    (h : Spec.HasAxis x dim ix n) (hc : Spec.unitScale ix u = some c)
    (hs : calcLinearTrend x dim u = .ok (s, b)) {e : Env} {f f1 f2 : ℝ → ℝ} {lo hi M : ℝ}
    (hf : ∀ t, lo ≤ t → t ≤ hi → HasDerivAt f (f1 t) t) (hf1 : ∀ t, lo ≤ t → t ≤ hi → HasDerivAt f1 (f2 t) t)
    (hM : ∀ t, lo ≤ t → t ≤ hi → |f2 t| ≤ M)
    (hx : ∀ k < n, Spec.along x dim e k = .nan ∨
      (Spec.along x dim e k = .fin (f (Spec.position ix k)) ∧ lo ≤ Spec.position ix k ∧ Spec.position ix k ≤ hi))
    {i j : Nat} (hi' : i < n) (hj : j < n) (hv : Spec.along x dim e i ≠ .nan) (hw : Spec.along x dim e j ≠ .nan)
    (hne : Spec.position ix j < Spec.position ix i) :
    ∃ m, s.da.get e = .fin (m * c) ∧ |m - f1 ((lo + hi) / 2)| ≤ M / 2 * (hi - lo) := by
  obtain ⟨t, t1, t2, t3⟩ := C159_moment h hc hs hf hx hi' hj hv hw hne
  refine ⟨f1 t, t3, ?_⟩
  have hlip : ∀ a b, lo ≤ a → a < b → b ≤ hi → |f1 b - f1 a| ≤ M * (b - a) := by
    intro a b h1 h2 h3
    obtain ⟨z, ⟨z1, z2⟩, z3⟩ := exists_hasDerivAt_eq_slope f1 f2 h2
      (fun y hy => (hf1 y (h1.trans hy.1) (hy.2.trans h3)).continuousAt.continuousWithinAt)
      (fun y hy => hf1 y (h1.trans hy.1.le) (hy.2.le.trans h3))
    have hb := hM z (h1.trans z1.le) (z2.le.trans h3)
    have h0 : 0 < b - a := by linarith
    rw [z3, abs_div, abs_of_pos h0, div_le_iff₀ h0] at hb
    exact hb
  have M0 : 0 ≤ M := (abs_nonneg _).trans (hM t t1 t2)
  rcases lt_trichotomy t ((lo + hi) / 2) with h1 | h1 | h1
  · rw [abs_sub_comm]
    refine (hlip t _ t1 h1 (by linarith)).trans ?_
    nlinarith
  · rw [← h1, sub_self, abs_zero]
    exact mul_nonneg (by linarith) (by linarith)
  · refine (hlip _ t (by linarith) h1 t2).trans ?_
    nlinarith

/-- C159 (middle): evenly spaced samples without gaps over a record of length `L`. -/
theorem C159_middle
    (h : Spec.HasAxis x dim ix n) (hc : Spec.unitScale ix u = some c)
    (hs : calcLinearTrend x dim u = .ok (s, b)) {e : Env} {f f1 f2 f3 : ℝ → ℝ} {t0 d M : ℝ} (hd : 0 < d) (hn : 2 ≤ n)
    (hpos : ∀ k < n, Spec.position ix k = t0 + d * k)
    (hf : Smooth f f1 f2 f3 t0 (t0 + d * (n - 1)) M)
    (hx : ∀ k < n, Spec.along x dim e k = .fin (f (Spec.position ix k))) :
    ∃ m, s.da.get e = .fin (m * c) ∧ |m - f1 (t0 + d * (n - 1) / 2)| ≤ M / 24 * (d * (n - 1)) ^ 2 := by
  have ho : Spec.Ordinary n (Spec.along x dim e) := fun k hk => Or.inr ⟨_, hx k hk⟩
  obtain ⟨m, q, hm, -, hfit⟩ := fit_of h hc hs ho (i := 1) (j := 0) (by omega) (by omega) (hx 1 (by omega))
    (by rw [hpos 0 (by omega), hpos 1 (by omega)]; push_cast; linarith)
  refine ⟨m, hm, ?_⟩
  set a := t0 + d * (n - 1) / 2 with ha
  set σ : Nat → ℝ := fun k => t0 + d * k - a with hσ
  have n1 : (1 : ℝ) ≤ n := by exact_mod_cast (by omega : 1 ≤ n)
  have flip : ∀ k < n, σ (n - 1 - k) = - σ k := fun k hk => by
    simp only [hσ, ha]
    rw [Nat.cast_sub (by omega), Nat.cast_sub (by omega)]
    push_cast; ring
  have odd : ∀ p : Nat, Odd p → ∑ k ∈ Finset.range n, σ k ^ p = 0 := fun p hp => by
    have := Finset.sum_range_reflect (fun k => σ k ^ p) n
    rw [Finset.sum_congr rfl (fun k hk => by rw [flip k (Finset.mem_range.1 hk), hp.neg_pow]),
      Finset.sum_neg_distrib] at this
    linarith
  have v1 : ∀ k < n, Spec.along x dim e k = .fin (f (t0 + d * k)) := fun k hk => by rw [hx k hk, hpos k hk]
  have e0 := normal_centred (a := a) hfit (by
    rw [lsum_fitPairs, overValid_all v1]
    rw [Finset.sum_congr rfl (fun k hk => by rw [hpos k (Finset.mem_range.1 hk)])]
    have o1 := odd 1 odd_one
    simp only [pow_one] at o1
    exact o1)
  rw [lsum_fitPairs, lsum_fitPairs, overValid_all v1, overValid_all v1] at e0
  rw [Finset.sum_congr rfl (fun k hk => by rw [hpos k (Finset.mem_range.1 hk)]),
    Finset.sum_congr (s₁ := Finset.range n) (f := fun k => (Spec.position ix k - a) * f (t0 + d * k))
      (g := fun k => σ k * f (t0 + d * k)) rfl (fun k hk => by rw [hpos k (Finset.mem_range.1 hk)])] at e0
  change m * ∑ k ∈ Finset.range n, σ k ^ 2 = _ at e0
  have hnd : 0 ≤ d * ((n : ℝ) - 1) := mul_nonneg hd.le (by linarith)
  have ain : t0 ≤ a ∧ a ≤ t0 + d * (n - 1) := by constructor <;> rw [ha] <;> linarith
  have kin : ∀ k < n, t0 ≤ t0 + d * k ∧ t0 + d * k ≤ t0 + d * (n - 1) := fun k hk => by
    have : (k : ℝ) + 1 ≤ n := by exact_mod_cast hk
    have k0 : (0 : ℝ) ≤ k := Nat.cast_nonneg k
    constructor
    · nlinarith
    · nlinarith
  have s2 : ∀ k < n, σ k ^ 2 ≤ (d * (n - 1)) ^ 2 / 4 := fun k hk => by
    obtain ⟨q1, q2⟩ := kin k hk
    have : |σ k| ≤ d * (n - 1) / 2 := by
      rw [abs_le]; simp only [hσ, ha]; constructor <;> linarith
    have := pow_le_pow_left₀ (abs_nonneg _) this 2
    rw [sq_abs] at this
    linarith [this, show (d * ((n : ℝ) - 1) / 2) ^ 2 = (d * (n - 1)) ^ 2 / 4 by ring]
  have hM : 0 ≤ M := (abs_nonneg _).trans (hf.bound a ain.1 ain.2)
  have hS : 0 < ∑ k ∈ Finset.range n, σ k ^ 2 := by
    refine Finset.sum_pos' (fun k _ => sq_nonneg _) ⟨0, Finset.mem_range.2 (by omega), ?_⟩
    have : σ 0 < 0 := by
      have n2 : (2 : ℝ) ≤ n := by exact_mod_cast hn
      simp only [hσ, ha]; push_cast; nlinarith
    rw [sq]; exact mul_pos_of_neg_of_neg this this
  have e5 : (m - f1 a) * ∑ k ∈ Finset.range n, σ k ^ 2 = ∑ k ∈ Finset.range n,
      σ k * (f (t0 + d * k) - (f a + f1 a * σ k + f2 a / 2 * σ k ^ 2)) := by
    have o1 := odd 1 odd_one
    have o3 := odd 3 (by decide)
    have : ∑ k ∈ Finset.range n, σ k * (f (t0 + d * k) - (f a + f1 a * σ k + f2 a / 2 * σ k ^ 2))
        = ∑ k ∈ Finset.range n, σ k * f (t0 + d * k) - f a * ∑ k ∈ Finset.range n, σ k ^ 1
          - f1 a * ∑ k ∈ Finset.range n, σ k ^ 2 - f2 a / 2 * ∑ k ∈ Finset.range n, σ k ^ 3 := by
      rw [Finset.mul_sum, Finset.mul_sum, Finset.mul_sum, ← Finset.sum_sub_distrib, ← Finset.sum_sub_distrib,
        ← Finset.sum_sub_distrib]
      exact Finset.sum_congr rfl (fun k _ => by ring)
    rw [this, o1, o3, ← e0]; ring
  have e6 : |m - f1 a| * ∑ k ∈ Finset.range n, σ k ^ 2
      ≤ M / 24 * (d * (n - 1)) ^ 2 * ∑ k ∈ Finset.range n, σ k ^ 2 := by
    rw [← abs_of_pos hS, ← abs_mul, e5, abs_of_pos hS, Finset.mul_sum]
    refine (Finset.abs_sum_le_sum_abs _ _).trans (Finset.sum_le_sum (fun k hk => ?_))
    have hk := Finset.mem_range.1 hk
    have T := taylor_error hf ain (kin k hk)
    rw [abs_mul]
    calc |σ k| * |f (t0 + d * k) - (f a + f1 a * σ k + f2 a / 2 * σ k ^ 2)| ≤ |σ k| * (M / 6 * |σ k| ^ 3) :=
          mul_le_mul_of_nonneg_left T (abs_nonneg _)
      _ = M / 6 * (σ k ^ 2 * σ k ^ 2) := by
          rw [← sq_abs (σ k)]; ring
      _ ≤ M / 6 * ((d * (n - 1)) ^ 2 / 4 * σ k ^ 2) :=
          mul_le_mul_of_nonneg_left (mul_le_mul_of_nonneg_right (s2 k hk) (sq_nonneg _)) (by positivity)
      _ = _ := by ring
  exact le_of_mul_le_mul_right e6 hS

/-- C159 (quadratic): the trend of evenly spaced samples of `α + β t + γ t²` is the rate of change in the middle. -/
theorem C159_quadratic
    (h : Spec.HasAxis x dim ix n) (hc : Spec.unitScale ix u = some c)
    (hs : calcLinearTrend x dim u = .ok (s, b)) {e : Env} {t0 d α β γ : ℝ} (hd : 0 < d) (hn : 2 ≤ n)
    (hpos : ∀ k < n, Spec.position ix k = t0 + d * k)
    (hx : ∀ k < n, Spec.along x dim e k = .fin (α + β * Spec.position ix k + γ * Spec.position ix k ^ 2)) :
    s.da.get e = .fin ((β + 2 * γ * (t0 + d * (n - 1) / 2)) * c) := by
  obtain ⟨m, hm, hb⟩ := C159_middle (f := fun t => α + β * t + γ * t ^ 2) (f1 := fun t => β + 2 * γ * t)
    (f2 := fun _ => 2 * γ) (f3 := fun _ => 0) (M := 0) h hc hs hd hn hpos
    { d1 := fun t _ _ => ((((hasDerivAt_id t).const_mul β).const_add α).add (((hasDerivAt_id t).pow 2).const_mul γ)).congr_deriv
        (by simp; ring)
      d2 := fun t _ _ => (((hasDerivAt_id t).const_mul (2 * γ)).const_add β).congr_deriv (by simp)
      d3 := fun t _ _ => hasDerivAt_const t _
      bound := fun t _ _ => by simp } hx
  rw [hm]
  congr 2
  have : |m - (β + 2 * γ * (t0 + d * (n - 1) / 2))| ≤ 0 := hb.trans (by simp)
  linarith [abs_nonpos_iff.1 this]

end

/-! ## Examples -/

/-- The squares of the positions 1, 2, 3, 4. -/
noncomputable def trSq : TrendArray ℝ :=
  ⟨⟨[("time", 4)], fun e => .fin (((e "time" : ℝ) + 1) ^ 2)⟩, [("time", .numeric [1, 2, 3, 4])], []⟩

theorem trSq_axis : Spec.HasAxis trSq "time" (.numeric [1, 2, 3, 4]) 4 := ⟨by simp [trSq, DA.dimNames], rfl, by simp [trSq], rfl⟩
theorem trSq_off : Spec.OffOrigin (.numeric [1, 2, 3, 4] : DimIndex ℝ) 4 := ⟨0, by norm_num, by simp [Spec.position]⟩
theorem trSq_pos : ∀ k < 4, Spec.position (.numeric [1, 2, 3, 4] : DimIndex ℝ) k = 1 + 1 * (k : ℝ) := by
  intro k hk
  interval_cases k <;> simp [Spec.position] <;> norm_num

/-- Their trend is 5, the derivative of `t²` at 5/2. -/
example : ∃ s b, calcLinearTrend trSq "time" none = .ok (s, b) ∧ s.da.get (fun _ => 0) = .fin 5 := by
  obtain ⟨s, b, hs, -⟩ := C51_least_squares trSq_axis trSq_off (unitScale_none _)
  refine ⟨s, b, hs, ?_⟩
  rw [C159_quadratic (α := 0) (β := 0) (γ := 1) trSq_axis (unitScale_none _) hs one_pos (by norm_num) trSq_pos
    (fun k hk => by rw [trSq_pos k hk]; simp [Spec.along, trSq]; ring)]
  norm_num

/-- Without the third: `t²` at 1, 2 and 4 has the trend `2 t` for some `t` of the record. -/
noncomputable def trGap : TrendArray ℝ :=
  ⟨⟨[("time", 4)], fun e => if e "time" = 2 then .nan else .fin (((e "time" : ℝ) + 1) ^ 2)⟩,
    [("time", .numeric [1, 2, 3, 4])], []⟩

example : ∃ s b t, calcLinearTrend trGap "time" none = .ok (s, b) ∧ 1 ≤ t ∧ t ≤ 4 ∧
    s.da.get (fun _ => 0) = .fin (2 * t * 1) := by
  have hA : Spec.HasAxis trGap "time" (.numeric [1, 2, 3, 4]) 4 := ⟨by simp [trGap, DA.dimNames], rfl, by simp [trGap], rfl⟩
  obtain ⟨s, b, hs, -⟩ := C51_least_squares hA trSq_off (unitScale_none _)
  obtain ⟨t, t1, t2, t3⟩ := C159_moment (f := fun t => t ^ 2) (f1 := fun t => 2 * t) (lo := 1) (hi := 4) (i := 1) (j := 0)
    hA (unitScale_none _) hs (e := fun _ => 0) (fun t _ _ => ((hasDerivAt_id t).pow 2).congr_deriv (by simp))
    (fun k hk => by
      rw [trSq_pos k hk]
      interval_cases k <;> simp [Spec.along, trGap] <;> norm_num)
    (by norm_num) (by norm_num) (by simp [Spec.along, trGap]) (by simp [Spec.along, trGap])
    (by rw [trSq_pos 0 (by norm_num), trSq_pos 1 (by norm_num)]; norm_num)
  exact ⟨s, b, t, hs, t1, t2, t3⟩

/-- … within 3 of the derivative in the middle. -/
example : ∃ s b m, calcLinearTrend trGap "time" none = .ok (s, b) ∧ s.da.get (fun _ => 0) = .fin (m * 1) ∧ |m - 5| ≤ 3 := by
  have hA : Spec.HasAxis trGap "time" (.numeric [1, 2, 3, 4]) 4 := ⟨by simp [trGap, DA.dimNames], rfl, by simp [trGap], rfl⟩
  obtain ⟨s, b, hs, -⟩ := C51_least_squares hA trSq_off (unitScale_none _)
  obtain ⟨m, m1, m2⟩ := C159_gaps (f := fun t => t ^ 2) (f1 := fun t => 2 * t) (f2 := fun _ => 2) (lo := 1) (hi := 4)
    (M := 2) (i := 1) (j := 0)
    hA (unitScale_none _) hs (e := fun _ => 0) (fun t _ _ => ((hasDerivAt_id t).pow 2).congr_deriv (by simp))
    (fun t _ _ => ((hasDerivAt_id t).const_mul 2).congr_deriv (by simp)) (fun t _ _ => by rw [abs_of_pos (by norm_num)])
    (fun k hk => by
      rw [trSq_pos k hk]
      interval_cases k <;> simp [Spec.along, trGap] <;> norm_num)
    (by norm_num) (by norm_num) (by simp [Spec.along, trGap]) (by simp [Spec.along, trGap])
    (by rw [trSq_pos 0 (by norm_num), trSq_pos 1 (by norm_num)]; norm_num)
  refine ⟨s, b, m, hs, m1, ?_⟩
  norm_num at m2
  linarith

/-- The cubes of 1, 2, 3, 4: within 9/4 of the derivative `3 (5/2)²` in the middle. -/
noncomputable def trCube : TrendArray ℝ :=
  ⟨⟨[("time", 4)], fun e => .fin (((e "time" : ℝ) + 1) ^ 3)⟩, [("time", .numeric [1, 2, 3, 4])], []⟩

example : ∃ s b m, calcLinearTrend trCube "time" none = .ok (s, b) ∧ s.da.get (fun _ => 0) = .fin (m * 1) ∧
    |m - 75 / 4| ≤ 9 / 4 := by
  have hA : Spec.HasAxis trCube "time" (.numeric [1, 2, 3, 4]) 4 := ⟨by simp [trCube, DA.dimNames], rfl, by simp [trCube], rfl⟩
  obtain ⟨s, b, hs, -⟩ := C51_least_squares hA trSq_off (unitScale_none _)
  obtain ⟨m, m1, m2⟩ := C159_middle (f := fun t => t ^ 3) (f1 := fun t => 3 * t ^ 2) (f2 := fun t => 6 * t)
    (f3 := fun _ => 6) (M := 6) hA (unitScale_none _) hs (e := fun _ => 0) one_pos (by norm_num) trSq_pos
    { d1 := fun t _ _ => ((hasDerivAt_id t).pow 3).congr_deriv (by simp)
      d2 := fun t _ _ => (((hasDerivAt_id t).pow 2).const_mul 3).congr_deriv (by simp; ring)
      d3 := fun t _ _ => ((hasDerivAt_id t).const_mul 6).congr_deriv (by simp)
      bound := fun t _ _ => by rw [abs_of_pos (by norm_num)] }
    (fun k hk => by rw [trSq_pos k hk]; simp [Spec.along, trCube]; ring)
  refine ⟨s, b, m, hs, m1, ?_⟩
  norm_num at m2
  norm_num
  linarith

end Momlevel.Props
