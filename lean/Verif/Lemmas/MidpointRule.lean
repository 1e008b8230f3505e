import Verif.Lemmas.GradientError
import Mathlib.Analysis.Calculus.MeanValue
import Mathlib.Analysis.Calculus.Deriv.MeanValue
import Mathlib.Analysis.Calculus.Deriv.Shift
import Mathlib.Analysis.Calculus.Deriv.Pow
import Mathlib.Algebra.BigOperators.Group.Finset.Basic
import Mathlib.Algebra.Order.BigOperators.Group.Finset

/-! # Error of the midpoint rule and of central differences -/

namespace Momlevel

/-- `f` has the derivatives `f1`, `f2`, `f3` between `lo` and `hi`, and `|f3| ≤ M`. -/
structure Smooth (f f1 f2 f3 : ℝ → ℝ) (lo hi M : ℝ) : Prop where
  d1 : ∀ s, lo ≤ s → s ≤ hi → HasDerivAt f (f1 s) s
  d2 : ∀ s, lo ≤ s → s ≤ hi → HasDerivAt f1 (f2 s) s
  d3 : ∀ s, lo ≤ s → s ≤ hi → HasDerivAt f2 (f3 s) s
  bound : ∀ s, lo ≤ s → s ≤ hi → |f3 s| ≤ M

theorem Smooth.mono {f f1 f2 f3 : ℝ → ℝ} {lo hi lo' hi' M : ℝ} (h : Smooth f f1 f2 f3 lo hi M) (h1 : lo ≤ lo')
    (h2 : hi' ≤ hi) : Smooth f f1 f2 f3 lo' hi' M :=
  ⟨fun s a b => h.d1 s (h1.trans a) (b.trans h2), fun s a b => h.d2 s (h1.trans a) (b.trans h2),
    fun s a b => h.d3 s (h1.trans a) (b.trans h2), fun s a b => h.bound s (h1.trans a) (b.trans h2)⟩

/-- The midpoint rule: the increment of `F` over an interval is its length times the derivative in the middle, up to a
third derivative times the cubed length over 24. -/
theorem midpoint_exact {F g g1 g2 : ℝ → ℝ} {a b M : ℝ} (hab : a < b) (h : Smooth F g g1 g2 a b M) :
    ∃ s, a ≤ s ∧ s ≤ b ∧ (F b - F a) - (b - a) * g ((a + b) / 2) = g2 s * (b - a) ^ 3 / 24 := by
  set c := (a + b) / 2 with hc
  set t := (b - a) / 2 with ht
  have t0 : 0 < t := by rw [ht]; linarith
  have ca : c - t = a := by rw [hc, ht]; ring
  have cb : c + t = b := by rw [hc, ht]; ring
  have up : ∀ s, 0 ≤ s → s ≤ t → a ≤ c + s ∧ c + s ≤ b := fun s h1 h2 => ⟨by linarith, by linarith⟩
  have dn : ∀ s, 0 ≤ s → s ≤ t → a ≤ c - s ∧ c - s ≤ b := fun s h1 h2 => ⟨by linarith, by linarith⟩
  set κ := (F b - F a - 2 * t * g c) / t ^ 3 with hκ
  set φ : ℝ → ℝ := fun s => F (c + s) - F (c - s) - 2 * s * g c - κ * s ^ 3 with hφ
  set ψ : ℝ → ℝ := fun s => g (c + s) + g (c - s) - 2 * g c - κ * (3 * s ^ 2) with hψ
  have plus : ∀ {u u' : ℝ → ℝ} {s : ℝ}, HasDerivAt u (u' (c + s)) (c + s) →
      HasDerivAt (fun s => u (c + s)) (u' (c + s)) s := fun hu => hu.comp_const_add c _
  have minus : ∀ {u u' : ℝ → ℝ} {s : ℝ}, HasDerivAt u (u' (c - s)) (c - s) →
      HasDerivAt (fun s => u (c - s)) (-(u' (c - s))) s := fun hu => hu.comp_const_sub c _
  have k1 : ∀ s, 0 ≤ s → s ≤ t → HasDerivAt φ (ψ s) s := fun s h1 h2 => by
    have e1 := plus (u := F) (u' := g) (h.d1 _ (up s h1 h2).1 (up s h1 h2).2)
    have e2 := minus (u := F) (u' := g) (h.d1 _ (dn s h1 h2).1 (dn s h1 h2).2)
    have e3 := (((hasDerivAt_id s).const_mul 2).mul_const (g c))
    have e4 := ((hasDerivAt_id s).pow 3).const_mul κ
    refine (((e1.sub e2).sub e3).sub e4).congr_deriv ?_
    simp only [hψ, id]; push_cast; ring
  have k2 : ∀ s, 0 ≤ s → s ≤ t → HasDerivAt ψ (g1 (c + s) - g1 (c - s) - κ * (6 * s)) s := fun s h1 h2 => by
    have e1 := plus (u := g) (u' := g1) (h.d2 _ (up s h1 h2).1 (up s h1 h2).2)
    have e2 := minus (u := g) (u' := g1) (h.d2 _ (dn s h1 h2).1 (dn s h1 h2).2)
    have e4 := (((hasDerivAt_id s).pow 2).const_mul 3).const_mul κ
    refine (((e1.add e2).sub_const (2 * g c)).sub e4).congr_deriv ?_
    simp only [id]; push_cast; ring
  have z0 : φ 0 = 0 := by simp [hφ]
  have zt : φ t = 0 := by
    simp only [hφ, ca, cb, hκ]
    field_simp; ring
  have y0 : ψ 0 = 0 := by simp [hψ]; ring
  obtain ⟨u, hu, eu⟩ := exists_hasDerivAt_eq_zero t0
    (fun s hs => (k1 s hs.1 hs.2).continuousAt.continuousWithinAt) (by rw [z0, zt])
    (fun s hs => k1 s hs.1.le hs.2.le)
  obtain ⟨v, hv, ev⟩ := exists_hasDerivAt_eq_zero hu.1
    (fun s hs => (k2 s hs.1 (hs.2.trans hu.2.le)).continuousAt.continuousWithinAt) (by rw [y0, eu])
    (fun s hs => k2 s hs.1.le (hs.2.le.trans hu.2.le))
  have hvt : v ≤ t := hv.2.le.trans hu.2.le
  obtain ⟨w, hw, ew⟩ := exists_hasDerivAt_eq_slope g1 g2 (show c - v < c + v by linarith [hv.1])
    (fun s hs => (h.d3 s ((dn v hv.1.le hvt).1.trans hs.1) (hs.2.trans (up v hv.1.le hvt).2)).continuousAt.continuousWithinAt)
    (fun s hs => h.d3 s ((dn v hv.1.le hvt).1.trans hs.1.le) (hs.2.le.trans (up v hv.1.le hvt).2))
  refine ⟨w, (dn v hv.1.le hvt).1.trans hw.1.le, hw.2.le.trans (up v hv.1.le hvt).2, ?_⟩
  have hv0 : v ≠ 0 := hv.1.ne'
  have e5 : g2 w = 3 * κ := by
    rw [ew, show g1 (c + v) - g1 (c - v) = κ * (6 * v) by linarith]
    have : c + v - (c - v) = 2 * v := by ring
    rw [this]; field_simp; ring
  have hb : b - a = 2 * t := by rw [ht]; ring
  rw [e5, hb, hκ]
  field_simp
  ring

theorem midpoint_error {F g g1 g2 : ℝ → ℝ} {a b M : ℝ} (hab : a ≤ b) (h : Smooth F g g1 g2 a b M) :
    |(b - a) * g ((a + b) / 2) - (F b - F a)| ≤ M * (b - a) ^ 3 / 24 := by
  rcases hab.eq_or_lt with rfl | hab
  · simp
  · obtain ⟨s, h1, h2, e⟩ := midpoint_exact hab h
    rw [abs_sub_comm, e, abs_div, abs_mul, abs_of_pos (by norm_num : (0 : ℝ) < 24),
      abs_of_pos (pow_pos (sub_pos.2 hab) 3)]
    exact div_le_div_of_nonneg_right
      (mul_le_mul_of_nonneg_right (h.bound s h1 h2) (pow_pos (sub_pos.2 hab) 3).le) (by norm_num)

/-- The composite rule. -/
theorem midpoint_sum {F g g1 g2 : ℝ → ℝ} {x c : Nat → ℝ} {m : Nat} {M : ℝ} (hx : ∀ k < m, x k ≤ x (k + 1))
    (hc : ∀ k < m, c k = (x k + x (k + 1)) / 2) (h : Smooth F g g1 g2 (x 0) (x m) M) :
    |∑ k ∈ Finset.range m, (x (k + 1) - x k) * g (c k) - (F (x m) - F (x 0))|
      ≤ M / 24 * ∑ k ∈ Finset.range m, (x (k + 1) - x k) ^ 3 := by
  induction m with
  | zero => simp
  | succ m ih =>
    have lo : x 0 ≤ x m := by
      have : ∀ j ≤ m, x 0 ≤ x j := fun j => by
        induction j with
        | zero => intro _; exact le_rfl
        | succ j jh => intro hj; exact (jh (by omega)).trans (hx j (by omega))
      exact this m le_rfl
    have i := ih (fun k hk => hx k (by omega)) (fun k hk => hc k (by omega))
      (h.mono le_rfl (hx m (by omega)))
    have s := midpoint_error (hx m (by omega)) (h.mono lo le_rfl)
    rw [← hc m (by omega)] at s
    rw [Finset.sum_range_succ, Finset.sum_range_succ]
    have e : ∑ k ∈ Finset.range m, (x (k + 1) - x k) * g (c k) + (x (m + 1) - x m) * g (c m) - (F (x (m + 1)) - F (x 0))
        = (∑ k ∈ Finset.range m, (x (k + 1) - x k) * g (c k) - (F (x m) - F (x 0)))
          + ((x (m + 1) - x m) * g (c m) - (F (x (m + 1)) - F (x m))) := by ring
    rw [e]
    refine (abs_add_le _ _).trans ((add_le_add i s).trans (le_of_eq ?_))
    ring

/-- A value taken elsewhere than in the middle: first order. -/
theorem offcentre_error {F g g1 : ℝ → ℝ} {a b D c M : ℝ} (haD : a ≤ D) (hDb : D ≤ b) (hc : c = (a + b) / 2)
    (h1 : ∀ s, a ≤ s → s ≤ b → HasDerivAt F (g s) s) (h2 : ∀ s, a ≤ s → s ≤ b → HasDerivAt g (g1 s) s)
    (hM : ∀ s, a ≤ s → s ≤ b → |g1 s| ≤ M) :
    |(D - a) * g c - (F D - F a)| ≤ M / 2 * ((D - a) * (b - a)) := by
  rcases haD.eq_or_lt with rfl | haD
  · simp
  obtain ⟨s, hs, es⟩ := exists_hasDerivAt_eq_slope F g haD
    (fun s hs => (h1 s hs.1 (hs.2.trans hDb)).continuousAt.continuousWithinAt)
    (fun s hs => h1 s hs.1.le (hs.2.le.trans hDb))
  have hs' : a ≤ s ∧ s ≤ b := ⟨hs.1.le, hs.2.le.trans hDb⟩
  have hc' : a ≤ c ∧ c ≤ b := by rw [hc]; constructor <;> linarith
  have lip : |g c - g s| ≤ M * |c - s| := by
    have := Convex.norm_image_sub_le_of_norm_hasDerivWithin_le (f := g) (f' := g1) (s := Set.Icc a b) (C := M)
      (fun x hx => (h2 x hx.1 hx.2).hasDerivWithinAt) (fun x hx => by simpa using hM x hx.1 hx.2) (convex_Icc a b)
      (⟨hs'.1, hs'.2⟩ : s ∈ Set.Icc a b) (⟨hc'.1, hc'.2⟩ : c ∈ Set.Icc a b)
    simpa [Real.norm_eq_abs] using this
  have hM0 : 0 ≤ M := (abs_nonneg _).trans (hM s hs'.1 hs'.2)
  have cs : |c - s| ≤ (b - a) / 2 := by
    rw [abs_le, hc]; constructor <;> linarith [hs'.1, hs'.2]
  have hD : 0 < D - a := by linarith
  have e : (D - a) * g c - (F D - F a) = (D - a) * (g c - g s) := by
    rw [es]; field_simp
  rw [e, abs_mul, abs_of_pos hD]
  calc (D - a) * |g c - g s| ≤ (D - a) * (M * ((b - a) / 2)) :=
        mul_le_mul_of_nonneg_left (lip.trans (mul_le_mul_of_nonneg_left cs hM0)) hD.le
    _ = _ := by ring

end Momlevel
