import Verif.Lemmas.WrightBounds
import Mathlib.Analysis.Calculus.Deriv.MeanValue

/-!
# Differences of Wright's density

Bounds for first, mixed and second differences on the oceanographic range.
-/

set_option linter.unusedSectionVars false

namespace Momlevel.Eos.Wright
open Spec.Wright

theorem slope_of {g g' : ℝ → ℝ} {a b : ℝ} (hab : a < b) (hd : ∀ x, a ≤ x → x ≤ b → HasDerivAt g (g' x) x) :
    ∃ c, a ≤ c ∧ c ≤ b ∧ g b - g a = g' c * (b - a) := by
  obtain ⟨c, ⟨hc1, hc2⟩, h⟩ := exists_hasDerivAt_eq_slope g g' hab
    (fun x hx => (hd x hx.1 hx.2).continuousAt.continuousWithinAt) (fun x hx => hd x hx.1.le hx.2.le)
  refine ⟨c, hc1.le, hc2.le, ?_⟩
  rw [h]
  have : b - a ≠ 0 := sub_ne_zero.2 hab.ne'
  field_simp

theorem mvt_bounds {g g' : ℝ → ℝ} {a b m M : ℝ} (hab : a ≤ b)
    (hd : ∀ x, a ≤ x → x ≤ b → HasDerivAt g (g' x) x) (hb : ∀ x, a ≤ x → x ≤ b → m ≤ g' x ∧ g' x ≤ M) :
    m * (b - a) ≤ g b - g a ∧ g b - g a ≤ M * (b - a) := by
  rcases hab.lt_or_eq with hlt | rfl
  · obtain ⟨c, h1, h2, h3⟩ := slope_of hlt hd
    rw [h3]
    have hp := (sub_pos.2 hlt).le
    exact ⟨mul_le_mul_of_nonneg_right (hb c h1 h2).1 hp, mul_le_mul_of_nonneg_right (hb c h1 h2).2 hp⟩
  · simp

theorem ocean_S {T S S' x p : ℝ} (h : Ocean T S p) (h' : Ocean T S' p) (h1 : S ≤ x) (h2 : x ≤ S') : Ocean T x p :=
  ⟨h.1, h.2.1, h.2.2.1.trans h1, h2.trans h'.2.2.2.1, h.2.2.2.2⟩

theorem ocean_T {T T' S x p : ℝ} (h : Ocean T S p) (h' : Ocean T' S p) (h1 : T ≤ x) (h2 : x ≤ T') : Ocean x S p :=
  ⟨h.1.trans h1, h2.trans h'.2.1, h.2.2⟩

theorem deriv_S {T S p : ℝ} (h : Ocean T S p) : HasDerivAt (fun s => rho T s p) (drho_dsal T S p) S :=
  hasDerivAt_rho_S T S p (denom_pos h).ne'

theorem deriv_T {T S p : ℝ} (h : Ocean T S p) : HasDerivAt (fun t => rho t S p) (drho_dtemp T S p) T :=
  hasDerivAt_rho_T T S p (denom_pos h).ne'

/-- Salinity differences. -/
theorem diff_S {T S S' p : ℝ} (h : Ocean T S p) (h' : Ocean T S' p) (hs : S ≤ S') :
    0.676 * (S' - S) ≤ rho T S' p - rho T S p ∧ rho T S' p - rho T S p ≤ 0.82 * (S' - S) :=
  mvt_bounds (g := fun s => rho T s p) (g' := fun s => drho_dsal T s p) hs
    (fun _ h1 h2 => deriv_S (ocean_S h h' h1 h2)) (fun _ h1 h2 => dS_bounds (ocean_S h h' h1 h2))

/-- Temperature differences. -/
theorem diff_T {T T' S p : ℝ} (h : Ocean T S p) (h' : Ocean T' S p) (ht : T ≤ T') :
    -0.48 * (T' - T) ≤ rho T' S p - rho T S p ∧ rho T' S p - rho T S p ≤ 0.113 * (T' - T) :=
  mvt_bounds (g := fun t => rho t S p) (g' := fun t => drho_dtemp t S p) ht
    (fun _ h1 h2 => deriv_T (ocean_T h h' h1 h2)) (fun _ h1 h2 => dT_bounds (ocean_T h h' h1 h2))

theorem abs_diff_S {T S S' p : ℝ} (h : Ocean T S p) (h' : Ocean T S' p) :
    |rho T S' p - rho T S p| ≤ 0.82 * |S' - S| := by
  rcases le_total S S' with hs | hs
  · have := diff_S h h' hs
    rw [abs_of_nonneg (sub_nonneg.2 hs), abs_of_nonneg (le_trans (mul_nonneg (by norm_num) (sub_nonneg.2 hs)) this.1)]
    exact this.2
  · have := diff_S h' h hs
    rw [abs_sub_comm, abs_sub_comm S', abs_of_nonneg (sub_nonneg.2 hs),
      abs_of_nonneg (le_trans (mul_nonneg (by norm_num) (sub_nonneg.2 hs)) this.1)]
    exact this.2

theorem abs_diff_T {T T' S p : ℝ} (h : Ocean T S p) (h' : Ocean T' S p) :
    |rho T' S p - rho T S p| ≤ 0.48 * |T' - T| := by
  rcases le_total T T' with ht | ht
  · have := diff_T h h' ht
    have hp := sub_nonneg.2 ht
    rw [abs_of_nonneg hp, abs_le]
    exact ⟨by linarith, by linarith⟩
  · have := diff_T h' h ht
    have hp := sub_nonneg.2 ht
    rw [abs_sub_comm, abs_sub_comm T', abs_of_nonneg hp, abs_le]
    exact ⟨by linarith, by linarith⟩

/-- The mixed difference. -/
noncomputable def mixed (T T' S S' p : ℝ) : ℝ := rho T' S' p - rho T' S p - rho T S' p + rho T S p

theorem dS_diff {T T' S p : ℝ} (h : Ocean T S p) (h' : Ocean T' S p) (ht : T ≤ T') :
    -0.0045 * (T' - T) ≤ drho_dsal T' S p - drho_dsal T S p ∧ drho_dsal T' S p - drho_dsal T S p ≤ 0 ∧
      (T < T' → drho_dsal T' S p - drho_dsal T S p < 0) := by
  have hd : ∀ x, T ≤ x → x ≤ T' → HasDerivAt (fun t => drho_dsal t S p) (wKST x S p / wD x S p ^ 3) x :=
    fun x h1 h2 => hasDerivAt_dS x S p (wD_pos (ocean_T h h' h1 h2)).ne'
  have h3 := mvt_bounds (m := -0.0045) (M := 0) ht hd
    (fun x h1 h2 => ⟨(ST_bounds (ocean_T h h' h1 h2)).1, (ST_bounds (ocean_T h h' h1 h2)).2.le⟩)
  refine ⟨h3.1, by simpa using h3.2, fun hlt => ?_⟩
  obtain ⟨c, c1, c2, hc⟩ := slope_of hlt hd
  rw [hc]
  exact mul_neg_of_neg_of_pos (ST_bounds (ocean_T h h' c1 c2)).2 (sub_pos.2 hlt)

theorem mixed_mono {T T' S S' p : ℝ} (h1 : Ocean T S p) (h2 : Ocean T' S' p) (ht : T ≤ T') (hs : S ≤ S') :
    -0.0045 * ((T' - T) * (S' - S)) ≤ mixed T T' S S' p ∧ mixed T T' S S' p ≤ 0 ∧
      (T < T' → S < S' → mixed T T' S S' p < 0) := by
  obtain ⟨a1, a2, a3, a4, a5, a6⟩ := h1
  obtain ⟨b1, b2, b3, b4, b5, b6⟩ := h2
  have o1 : ∀ x, S ≤ x → x ≤ S' → Ocean T x p := fun x h1 h2 => ⟨a1, a2, a3.trans h1, h2.trans b4, a5, a6⟩
  have o2 : ∀ x, S ≤ x → x ≤ S' → Ocean T' x p := fun x h1 h2 => ⟨b1, b2, a3.trans h1, h2.trans b4, a5, a6⟩
  have hd : ∀ x, S ≤ x → x ≤ S' → HasDerivAt (fun s => rho T' s p - rho T s p)
      (drho_dsal T' x p - drho_dsal T x p) x := fun x h1 h2 => (deriv_S (o2 x h1 h2)).sub (deriv_S (o1 x h1 h2))
  have hm : mixed T T' S S' p = (rho T' S' p - rho T S' p) - (rho T' S p - rho T S p) := by unfold mixed; ring
  have h3 := mvt_bounds (m := -0.0045 * (T' - T)) (M := 0) hs hd
    (fun x h1 h2 => ⟨(dS_diff (o1 x h1 h2) (o2 x h1 h2) ht).1, (dS_diff (o1 x h1 h2) (o2 x h1 h2) ht).2.1⟩)
  rw [hm, ← mul_assoc]
  refine ⟨h3.1, by simpa using h3.2, fun hlt hlt' => ?_⟩
  obtain ⟨c, c1, c2, hc⟩ := slope_of hlt' hd
  rw [hc]
  exact mul_neg_of_neg_of_pos ((dS_diff (o1 c c1 c2) (o2 c c1 c2) ht).2.2 hlt) (sub_pos.2 hlt')

/-- The mixed difference has the sign opposite to `ΔT ΔS`, and its size is at most `0.0045 |ΔT ΔS|`. -/
theorem mixed_bounds {T T' S S' p : ℝ} (h1 : Ocean T S p) (h2 : Ocean T' S' p) :
    |mixed T T' S S' p| ≤ 0.0045 * (|T' - T| * |S' - S|) ∧
      (0 < (T' - T) * (S' - S) → mixed T T' S S' p < 0) ∧ ((T' - T) * (S' - S) < 0 → 0 < mixed T T' S S' p) := by
  have o1 : Ocean T S' p := ⟨h1.1, h1.2.1, h2.2.2⟩
  have o2 : Ocean T' S p := ⟨h2.1, h2.2.1, h1.2.2⟩
  have e1 : mixed T' T S S' p = -mixed T T' S S' p := by unfold mixed; ring
  have e2 : mixed T T' S' S p = -mixed T T' S S' p := by unfold mixed; ring
  have e3 : mixed T' T S' S p = mixed T T' S S' p := by unfold mixed; ring
  rcases le_total T T' with ht | ht <;> rcases le_total S S' with hs | hs
  · have h := mixed_mono h1 h2 ht hs
    have hT := sub_nonneg.2 ht
    have hS := sub_nonneg.2 hs
    rw [abs_of_nonneg hT, abs_of_nonneg hS, abs_le]
    refine ⟨⟨by linarith, by nlinarith⟩, fun hp => ?_, fun hp => absurd hp (not_lt.2 (mul_nonneg hT hS))⟩
    refine h.2.2 (lt_of_le_of_ne ht ?_) (lt_of_le_of_ne hs ?_) <;> rintro rfl <;> simp at hp
  · have h := mixed_mono (T := T) (T' := T') (S := S') (S' := S) o1 o2 ht hs
    have hT := sub_nonneg.2 ht
    have hS := sub_nonneg.2 hs
    rw [e2] at h
    rw [abs_of_nonneg hT, abs_sub_comm S', abs_of_nonneg hS, abs_le]
    refine ⟨⟨by nlinarith, by linarith⟩, fun hp => absurd hp (not_lt.2 (by nlinarith)), fun hp => ?_⟩
    refine neg_lt_zero.1 (h.2.2 (lt_of_le_of_ne ht ?_) (lt_of_le_of_ne hs ?_)) <;> rintro rfl <;> simp at hp
  · have h := mixed_mono (T := T') (T' := T) (S := S) (S' := S') o2 o1 ht hs
    have hT := sub_nonneg.2 ht
    have hS := sub_nonneg.2 hs
    rw [e1] at h
    rw [abs_sub_comm T', abs_of_nonneg hT, abs_of_nonneg hS, abs_le]
    refine ⟨⟨by nlinarith, by linarith⟩, fun hp => absurd hp (not_lt.2 (by nlinarith)), fun hp => ?_⟩
    refine neg_lt_zero.1 (h.2.2 (lt_of_le_of_ne ht ?_) (lt_of_le_of_ne hs ?_)) <;> rintro rfl <;> simp at hp
  · have h := mixed_mono (T := T') (T' := T) (S := S') (S' := S) h2 h1 ht hs
    have hT := sub_nonneg.2 ht
    have hS := sub_nonneg.2 hs
    rw [e3] at h
    rw [abs_sub_comm T', abs_of_nonneg hT, abs_sub_comm S', abs_of_nonneg hS, abs_le]
    refine ⟨⟨by linarith, by nlinarith⟩, fun hp => ?_, fun hp => absurd hp (not_lt.2 (by nlinarith))⟩
    refine h.2.2 (lt_of_le_of_ne ht ?_) (lt_of_le_of_ne hs ?_) <;> rintro rfl <;> simp at hp

theorem dT_diff {T T' S p : ℝ} (h : Ocean T S p) (h' : Ocean T' S p) (ht : T ≤ T') :
    -0.02 * (T' - T) ≤ drho_dtemp T' S p - drho_dtemp T S p ∧
      drho_dtemp T' S p - drho_dtemp T S p ≤ -0.003 * (T' - T) :=
  mvt_bounds (g := fun t => drho_dtemp t S p) ht
    (fun x h1 h2 => hasDerivAt_dT x S p (wD_pos (ocean_T h h' h1 h2)).ne')
    (fun _ h1 h2 => TT_bounds (ocean_T h h' h1 h2))

/-- Second order expansion in temperature. -/
theorem taylor_T {T T' S p : ℝ} (h : Ocean T S p) (h' : Ocean T' S p) :
    rho T S p + drho_dtemp T S p * (T' - T) - 0.01 * (T' - T) ^ 2 ≤ rho T' S p ∧
    rho T' S p ≤ rho T S p + drho_dtemp T S p * (T' - T) - 0.0015 * (T' - T) ^ 2 := by
  have key : ∀ c : ℝ, ∀ x, Ocean x S p → HasDerivAt (fun t => rho t S p - drho_dtemp T S p * t + c * (t - T) ^ 2)
      (drho_dtemp x S p - drho_dtemp T S p + 2 * c * (x - T)) x := by
    intro c x hx
    have h1 := ((deriv_T hx).sub ((hasDerivAt_id x).const_mul (drho_dtemp T S p))).add
      ((((hasDerivAt_id x).sub_const T).pow 2).const_mul c)
    refine h1.congr_deriv ?_
    simp only [id]
    push_cast
    ring
  rcases le_total T T' with ht | ht
  · have o : ∀ x, T ≤ x → x ≤ T' → Ocean x S p := fun x h1 h2 => ocean_T h h' h1 h2
    have hp := sub_nonneg.2 ht
    constructor
    · have m := mvt_bounds (m := 0) (M := 100 * (T' - T)) ht (fun x h1 h2 => key 0.01 x (o x h1 h2)) (fun x h1 h2 => by
        have q := dT_diff h (o x h1 h2) h1
        exact ⟨by linarith, by nlinarith⟩)
      have := m.1
      simp only [sub_self] at this
      nlinarith
    · have m := mvt_bounds (m := -100 * (T' - T)) (M := 0) ht (fun x h1 h2 => key 0.0015 x (o x h1 h2)) (fun x h1 h2 => by
        have q := dT_diff h (o x h1 h2) h1
        exact ⟨by nlinarith, by linarith⟩)
      have := m.2
      simp only [sub_self] at this
      nlinarith
  · have o : ∀ x, T' ≤ x → x ≤ T → Ocean x S p := fun x h1 h2 => ocean_T h' h h1 h2
    have hp := sub_nonneg.2 ht
    constructor
    · have m := mvt_bounds (m := -100 * (T - T')) (M := 0) ht (fun x h1 h2 => key 0.01 x (o x h1 h2)) (fun x h1 h2 => by
        have q := dT_diff (o x h1 h2) h h2
        exact ⟨by nlinarith, by linarith⟩)
      have := m.2
      simp only [sub_self] at this
      nlinarith
    · have m := mvt_bounds (m := 0) (M := 100 * (T - T')) ht (fun x h1 h2 => key 0.0015 x (o x h1 h2)) (fun x h1 h2 => by
        have q := dT_diff (o x h1 h2) h h2
        exact ⟨by linarith, by nlinarith⟩)
      have := m.1
      simp only [sub_self] at this
      nlinarith

/-- A weighted mean of temperatures of the oceanographic range lies in it. -/
theorem ocean_mean {ι : Type*} (s : Finset ι) (w T : ι → ℝ) {S p : ℝ} (hw : ∀ i ∈ s, 0 ≤ w i) (h1 : ∑ i ∈ s, w i = 1)
    (hO : ∀ i ∈ s, Ocean (T i) S p) : Ocean (∑ i ∈ s, w i * T i) S p := by
  have ne : s.Nonempty := by
    rw [Finset.nonempty_iff_ne_empty]; rintro rfl; simp at h1
  obtain ⟨i, hi⟩ := ne
  refine ⟨?_, ?_, (hO i hi).2.2⟩
  · calc (-2 : ℝ) = ∑ i ∈ s, w i * (-2) := by rw [← Finset.sum_mul, h1]; ring
      _ ≤ _ := Finset.sum_le_sum (fun i hi => mul_le_mul_of_nonneg_left (hO i hi).1 (hw i hi))
  · calc _ ≤ ∑ i ∈ s, w i * 40 := Finset.sum_le_sum (fun i hi => mul_le_mul_of_nonneg_left (hO i hi).2.1 (hw i hi))
      _ = 40 := by rw [← Finset.sum_mul, h1]; ring

/-- A mean of densities is below the density of the mean temperature by between 0.0015 and 0.01 times the
variance. -/
theorem mean_T {ι : Type*} (s : Finset ι) (w T : ι → ℝ) {S p : ℝ} (hw : ∀ i ∈ s, 0 ≤ w i) (h1 : ∑ i ∈ s, w i = 1)
    (hO : ∀ i ∈ s, Ocean (T i) S p) :
    0.0015 * ∑ i ∈ s, w i * (T i - ∑ j ∈ s, w j * T j) ^ 2 ≤
        rho (∑ i ∈ s, w i * T i) S p - ∑ i ∈ s, w i * rho (T i) S p ∧
      rho (∑ i ∈ s, w i * T i) S p - ∑ i ∈ s, w i * rho (T i) S p ≤
        0.01 * ∑ i ∈ s, w i * (T i - ∑ j ∈ s, w j * T j) ^ 2 := by
  set m := ∑ i ∈ s, w i * T i with hm
  have ne : s.Nonempty := by
    rw [Finset.nonempty_iff_ne_empty]; rintro rfl; simp at h1
  have b1 : -2 ≤ m := by
    calc (-2 : ℝ) = ∑ i ∈ s, w i * (-2) := by rw [← Finset.sum_mul, h1]; ring
      _ ≤ m := Finset.sum_le_sum (fun i hi => mul_le_mul_of_nonneg_left (hO i hi).1 (hw i hi))
  have b2 : m ≤ 40 := by
    calc m ≤ ∑ i ∈ s, w i * 40 := Finset.sum_le_sum (fun i hi => mul_le_mul_of_nonneg_left (hO i hi).2.1 (hw i hi))
      _ = 40 := by rw [← Finset.sum_mul, h1]; ring
  obtain ⟨i0, hi0⟩ := ne
  have om : Ocean m S p := ⟨b1, b2, (hO i0 hi0).2.2⟩
  have lin : ∑ i ∈ s, w i * (T i - m) = 0 := by
    simp only [mul_sub, Finset.sum_sub_distrib, ← Finset.sum_mul, h1, ← hm]; ring
  have ex : ∀ c : ℝ, ∑ i ∈ s, w i * (rho m S p + drho_dtemp m S p * (T i - m) - c * (T i - m) ^ 2)
      = rho m S p - c * ∑ i ∈ s, w i * (T i - m) ^ 2 := by
    intro c
    have : ∀ i ∈ s, w i * (rho m S p + drho_dtemp m S p * (T i - m) - c * (T i - m) ^ 2)
        = w i * rho m S p + drho_dtemp m S p * (w i * (T i - m)) - c * (w i * (T i - m) ^ 2) := fun i _ => by ring
    rw [Finset.sum_congr rfl this, Finset.sum_sub_distrib, Finset.sum_add_distrib, ← Finset.mul_sum, ← Finset.mul_sum,
      ← Finset.sum_mul, h1, lin]
    ring
  have u : ∑ i ∈ s, w i * rho (T i) S p ≤ rho m S p - 0.0015 * ∑ i ∈ s, w i * (T i - m) ^ 2 := by
    rw [← ex]
    exact Finset.sum_le_sum (fun i hi => mul_le_mul_of_nonneg_left (taylor_T om (hO i hi)).2 (hw i hi))
  have l : rho m S p - 0.01 * ∑ i ∈ s, w i * (T i - m) ^ 2 ≤ ∑ i ∈ s, w i * rho (T i) S p := by
    rw [← ex]
    exact Finset.sum_le_sum (fun i hi => mul_le_mul_of_nonneg_left (taylor_T om (hO i hi)).1 (hw i hi))
  exact ⟨by linarith, by linarith⟩

end Momlevel.Eos.Wright
