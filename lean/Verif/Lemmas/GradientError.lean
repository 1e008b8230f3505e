import Verif.Lemmas.Gradient
import Mathlib.Analysis.Calculus.LocalExtr.Rolle
import Mathlib.Analysis.Calculus.Deriv.Mul
import Mathlib.Analysis.Calculus.Deriv.Add
import Mathlib.Tactic.FieldSimp

/-! # Error of the derivative of an interpolating parabola at one of its nodes -/

namespace Momlevel

/-- Rolle's theorem twice: a function with three zeros whose second derivative exists. -/
theorem rolle_three {g g1 g2 : ℝ → ℝ} {lo hi u v w : ℝ} (h1 : ∀ s ∈ Set.Icc lo hi, HasDerivAt g (g1 s) s)
    (h2 : ∀ s ∈ Set.Icc lo hi, HasDerivAt g1 (g2 s) s) (hu : lo ≤ u) (huv : u < v) (hvw : v < w) (hw : w ≤ hi)
    (zu : g u = 0) (zv : g v = 0) (zw : g w = 0) : ∃ s ∈ Set.Icc lo hi, g2 s = 0 := by
  have c1 : ContinuousOn g (Set.Icc lo hi) := fun s hs => (h1 s hs).continuousAt.continuousWithinAt
  have c2 : ContinuousOn g1 (Set.Icc lo hi) := fun s hs => (h2 s hs).continuousAt.continuousWithinAt
  obtain ⟨s, hs, es⟩ := exists_hasDerivAt_eq_zero huv (c1.mono (Set.Icc_subset_Icc hu (by linarith)))
    (by rw [zu, zv]) (fun x hx => h1 x ⟨by linarith [hx.1], by linarith [hx.2]⟩)
  obtain ⟨t, ht, et⟩ := exists_hasDerivAt_eq_zero hvw (c1.mono (Set.Icc_subset_Icc (by linarith) hw))
    (by rw [zv, zw]) (fun x hx => h1 x ⟨by linarith [hx.1], by linarith [hx.2]⟩)
  obtain ⟨r, hr, er⟩ := exists_hasDerivAt_eq_zero (hs.2.trans ht.1)
    (c2.mono (Set.Icc_subset_Icc (by linarith [hs.1]) (by linarith [ht.2])))
    (by rw [es, et]) (fun x hx => h2 x ⟨by linarith [hx.1, hs.1], by linarith [hx.2, ht.2]⟩)
  exact ⟨r, ⟨by linarith [hr.1, hs.1], by linarith [hr.2, ht.2]⟩, er⟩

/-- The nodal polynomial's derivative. -/
def nodal' (a b c t : ℝ) : ℝ := (t - b) * (t - c) + (t - a) * (t - c) + (t - a) * (t - b)

/-- The slope at a node of the parabola through three points of a three times differentiable function differs from the
function's slope by a sixth of a third derivative times the distances to the other nodes. -/
theorem parabola_error {f f1 f2 f3 : ℝ → ℝ} {a b c t : ℝ} (hab : a < b) (hbc : b < c)
    (h1 : ∀ s ∈ Set.Icc a c, HasDerivAt f (f1 s) s) (h2 : ∀ s ∈ Set.Icc a c, HasDerivAt f1 (f2 s) s)
    (h3 : ∀ s ∈ Set.Icc a c, HasDerivAt f2 (f3 s) s) (ht : t = a ∨ t = b ∨ t = c) :
    ∃ s ∈ Set.Icc a c, f1 t - Spec.parabolaDeriv a b c (f a) (f b) (f c) t = f3 s / 6 * nodal' a b c t := by
  set d1 := (f b - f a) / (b - a) with hd1
  set d2 := ((f c - f b) / (c - b) - d1) / (c - a) with hd2
  have n1 : b - a ≠ 0 := ne_of_gt (by linarith)
  have n2 : c - b ≠ 0 := ne_of_gt (by linarith)
  have n3 : c - a ≠ 0 := ne_of_gt (by linarith)
  have hw : nodal' a b c t ≠ 0 := by
    unfold nodal'
    rcases ht with rfl | rfl | rfl
    · have : (t - b) * (t - c) ≠ 0 := mul_ne_zero (ne_of_lt (by linarith)) (ne_of_lt (by linarith))
      simpa using this
    · have : (t - a) * (t - c) ≠ 0 := mul_ne_zero n1 (ne_of_lt (by linarith))
      simpa using this
    · have : (t - a) * (t - b) ≠ 0 := mul_ne_zero n3 n2
      simpa using this
  have hp : Spec.parabolaDeriv a b c (f a) (f b) (f c) t = d1 + d2 * (2 * t - a - b) := by
    have m1 : a - b ≠ 0 := ne_of_lt (by linarith)
    have m2 : b - c ≠ 0 := ne_of_lt (by linarith)
    have m3 : a - c ≠ 0 := ne_of_lt (by linarith)
    rw [hd2, hd1]
    unfold Spec.parabolaDeriv
    field_simp
    ring
  set κ := (f1 t - (d1 + d2 * (2 * t - a - b))) / nodal' a b c t with hκ
  set g : ℝ → ℝ := fun s => f s - (f a + d1 * (s - a) + d2 * ((s - a) * (s - b))) - κ * ((s - a) * (s - b) * (s - c))
    with hg
  set g1 : ℝ → ℝ := fun s => f1 s - (d1 + d2 * (2 * s - a - b)) - κ * nodal' a b c s with hg1
  set g2 : ℝ → ℝ := fun s => f2 s - d2 * 2 - κ * (6 * s - 2 * (a + b + c)) with hg2
  set g3 : ℝ → ℝ := fun s => f3 s - κ * 6 with hg3
  have k1 : ∀ s ∈ Set.Icc a c, HasDerivAt g (g1 s) s := by
    intro s hs
    have ia := (hasDerivAt_id s).sub_const a
    have ib := (hasDerivAt_id s).sub_const b
    have ic := (hasDerivAt_id s).sub_const c
    have := ((h1 s hs).sub (((hasDerivAt_const s (f a)).add (ia.const_mul d1)).add ((ia.mul ib).const_mul d2))).sub
      (((ia.mul ib).mul ic).const_mul κ)
    refine this.congr_deriv ?_
    simp only [hg1, nodal', id, Pi.mul_apply]
    ring
  have k2 : ∀ s ∈ Set.Icc a c, HasDerivAt g1 (g2 s) s := by
    intro s hs
    have ia := (hasDerivAt_id s).sub_const a
    have ib := (hasDerivAt_id s).sub_const b
    have ic := (hasDerivAt_id s).sub_const c
    have := ((h2 s hs).sub ((hasDerivAt_const s d1).add
      (((((hasDerivAt_id s).const_mul 2).sub_const a).sub_const b).const_mul d2))).sub
      ((((ib.mul ic).add (ia.mul ic)).add (ia.mul ib)).const_mul κ)
    refine this.congr_deriv ?_
    simp only [hg2, id]
    ring
  have k3 : ∀ s ∈ Set.Icc a c, HasDerivAt g2 (g3 s) s := by
    intro s hs
    have := ((h3 s hs).sub_const (d2 * 2)).sub
      ((((hasDerivAt_id s).const_mul 6).sub_const (2 * (a + b + c))).const_mul κ)
    refine this.congr_deriv ?_
    simp only [hg3]
    ring
  have za : g a = 0 := by simp [hg]
  have zb : g b = 0 := by
    simp only [hg, hd1]; field_simp; ring
  have zc : g c = 0 := by
    simp only [hg, hd2, hd1]; field_simp; ring
  have zt : g1 t = 0 := by
    simp only [hg1, hκ]; field_simp; ring
  have cg : ContinuousOn g (Set.Icc a c) := fun s hs => (k1 s hs).continuousAt.continuousWithinAt
  obtain ⟨u, hu, eu⟩ := exists_hasDerivAt_eq_zero hab (cg.mono (Set.Icc_subset_Icc le_rfl hbc.le))
    (by rw [za, zb]) (fun x hx => k1 x ⟨hx.1.le, by linarith [hx.2]⟩)
  obtain ⟨v, hv, ev⟩ := exists_hasDerivAt_eq_zero hbc (cg.mono (Set.Icc_subset_Icc hab.le le_rfl))
    (by rw [zb, zc]) (fun x hx => k1 x ⟨by linarith [hx.1], hx.2.le⟩)
  have : ∃ s ∈ Set.Icc a c, g3 s = 0 := by
    rcases ht with rfl | rfl | rfl
    · exact rolle_three k2 k3 le_rfl hu.1 (hu.2.trans hv.1) hv.2.le zt eu ev
    · exact rolle_three k2 k3 hu.1.le hu.2 hv.1 hv.2.le eu zt ev
    · exact rolle_three k2 k3 hu.1.le (hu.2.trans hv.1) hv.2 le_rfl eu ev zt
  obtain ⟨s, hs, es⟩ := this
  refine ⟨s, hs, ?_⟩
  have e6 : f3 s = κ * 6 := by simpa [hg3, sub_eq_zero] using es
  rw [hp, e6, hκ]
  field_simp

end Momlevel
