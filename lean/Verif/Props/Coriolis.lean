import Verif.Model.Coriolis
import Verif.Lemmas.DA
import Mathlib.Tactic.NormNum.OfScientific
import Mathlib.Tactic.Linarith
import Mathlib.Tactic.Positivity
import Mathlib.Tactic.FieldSimp
import Mathlib.Analysis.SpecialFunctions.Trigonometric.Bounds

/-! # C15, C16: Coriolis parameter and Rossby radius -/

set_option linter.unusedSectionVars false

namespace Momlevel.Props
open Momlevel Momlevel.Fl

/-- Rotation rate used by the library: one turn per 86400 s. -/
noncomputable def Omega : ℝ := 2 * Real.pi / 86400

/-- Textbook Coriolis parameter `2 Ω sin φ`, latitude in degrees. -/
noncomputable def coriolisOf (lat : ℝ) : ℝ := 2 * Omega * Real.sin (lat * (Real.pi / 180))

/-! ## C15 -/

/-- The result has the dimensions of the latitude array and is `2 Ω sin(lat)` at every point;
missing (or infinite) latitudes give missing values. -/
theorem C15_formula (lat : DA (Fl ℝ)) :
    (calcCoriolis lat).dims = lat.dims ∧ ∀ e,
      (∀ x, lat.get e = fin x → (calcCoriolis lat).get e = fin (coriolisOf x)) ∧
      ((∀ x, lat.get e ≠ fin x) → (calcCoriolis lat).get e = nan) := by
  refine ⟨rfl, fun e => ⟨fun x hx => ?_, fun hx => ?_⟩⟩
  · have h2 : (2.0 : Fl ℝ) = fin 2 := by rw [ofSci]; norm_num
    have h60 : (60.0 : Fl ℝ) = fin 60 := by rw [ofSci]; norm_num
    have h24 : (24.0 : Fl ℝ) = fin 24 := by rw [ofSci]; norm_num
    have h180 : (180.0 : Fl ℝ) = fin 180 := by rw [ofSci]; norm_num
    simp only [calcCoriolis, DA.get_map, hx, h2, h60, h24, h180, npPi, fin_mul]
    rw [fin_div_of_ne _ (by norm_num), fin_div_of_ne _ (by norm_num)]
    simp only [npSin, fin_mul, coriolisOf, Omega]
    congr 1
    have : x * Real.pi / 180 = x * (Real.pi / 180) := by ring
    rw [this]; norm_num
  · simp only [calcCoriolis, DA.get_map]
    have hs : npSin (lat.get e * npPi / (180.0 : Fl ℝ)) = nan := by
      have h180 : (180.0 : Fl ℝ) = fin 180 := by rw [ofSci]; norm_num
      rw [h180]
      cases h : lat.get e with
      | nan => rfl
      | fin x => exact absurd h (hx x)
      | pinf =>
        have : (pinf * npPi : Fl ℝ) = pinf := by
          show infOfSign Real.pi = _; simp [infOfSign, Real.pi_pos]
        rw [this]
        have : (pinf / fin 180 : Fl ℝ) = pinf := by
          show (if (180 : ℝ) < 0 then ninf else pinf) = _
          rw [if_neg (by norm_num)]
        rw [this]; rfl
      | ninf =>
        have : (ninf * npPi : Fl ℝ) = ninf := by
          show infOfSign (-Real.pi) = _
          have := Real.pi_pos
          simp [infOfSign, Real.pi_pos, this.le]
        rw [this]
        have : (ninf / fin 180 : Fl ℝ) = ninf := by
          show (if (180 : ℝ) < 0 then pinf else ninf) = _
          rw [if_neg (by norm_num)]
        rw [this]; rfl
    rw [hs]; simp

theorem Omega_pos : 0 < Omega := by unfold Omega; have := Real.pi_pos; positivity

theorem coriolisOf_neg (x : ℝ) : coriolisOf (-x) = -coriolisOf x := by
  unfold coriolisOf; rw [neg_mul, Real.sin_neg]; ring

theorem coriolisOf_strictMonoOn : StrictMonoOn coriolisOf (Set.Icc (-90) 90) := by
  intro x hx y hy hxy
  unfold coriolisOf
  have hp := Real.pi_pos
  apply mul_lt_mul_of_pos_left _ (by have := Omega_pos; positivity)
  apply Real.strictMonoOn_sin
  · constructor <;> nlinarith [hx.1, hx.2]
  · constructor <;> nlinarith [hy.1, hy.2]
  · nlinarith

/-- Odd in latitude. -/
theorem C15_odd (lat lat' : DA (Fl ℝ)) (e : Env) (x : ℝ) (h : lat.get e = fin x)
    (h' : lat'.get e = fin (-x)) : (calcCoriolis lat').get e = -(calcCoriolis lat).get e := by
  rw [((C15_formula lat).2 e).1 x h, ((C15_formula lat').2 e).1 _ h', coriolisOf_neg, fin_neg]

/-- Bounded by twice the rotation rate; the bound is attained at the poles. -/
theorem C15_bound (lat : DA (Fl ℝ)) (e : Env) (x : ℝ) (h : lat.get e = fin x) :
    ∃ f, (calcCoriolis lat).get e = fin f ∧ |f| ≤ 2 * (2 * Real.pi / 86400)
      ∧ (x = 90 → f = 2 * (2 * Real.pi / 86400)) := by
  refine ⟨_, ((C15_formula lat).2 e).1 x h, ?_, ?_⟩
  · unfold coriolisOf
    rw [abs_mul, abs_of_pos (by have := Omega_pos; positivity)]
    have := Real.abs_sin_le_one (x * (Real.pi / 180))
    have hO := Omega_pos
    calc 2 * Omega * |Real.sin (x * (Real.pi / 180))| ≤ 2 * Omega * 1 :=
          mul_le_mul_of_nonneg_left this (by positivity)
      _ = _ := by rw [mul_one, Omega]
  · rintro rfl
    unfold coriolisOf
    rw [show (90 : ℝ) * (Real.pi / 180) = Real.pi / 2 by ring, Real.sin_pi_div_two, mul_one, Omega]

/-- Strictly increasing from pole to pole. -/
theorem C15_increasing (lat lat' : DA (Fl ℝ)) (e : Env) (x y : ℝ) (hx : -90 ≤ x) (hxy : x < y)
    (hy : y ≤ 90) (h : lat.get e = fin x) (h' : lat'.get e = fin y) :
    ∃ f g, (calcCoriolis lat).get e = fin f ∧ (calcCoriolis lat').get e = fin g ∧ f < g :=
  ⟨_, _, ((C15_formula lat).2 e).1 x h, ((C15_formula lat').2 e).1 y h',
    coriolisOf_strictMonoOn ⟨hx, by linarith⟩ ⟨by linarith, hy⟩ hxy⟩

/-- Between the poles the parameter vanishes exactly at the equator; positive in the northern
hemisphere, negative in the southern. -/
theorem C15_sign (lat : DA (Fl ℝ)) (e : Env) (x : ℝ) (hx : -90 ≤ x) (hx' : x ≤ 90)
    (h : lat.get e = fin x) :
    ∃ f, (calcCoriolis lat).get e = fin f ∧ (f = 0 ↔ x = 0) ∧ (0 < f ↔ 0 < x) ∧ (f < 0 ↔ x < 0) := by
  have h0 : coriolisOf 0 = 0 := by simp [coriolisOf]
  have m0 : (0 : ℝ) ∈ Set.Icc (-90 : ℝ) 90 := by constructor <;> norm_num
  refine ⟨_, ((C15_formula lat).2 e).1 x h, ?_, ?_, ?_⟩
  · conv_lhs => rw [← h0]
    exact coriolisOf_strictMonoOn.injOn.eq_iff ⟨hx, hx'⟩ m0
  · conv_lhs => rw [← h0]
    exact coriolisOf_strictMonoOn.lt_iff_lt m0 ⟨hx, hx'⟩
  · conv_lhs => rw [← h0]
    exact coriolisOf_strictMonoOn.lt_iff_lt ⟨hx, hx'⟩ m0

/-- Non-vacuity: latitudes -30, 0, 60. -/
example : let lat : DA (Fl ℝ) := ⟨[("y", 3)], fun e => fin ([-30, 0, 60].getD (e "y") 0)⟩
    lat.get (fun _ => 0) = fin (-30) ∧ (-90 : ℝ) ≤ -30 ∧ (-30 : ℝ) < 60 := by
  refine ⟨rfl, by norm_num, by norm_num⟩

/-! ## C16 -/

variable {K : Type} [Field K] [LinearOrder K] [IsStrictOrderedRing K]

/-- Off the equator the radius is finite and `radius * |f| = c`; it is non-negative for
non-negative wave speed and positive for positive. Dimensions: those of the wave speed, then the
new ones of the Coriolis array. -/
theorem C16_off_equator (c f : DA (Fl K)) (e : Env) (x y : K) (hc : c.get e = fin x)
    (hf : f.get e = fin y) (hy : y ≠ 0) :
    (calcRossbyRd c f).dims = DA.bdims c.dims f.dims ∧
    ∃ r, (calcRossbyRd c f).get e = fin r ∧ r * |y| = x ∧ (0 ≤ x → 0 ≤ r) ∧ (0 < x → 0 < r) := by
  have hy' : |y| ≠ 0 := abs_ne_zero.2 hy
  have hp : 0 < |y| := abs_pos.2 hy
  refine ⟨rfl, x / |y|, ?_, div_mul_cancel₀ _ hy', fun h => div_nonneg h hp.le,
    fun h => div_pos h hp⟩
  simp only [calcRossbyRd, DA.get_div, DA.get_map, hc, hf, abs_fin]
  exact fin_div_of_ne _ hy'

/-- At the equator the radius is never a finite number: infinite for positive wave speed, missing
for zero wave speed. -/
theorem C16_equator (c f : DA (Fl K)) (e : Env) (x : K) (hc : c.get e = fin x)
    (hf : f.get e = fin 0) :
    (∀ r, (calcRossbyRd c f).get e ≠ fin r) ∧ (0 < x → (calcRossbyRd c f).get e = pinf) ∧
      (x = 0 → (calcRossbyRd c f).get e = nan) := by
  have : (calcRossbyRd c f).get e = infOfSign x := by
    simp only [calcRossbyRd, DA.get_div, DA.get_map, hc, hf, abs_fin, abs_zero, fin_div, if_true]
  rw [this]
  refine ⟨fun r => ?_, fun h => by simp [infOfSign, h], fun h => by simp [infOfSign, h]⟩
  unfold infOfSign
  split
  · simp
  · split <;> simp

/-- Hemispheric symmetry: mirroring the latitude does not change the radius (any finite latitude,
including the equator, any wave speed). -/
theorem C16_symmetric (c : DA (Fl ℝ)) (lat lat' : DA (Fl ℝ)) (e : Env) (x : ℝ)
    (h : lat.get e = fin x) (h' : lat'.get e = fin (-x)) :
    (calcRossbyRd c (calcCoriolis lat')).get e = (calcRossbyRd c (calcCoriolis lat)).get e := by
  simp only [calcRossbyRd, DA.get_div, DA.get_map]
  rw [((C15_formula lat).2 e).1 x h, ((C15_formula lat').2 e).1 _ h', coriolisOf_neg, abs_fin,
    abs_fin, abs_neg]

/-- Missing exactly when an input is missing or the quotient is `0/0`. -/
theorem C16_missing (c f : DA (Fl K)) (e : Env) (hc : FN (c.get e)) (hf : FN (f.get e)) :
    (calcRossbyRd c f).get e = nan ↔
      c.get e = nan ∨ f.get e = nan ∨ (c.get e = fin 0 ∧ f.get e = fin 0) := by
  simp only [calcRossbyRd, DA.get_div, DA.get_map]
  rcases hc with h | ⟨x, h⟩
  · simp [h]
  · rcases hf with h2 | ⟨y, h2⟩
    · simp [h2]
    · rw [h, h2, abs_fin, fin_div]
      by_cases hy : y = 0
      · subst hy
        rcases lt_trichotomy x 0 with hx | hx | hx
        · simp [infOfSign, hx, not_lt.2 hx.le, hx.ne]
        · simp [infOfSign, hx]
        · simp [infOfSign, hx, hx.ne']
      · simp [hy]

/-- Non-vacuity of C16: 2.5 m/s at 30°S. -/
example : let c : DA (Fl ℝ) := ⟨[("y", 1)], fun _ => fin 2.5⟩
    let lat : DA (Fl ℝ) := ⟨[("y", 1)], fun _ => fin (-30)⟩
    ∃ y, (calcCoriolis lat).get (fun _ => 0) = fin y ∧ y ≠ 0 ∧ c.get (fun _ => 0) = fin 2.5 := by
  intro c lat
  obtain ⟨f, h1, h2, _⟩ := C15_sign lat (fun _ => 0) (-30) (by norm_num) (by norm_num) rfl
  exact ⟨f, h1, fun h => by have := h2.1 h; norm_num at this, rfl⟩

/-- `C15_formula` on land and at 30°S. -/
example : let lat : DA (Fl ℝ) := ⟨[("y", 2)], fun e => if e "y" = 0 then nan else fin (-30)⟩
    (calcCoriolis lat).get (fun _ => 0) = nan ∧ (calcCoriolis lat).get (fun _ => 1) = fin (coriolisOf (-30)) := by
  intro lat
  exact ⟨((C15_formula lat).2 _).2 (fun x h => by simp [lat] at h), ((C15_formula lat).2 _).1 _ (by simp [lat])⟩

end Momlevel.Props
