import Verif.Model.RoundingUnits
import Verif.Props.TrendUnits
import Verif.Props.Rounding
import Verif.Props.RoundingDz
import Verif.Lemmas.Near

/-! # C163: time conversion factors in floating point -/

set_option linter.unusedSectionVars false

namespace Momlevel.Props
open Momlevel Momlevel.Fl Momlevel.Spec

/-- The table of units is that of `time_conversion_factor`. -/
theorem unitNs_eq (dpm dpy : Fl ℝ) : unitNs dpm dpy = nsFrom dpm dpy := rfl

theorem recognised_cases {u : String} (h : Spec.Recognised u) :
    u = "ns" ∨ u = "s" ∨ u = "min" ∨ u = "hr" ∨ u = "day" ∨ u = "mon" ∨ u = "yr" := by
  simpa [Spec.Recognised] using h

theorem unitNs_some {α : Type*} [Mul α] [Div α] [OfScientific α] (dpm dpy : α) :
    (unitNs dpm dpy).lookup "ns" = some 1.0 ∧ (unitNs dpm dpy).lookup "s" = some 1.0e9 ∧
    (unitNs dpm dpy).lookup "min" = some (1.0e9 * 60.0) ∧
    (unitNs dpm dpy).lookup "hr" = some (1.0e9 * 60.0 * 60.0) ∧
    (unitNs dpm dpy).lookup "day" = some (1.0e9 * 60.0 * 60.0 * 24.0) ∧
    (unitNs dpm dpy).lookup "mon" = some (1.0e9 * 60.0 * 60.0 * 24.0 * dpm) ∧
    (unitNs dpm dpy).lookup "yr" = some (1.0e9 * 60.0 * 60.0 * 24.0 * dpy) :=
  ⟨rfl, rfl, rfl, rfl, rfl, rfl, rfl⟩

theorem lookup_exact (dpm dpy : ℝ) {u : String} (h : Spec.Recognised u) :
    (unitNs dpm dpy).lookup u = nsIn dpm dpy u := by
  obtain ⟨h1, h2, h3, h4, h5, h6, h7⟩ := unitNs_some dpm dpy
  rcases recognised_cases h with rfl | rfl | rfl | rfl | rfl | rfl | rfl
  · rw [h1]; simp [nsIn]; norm_num
  · rw [h2]; simp [nsIn]; norm_num
  · rw [h3]; simp [nsIn]; norm_num
  · rw [h4]; simp [nsIn]; norm_num
  · rw [h5]; simp [nsIn]; norm_num
  · rw [h6]; simp [nsIn]; norm_num
  · rw [h7]; simp [nsIn]; norm_num

/-- In exact arithmetic the formula gives the values of `time_conversion_factor`. -/
theorem C163_exact {dpm dpy : ℝ} (hm : dpm ≠ 0) (hy : dpy ≠ 0) {src dst : String}
    (hs : Spec.Recognised src) (hd : Spec.Recognised dst) :
    ∃ f, unitFactor dpm dpy src dst = some f ∧
      timeConversionFactor src dst (fin dpm) (fin dpy) = .ok (fin f) := by
  obtain ⟨a, ha⟩ := recognised_some dpm dpy hs
  obtain ⟨b, hb⟩ := recognised_some dpm dpy hd
  refine ⟨a / b, ?_, C50_value hm hy ha hb⟩
  unfold unitFactor
  rw [lookup_exact _ _ hs, lookup_exact _ _ hd, ha, hb]
  norm_num
  ring

variable {ρ : ℝ → ℝ} {u w : ℝ}

theorem near_lit (F : Format u w ρ) {x : ℝ} (hx : 1 ≤ x) : Near (1.01 * u) x (ρ x) := by
  have := (Near.refl (by linarith : 0 < x)).round F.rounds F.u0 F.u1 (by norm_num)
    (by have := F.w1; norm_num at this ⊢; linarith)
  simpa using this

theorem near_mul (F : Format u w ρ) {x y : ℝ} {x' y' : Rd ρ} {m n : ℕ} (hmn : m + n ≤ 40)
    (hx : Near (m * (1.01 * u)) x x'.val) (hy : Near (n * (1.01 * u)) y y'.val)
    (hp : 1 / 10 ^ 20 ≤ x * y) : Near ((m + n + 1 : ℕ) * (1.01 * u)) (x * y) (x' * y').val := by
  have h1 := F.w1
  have h2 := F.u1
  have h0 := F.u0
  have hc : ((m + n : ℕ) : ℝ) ≤ 40 := by exact_mod_cast hmn
  push_cast at hc
  have := (hx.mul hy).round F.rounds F.u0 F.u1 (by nlinarith) (by norm_num at h1 hp ⊢; linarith)
  refine this.mono (le_of_eq ?_)
  push_cast
  ring

theorem near_div (F : Format u w ρ) {x y : ℝ} {x' y' : Rd ρ} {m n : ℕ} (hmn : m + n ≤ 40)
    (hx : Near (m * (1.01 * u)) x x'.val) (hy : Near (n * (1.01 * u)) y y'.val)
    (hp : 1 / 10 ^ 20 ≤ x / y) : Near ((m + n + 1 : ℕ) * (1.01 * u)) (x / y) (x' / y').val := by
  have h1 := F.w1
  have h2 := F.u1
  have h0 := F.u0
  have hc : ((m + n : ℕ) : ℝ) ≤ 40 := by exact_mod_cast hmn
  push_cast at hc
  have := (hx.div hy).round F.rounds F.u0 F.u1 (by nlinarith) (by norm_num at h1 hp ⊢; linarith)
  refine this.mono (le_of_eq ?_)
  push_cast
  ring

theorem near_sci (F : Format u w ρ) {m e : ℕ} {s : Bool} {x : ℝ}
    (h : (OfScientific.ofScientific m s e : ℝ) = x) (hx : 1 ≤ x) :
    Near ((1 : ℕ) * (1.01 * u)) x (OfScientific.ofScientific m s e : Rd ρ).val := by
  have := near_lit F hx
  rw [Nat.cast_one, one_mul]
  show Near _ x (ρ (OfScientific.ofScientific m s e : ℝ))
  rwa [h]

theorem unit_near (F : Format u w ρ) {dpm dpy : ℝ} (hm : 1 ≤ dpm) (hm' : dpm ≤ 1000) (hy : 1 ≤ dpy)
    (hy' : dpy ≤ 1000) {v : String} (h : Spec.Recognised v) {a : ℝ} (ha : nsIn dpm dpy v = some a) :
    ∃ a', (unitNs (⟨dpm⟩ : Rd ρ) ⟨dpy⟩).lookup v = some a' ∧ Near ((8 : ℕ) * (1.01 * u)) a a'.val ∧
      1 ≤ a ∧ a ≤ 10 ^ 17 := by
  have h0 := F.u0
  obtain ⟨h1, h2, h3, h4, h5, h6, h7⟩ := unitNs_some (⟨dpm⟩ : Rd ρ) ⟨dpy⟩
  have l1 : Near ((1 : ℕ) * (1.01 * u)) 1 (1.0 : Rd ρ).val := near_sci F (by norm_num) le_rfl
  have l9 : Near ((1 : ℕ) * (1.01 * u)) 1000000000 (1.0e9 : Rd ρ).val := near_sci F (by norm_num) (by norm_num)
  have l60 : Near ((1 : ℕ) * (1.01 * u)) 60 (60.0 : Rd ρ).val := near_sci F (by norm_num) (by norm_num)
  have l24 : Near ((1 : ℕ) * (1.01 * u)) 24 (24.0 : Rd ρ).val := near_sci F (by norm_num) (by norm_num)
  have p3 := near_mul F (by norm_num) l9 l60 (by norm_num)
  have p4 := near_mul F (by norm_num) p3 l60 (by norm_num)
  have p5 := near_mul F (by norm_num) p4 l24 (by norm_num)
  have k0 : ∀ {d : ℝ}, 1 ≤ d → Near ((0 : ℕ) * (1.01 * u)) d (⟨d⟩ : Rd ρ).val := by
    intro d hd
    simpa using Near.refl (by linarith : 0 < d)
  have p6 := near_mul F (by norm_num) p5 (k0 hm) (by norm_num; linarith)
  have p7 := near_mul F (by norm_num) p5 (k0 hy) (by norm_num; linarith)
  have up : ∀ {n : ℕ} {x y : ℝ}, n ≤ 8 → Near (n * (1.01 * u)) x y → Near ((8 : ℕ) * (1.01 * u)) x y := by
    intro n x y hn hh
    have : (n : ℝ) ≤ ((8 : ℕ) : ℝ) := by exact_mod_cast hn
    exact hh.mono (mul_le_mul_of_nonneg_right this (by positivity))
  rcases recognised_cases h with rfl | rfl | rfl | rfl | rfl | rfl | rfl <;>
    simp [nsIn] at ha <;> subst ha
  · exact ⟨_, h1, up (by norm_num) l1, by norm_num, by norm_num⟩
  · exact ⟨_, h2, up (by norm_num) l9, by norm_num, by norm_num⟩
  · refine ⟨_, h3, ?_, by norm_num, by norm_num⟩
    have := up (by norm_num) p3
    norm_num at this ⊢
    exact this
  · refine ⟨_, h4, ?_, by norm_num, by norm_num⟩
    have := up (by norm_num) p4
    norm_num at this ⊢
    exact this
  · refine ⟨_, h5, ?_, by norm_num, by norm_num⟩
    have := up (by norm_num) p5
    norm_num at this ⊢
    exact this
  · refine ⟨_, h6, ?_, by linarith, by linarith⟩
    have := up (by norm_num) p6
    norm_num at this ⊢
    exact this
  · refine ⟨_, h7, ?_, by linarith, by linarith⟩
    have := up (by norm_num) p7
    norm_num at this ⊢
    exact this

theorem factor_near (F : Format u w ρ) {dpm dpy : ℝ} (hm : 1 ≤ dpm) (hm' : dpm ≤ 1000) (hy : 1 ≤ dpy)
    (hy' : dpy ≤ 1000) {src dst : String} (hs : Spec.Recognised src) (hd : Spec.Recognised dst) {a b : ℝ}
    (ha : nsIn dpm dpy src = some a) (hb : nsIn dpm dpy dst = some b) :
    ∃ f', unitFactor (⟨dpm⟩ : Rd ρ) ⟨dpy⟩ src dst = some f' ∧ Near ((19 : ℕ) * (1.01 * u)) (a / b) f'.val ∧
      1 / 10 ^ 17 ≤ a / b ∧ a / b ≤ 10 ^ 17 := by
  obtain ⟨a', h1, h2, h3, h4⟩ := unit_near F hm hm' hy hy' hs ha
  obtain ⟨b', k1, k2, k3, k4⟩ := unit_near F hm hm' hy hy' hd hb
  have l1 : Near ((1 : ℕ) * (1.01 * u)) 1 (1.0 : Rd ρ).val := near_sci F (by norm_num) le_rfl
  have hb0 : 0 < b := by linarith
  have g1 : 1 / 10 ^ 17 ≤ 1 / b := one_div_le_one_div_of_le hb0 k4
  have g2 : 1 / 10 ^ 17 ≤ a / b := g1.trans (by rw [div_le_div_iff_of_pos_right hb0]; exact h3)
  have d1 := near_div F (by norm_num) l1 k2 (le_trans (by norm_num) g1)
  have d2 := near_mul F (by norm_num) h2 d1 (by rw [mul_one_div]; exact le_trans (by norm_num) g2)
  refine ⟨a' * (1.0 / b'), ?_, ?_, g2, ?_⟩
  · unfold unitFactor
    rw [h1, k1]
  · rw [mul_one_div] at d2
    exact d2
  · rw [div_le_iff₀ hb0]
    nlinarith

/-- The relative error of a conversion factor is at most 20 units of rounding. -/
theorem C163_error (F : Format u w ρ) {dpm dpy : ℝ} (hm : 1 ≤ dpm) (hm' : dpm ≤ 1000) (hy : 1 ≤ dpy)
    (hy' : dpy ≤ 1000) {src dst : String} (hs : Spec.Recognised src) (hd : Spec.Recognised dst) {f : ℝ}
    (hf : timeConversionFactor src dst (fin dpm) (fin dpy) = .ok (fin f)) :
    ∃ f', unitFactor (⟨dpm⟩ : Rd ρ) ⟨dpy⟩ src dst = some f' ∧ |f'.val - f| ≤ 20 * u * f := by
  obtain ⟨a, ha⟩ := recognised_some dpm dpy hs
  obtain ⟨b, hb⟩ := recognised_some dpm dpy hd
  obtain ⟨f', h1, h2, h3, _⟩ := factor_near F hm hm' hy hy' hs hd ha hb
  rw [C50_value (by linarith) (by linarith) ha hb] at hf
  obtain rfl : a / b = f := by simpa using hf
  refine ⟨f', h1, ?_⟩
  have h0 := F.u0
  have hU := F.u1
  have := h2.error (by positivity) (by norm_num at hU ⊢; linarith)
  refine this.trans (mul_le_mul_of_nonneg_right ?_ (le_trans (by norm_num) h3))
  norm_num
  linarith

/-- A slope per nanosecond expressed in another unit: the relative error is at most 24 units of rounding. -/
theorem C163_slope (F : Format u w ρ) {dpm dpy : ℝ} (hm : 1 ≤ dpm) (hm' : dpm ≤ 1000) (hy : 1 ≤ dpy)
    (hy' : dpy ≤ 1000) {dst : String} (hd : Spec.Recognised dst) {f s : ℝ}
    (hf : timeConversionFactor "ns" dst (fin dpm) (fin dpy) = .ok (fin f)) :
    ∃ f', unitFactor (⟨dpm⟩ : Rd ρ) ⟨dpy⟩ "ns" dst = some f' ∧
      |(slopePoint ⟨s⟩ f').val - s * (1 / f)| ≤ 24 * u * |s * (1 / f)| + u * w := by
  have hs : Spec.Recognised "ns" := by simp [Spec.Recognised]
  obtain ⟨a, ha⟩ := recognised_some dpm dpy hs
  obtain ⟨b, hb⟩ := recognised_some dpm dpy hd
  obtain ⟨f', h1, h2, h3, h4⟩ := factor_near F hm hm' hy hy' hs hd ha hb
  rw [C50_value (by linarith) (by linarith) ha hb] at hf
  obtain rfl : a / b = f := by simpa using hf
  refine ⟨f', h1, ?_⟩
  have h0 := F.u0
  have hU := F.u1
  have hw := F.w0
  have l1 : Near ((1 : ℕ) * (1.01 * u)) 1 (1.0 : Rd ρ).val := near_sci F (by norm_num) le_rfl
  have hfp : 0 < a / b := lt_of_lt_of_le (by norm_num) h3
  have d1 := near_div F (by norm_num) l1 h2 (le_trans (by norm_num) (one_div_le_one_div_of_le hfp h4))
  have d2 := d1.error (by positivity) (by norm_num at hU ⊢; linarith)
  set q : ℝ := 1 / (a / b)
  set q' : ℝ := ((1.0 : Rd ρ) / f').val
  have hq : 0 < q := by positivity
  have d3 : |q' - q| ≤ 22 * u * q := by
    refine d2.trans (mul_le_mul_of_nonneg_right ?_ hq.le)
    norm_num
    linarith
  have d4 : |s * q' - s * q| ≤ 22 * u * |s * q| := by
    rw [← mul_sub, abs_mul, abs_mul, abs_of_pos hq]
    nlinarith [abs_nonneg s, mul_le_mul_of_nonneg_left d3 (abs_nonneg s)]
  have d5 := F.rounds (s * q')
  have d6 : |s * q'| ≤ |s * q| + 22 * u * |s * q| := by
    have := abs_sub_abs_le_abs_sub (s * q') (s * q)
    linarith
  have d7 : max |s * q'| w ≤ |s * q'| + w := max_le (by linarith) (by linarith [abs_nonneg (s * q')])
  have d8 := abs_sub_le (ρ (s * q')) (s * q') (s * q)
  show |ρ (s * q') - s * q| ≤ _
  have d9 : u * max |s * q'| w ≤ u * (|s * q| + 22 * u * |s * q| + w) :=
    mul_le_mul_of_nonneg_left (by linarith) h0
  have d10 : u * (22 * u * |s * q|) ≤ u * |s * q| := by
    refine mul_le_mul_of_nonneg_left ?_ h0
    have : 22 * u ≤ 1 := by norm_num at hU; linarith
    nlinarith [abs_nonneg (s * q)]
  nlinarith

/-! ## Factors that are not the expected ones -/

/-- The value of a rounded number. -/
theorem nearest_eq {p : ℕ} {x : ℝ} {k m : ℤ} (h1 : (2 : ℝ) ^ k ≤ x) (h2 : x < 2 ^ (k + 1))
    (h3 : m - 1 / 2 ≤ x / 2 ^ (k + 1 - p)) (h4 : x / 2 ^ (k + 1 - p) < m + 1 / 2) :
    nearest p x = m * 2 ^ (k + 1 - p) := by
  have hx : 0 < x := lt_of_lt_of_le (zpow_pos (by norm_num) k) h1
  have hl : Int.log 2 |x| = k := by
    rw [abs_of_pos hx]
    apply le_antisymm
    · have := (Int.lt_zpow_iff_log_lt (b := 2) (by norm_num) hx (x := k + 1)).1 (by exact_mod_cast h2)
      omega
    · exact (Int.zpow_le_iff_le_log (b := 2) (by norm_num) hx).1 (by exact_mod_cast h1)
  unfold nearest
  rw [hl]
  congr 2
  rw [round_eq, Int.floor_eq_iff]
  constructor <;> linarith

theorem nearest_sci {m e : ℕ} {s : Bool} {n : ℤ} (h : (OfScientific.ofScientific m s e : ℝ) = n)
    (hn : |n| < 2 ^ 53) : (OfScientific.ofScientific m s e : Rd (nearest 53)).val = n := by
  show nearest 53 (OfScientific.ofScientific m s e : ℝ) = n
  rw [h]
  exact nearest_int hn

theorem lit9 : (1.0e9 : Rd (nearest 53)).val = 1000000000 := by
  have := nearest_sci (m := 10) (s := false) (e := 8) (n := 1000000000) (by norm_num) (by norm_num)
  exact_mod_cast this

theorem lit60 : (60.0 : Rd (nearest 53)).val = 60 := by
  have := nearest_sci (m := 600) (s := true) (e := 1) (n := 60) (by norm_num) (by norm_num)
  exact_mod_cast this

theorem lit24 : (24.0 : Rd (nearest 53)).val = 24 := by
  have := nearest_sci (m := 240) (s := true) (e := 1) (n := 24) (by norm_num) (by norm_num)
  exact_mod_cast this

theorem lit1 : (1.0 : Rd (nearest 53)).val = 1 := by
  have := nearest_sci (m := 10) (s := true) (e := 1) (n := 1) (by norm_num) (by norm_num)
  exact_mod_cast this

theorem mul_int {x y : Rd (nearest 53)} {m : ℤ} (h : x.val * y.val = m) (hm : |m| < 2 ^ 53) :
    (x * y).val = m := by
  show nearest 53 (x.val * y.val) = m
  rw [h]
  exact nearest_int hm

theorem ns_minute : ((1.0e9 : Rd (nearest 53)) * 60.0).val = 60000000000 := by
  have := mul_int (x := (1.0e9 : Rd (nearest 53))) (y := 60.0) (m := 60000000000)
    (by rw [lit9, lit60]; norm_num) (by norm_num)
  exact_mod_cast this

theorem ns_hour : ((1.0e9 : Rd (nearest 53)) * 60.0 * 60.0).val = 3600000000000 := by
  have := mul_int (x := (1.0e9 : Rd (nearest 53)) * 60.0) (y := 60.0) (m := 3600000000000)
    (by rw [ns_minute, lit60]; norm_num) (by norm_num)
  exact_mod_cast this

theorem ns_day : ((1.0e9 : Rd (nearest 53)) * 60.0 * 60.0 * 24.0).val = 86400000000000 := by
  have := mul_int (x := (1.0e9 : Rd (nearest 53)) * 60.0 * 60.0) (y := 24.0) (m := 86400000000000)
    (by rw [ns_hour, lit24]; norm_num) (by norm_num)
  exact_mod_cast this

/-- In double precision a minute does not have 60 seconds: the factor is `60 + 2⁻⁴⁷`. -/
theorem C163_minute (dpm dpy : Rd (nearest 53)) :
    ∃ f, unitFactor dpm dpy "min" "s" = some f ∧ f.val = 60 + 2⁻¹ ^ 47 := by
  obtain ⟨_, h2, h3, _⟩ := unitNs_some dpm dpy
  refine ⟨1.0e9 * 60.0 * (1.0 / 1.0e9), by unfold unitFactor; rw [h2, h3], ?_⟩
  have e1 : ((1.0 : Rd (nearest 53)) / 1.0e9).val = 4835703278458517 * (2 : ℝ) ^ (-82 : ℤ) := by
    show nearest 53 ((1.0 : Rd (nearest 53)).val / (1.0e9 : Rd (nearest 53)).val) = _
    rw [lit1, lit9, nearest_eq (k := -30) (m := 4835703278458517)] <;> norm_num
  show nearest 53 (((1.0e9 : Rd (nearest 53)) * 60.0).val * ((1.0 : Rd (nearest 53)) / 1.0e9).val) = _
  rw [ns_minute, e1, nearest_eq (k := 5) (m := 8444249301319681)] <;> norm_num

/-- In double precision a Gregorian year does not have one Gregorian year: with `days_per_year=365.2425` the
factor from years to years is `1 - 2⁻⁵³`. -/
theorem C163_year (dpm : Rd (nearest 53)) :
    ∃ f, unitFactor dpm 365.2425 "yr" "yr" = some f ∧ f.val = 1 - 2⁻¹ ^ 53 := by
  obtain ⟨_, _, _, _, _, _, h7⟩ := unitNs_some dpm 365.2425
  refine ⟨1.0e9 * 60.0 * 60.0 * 24.0 * 365.2425 * (1.0 / (1.0e9 * 60.0 * 60.0 * 24.0 * 365.2425)),
    by unfold unitFactor; rw [h7], ?_⟩
  have e0 : (365.2425 : Rd (nearest 53)).val = 6425414011327611 * (2 : ℝ) ^ (-44 : ℤ) := by
    show nearest 53 (365.2425 : ℝ) = _
    rw [nearest_eq (k := 8) (m := 6425414011327611)] <;> norm_num
  have e1 : ((1.0e9 : Rd (nearest 53)) * 60.0 * 60.0 * 24.0 * 365.2425).val
      = 7889238000000000 * (2 : ℝ) ^ (2 : ℤ) := by
    show nearest 53 (((1.0e9 : Rd (nearest 53)) * 60.0 * 60.0 * 24.0).val * (365.2425 : Rd (nearest 53)).val) = _
    rw [ns_day, e0, nearest_eq (k := 54) (m := 7889238000000000)] <;> norm_num
  have e2 : ((1.0 : Rd (nearest 53)) / (1.0e9 * 60.0 * 60.0 * 24.0 * 365.2425)).val
      = 5141791793745269 * (2 : ℝ) ^ (-107 : ℤ) := by
    show nearest 53 ((1.0 : Rd (nearest 53)).val
      / ((1.0e9 : Rd (nearest 53)) * 60.0 * 60.0 * 24.0 * 365.2425).val) = _
    rw [lit1, e1, nearest_eq (k := -55) (m := 5141791793745269)] <;> norm_num
  show nearest 53 (((1.0e9 : Rd (nearest 53)) * 60.0 * 60.0 * 24.0 * 365.2425).val
    * ((1.0 : Rd (nearest 53)) / (1.0e9 * 60.0 * 60.0 * 24.0 * 365.2425)).val) = _
  rw [e1, e2, nearest_eq (k := -1) (m := 9007199254740991)] <;> norm_num

/-! ## Concrete cases -/

theorem doubleFormat : Format (2⁻¹ ^ 53) 0 (nearest 53) :=
  ⟨C91_nearest 53, by positivity, by norm_num, le_rfl, by norm_num⟩

example : ∃ f, unitFactor (30.417 : ℝ) 365 "day" "hr" = some f ∧
    timeConversionFactor "day" "hr" (fin (30.417 : ℝ)) (fin 365) = .ok (fin f) :=
  C163_exact (by norm_num) (by norm_num) (by simp [Spec.Recognised]) (by simp [Spec.Recognised])

/-- From years to days in double precision. -/
example : ∃ f', unitFactor (⟨30⟩ : Rd (nearest 53)) ⟨365⟩ "yr" "day" = some f' ∧
    |f'.val - 365| ≤ 1e-12 := by
  have hf : timeConversionFactor "yr" "day" (fin (30 : ℝ)) (fin 365) = .ok (fin 365) := by
    rw [C50_value (a := 31536000000000000) (b := 86400000000000) (by norm_num) (by norm_num)
      (by simp [nsIn]; norm_num) (by simp [nsIn])]
    norm_num
  obtain ⟨f', h1, h2⟩ := C163_error doubleFormat (by norm_num) (by norm_num) (by norm_num) (by norm_num)
    (by simp [Spec.Recognised]) (by simp [Spec.Recognised]) hf
  exact ⟨f', h1, h2.trans (by norm_num)⟩

/-- A slope of 10⁻¹⁶ per nanosecond is 3.1536 per year. -/
example : ∃ f', unitFactor (⟨30⟩ : Rd (nearest 53)) ⟨365⟩ "ns" "yr" = some f' ∧
    |(slopePoint ⟨1 / 10 ^ 16⟩ f').val - 3.1536| ≤ 1e-14 := by
  have hf : timeConversionFactor "ns" "yr" (fin (30 : ℝ)) (fin 365)
      = .ok (fin (1 / 31536000000000000)) := by
    rw [C50_value (a := 1) (b := 31536000000000000) (by norm_num) (by norm_num)
      (by simp [nsIn]) (by simp [nsIn]; norm_num)]
  obtain ⟨f', h1, h2⟩ := C163_slope (s := 1 / 10 ^ 16) doubleFormat (by norm_num) (by norm_num) (by norm_num)
    (by norm_num) (by simp [Spec.Recognised]) hf
  refine ⟨f', h1, ?_⟩
  rw [show (1 : ℝ) / 10 ^ 16 * (1 / (1 / 31536000000000000)) = 3.1536 by norm_num] at h2
  refine h2.trans ?_
  rw [abs_of_pos (by norm_num)]
  norm_num

end Momlevel.Props
