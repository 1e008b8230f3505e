import Verif.Model.RoundingArea
import Verif.Props.RoundingDz
import Verif.Props.RoundingVort
import Verif.Props.Grid
import Mathlib.Analysis.Real.Pi.Bounds

/-! # C147: cell areas in floating point -/

set_option linter.unusedSectionVars false

namespace Momlevel.Props
open Momlevel Momlevel.Spec Momlevel.Fl

variable {ρ : ℝ → ℝ} {u : ℝ}

/-- One rounding. -/
theorem round_error (hr : Rounds u 0 ρ) (x : ℝ) : |ρ x - x| ≤ u * |x| := by
  have := hr x
  rwa [max_eq_left (abs_nonneg _)] at this

/-- `1 + 3u + …` -/
theorem cube_small (hu : 0 ≤ u) (hu1 : u ≤ 1 / 10 ^ 6) : (1 + u) * ((1 + u) * (1 + u)) - 1 ≤ 3.001 * u := by
  have h : u * u ≤ 1 / 10 ^ 6 * u := mul_le_mul_of_nonneg_right hu1 hu
  have h2 : u * (u * u) ≤ 1 / 10 ^ 6 * (u * u) := mul_le_mul_of_nonneg_right hu1 (mul_self_nonneg u)
  nlinarith

/-- The edges of a cell, from the centre and the spacing. -/
theorem cell_edge_error (hr : Rounds u 0 ρ) (hu : 0 ≤ u) (hu1 : u ≤ 1 / 10 ^ 6) (x a b : ℝ) :
    |ρ (x - ρ (ρ (a - b) / 2)) - (x - (a - b) / 2)| ≤ 3.001 * u * (|x| + |a - b| / 2) ∧
    |ρ (x + ρ (ρ (a - b) / 2)) - (x + (a - b) / 2)| ≤ 3.001 * u * (|x| + |a - b| / 2) := by
  have h1 := round_error hr (a - b)
  have h2 : |ρ (ρ (a - b) / 2) - (a - b) / 2| ≤ ((1 + u) * (1 + u) - 1) * (|a - b| / 2) := by
    have := div_error hr hu (S := a - b) (S' := ρ (a - b)) (M := |a - b|) (W := 2) (g := 1 + u) (by norm_num) le_rfl
      (by linarith)
    rwa [abs_of_pos (by norm_num : (0 : ℝ) < 2)] at this
  have hd : |(a - b) / 2| ≤ |a - b| / 2 := by rw [abs_div, abs_of_pos (by norm_num : (0 : ℝ) < 2)]
  have hx : |x - x| ≤ ((1 + u) * (1 + u) - 1) * |x| := by
    rw [sub_self, abs_zero]
    have := abs_nonneg x
    nlinarith [mul_nonneg hu hu, mul_nonneg hu this, mul_nonneg (mul_nonneg hu hu) this]
  have hc := cube_small hu hu1
  have hn : 0 ≤ |x| + |a - b| / 2 := by positivity
  exact ⟨(sub_error hr hu le_rfl hd hx h2).trans (mul_le_mul_of_nonneg_right hc hn),
    (add_error hr hu le_rfl hd hx h2).trans (mul_le_mul_of_nonneg_right hc hn)⟩

/-- The sine of an edge. -/
theorem sine_error {k x x' c : ℝ} {sinf radf : Rd ρ → Rd ρ} (hu : 0 ≤ u) (hu1 : u ≤ 1 / 10 ^ 6)
    (hsin : ∀ y, |(sinf y).val - Real.sin y.val| ≤ k * u)
    (hrad : ∀ y, |(radf y).val - rad y.val| ≤ 4 * u * |rad y.val|)
    (hx : |x| ≤ 180) (hc : c ≤ 180) (h : |x' - x| ≤ 3.001 * u * c) :
    |(sinf (radf ⟨x'⟩)).val - Real.sin (rad x)| ≤ (k + 23) * u := by
  have h1 := hsin (radf ⟨x'⟩)
  have h2 := hrad ⟨x'⟩
  simp only at h2
  have hlip : |Real.sin (radf ⟨x'⟩).val - Real.sin (rad x)| ≤ |(radf ⟨x'⟩).val - rad x| := by
    simpa [Real.dist_eq] using Real.lipschitzWith_sin.dist_le_mul (radf ⟨x'⟩).val (rad x)
  have hp := Real.pi_lt_d2
  have hp0 := Real.pi_pos
  have e1 : rad x' - rad x = (x' - x) / 180 * Real.pi := by unfold rad; ring
  have h3 : |rad x' - rad x| ≤ 9.454 * u := by
    rw [e1, abs_mul, abs_div, abs_of_pos hp0, abs_of_pos (by norm_num : (0 : ℝ) < 180)]
    have : |x' - x| / 180 ≤ 3.001 * u := by
      rw [div_le_iff₀ (by norm_num)]
      exact h.trans (mul_le_mul_of_nonneg_left hc (by linarith))
    calc |x' - x| / 180 * Real.pi ≤ 3.001 * u * 3.15 := mul_le_mul this hp.le hp0.le (by linarith)
      _ ≤ 9.454 * u := by linarith
  have h4 : |rad x| ≤ 3.15 := by
    unfold rad
    rw [abs_mul, abs_div, abs_of_pos hp0, abs_of_pos (by norm_num : (0 : ℝ) < 180)]
    have : |x| / 180 ≤ 1 := by rw [div_le_iff₀ (by norm_num)]; linarith
    nlinarith [abs_nonneg x]
  have h5 : |rad x'| ≤ 3.151 := by
    have := abs_sub_abs_le_abs_sub (rad x') (rad x)
    linarith
  have h6 : 4 * u * |rad x'| ≤ 12.604 * u := by nlinarith
  have t1 := abs_sub_le (sinf (radf ⟨x'⟩)).val (Real.sin (radf ⟨x'⟩).val) (Real.sin (rad x))
  have t2 := abs_sub_le (radf ⟨x'⟩).val (rad x') (rad x)
  linarith

/-- `1 + 5u + …` -/
theorem fifth_small (hu : 0 ≤ u) (hu1 : u ≤ 1 / 10 ^ 6) : (1 + u) ^ 5 - 1 ≤ 6 * u := by
  have h5 : (1 + u) ^ 5 - 1 = u * (5 + u * (10 + u * (10 + u * (5 + u)))) := by ring
  rw [h5, mul_comm 6 u]
  refine mul_le_mul_of_nonneg_left ?_ hu
  have h1 : u ≤ 1 / 100 := hu1.trans (by norm_num)
  have a1 : u * (5 + u) ≤ 1 := by nlinarith
  have a0 : 0 ≤ u * (5 + u) := by positivity
  have a2 : u * (10 + u * (5 + u)) ≤ 1 := by nlinarith
  have a3 : 0 ≤ u * (10 + u * (5 + u)) := by positivity
  nlinarith

/-- The prefactor. -/
theorem factor_error {ρs : ℝ → ℝ} (hr : Rounds u 0 ρ) (hs : Rounds u 0 ρs) (h180 : ρs 180 = 180) (hu : 0 ≤ u)
    (hu1 : u ≤ 1 / 10 ^ 6) (r : ℝ) :
    |ρ (areaFactor (⟨ρs Real.pi⟩ : Rd ρs) ⟨r⟩).val - Real.pi / 180 * r ^ 2| ≤ 6 * u * (Real.pi / 180 * r ^ 2) := by
  have hp0 := Real.pi_pos
  have e0 := round_error hs Real.pi
  rw [abs_of_pos hp0] at e0
  have e1 := div_error hs hu (S := Real.pi) (S' := ρs Real.pi) (M := Real.pi) (W := 180) (g := 1 + u) (by norm_num)
    (by rw [abs_of_pos hp0]) (by linarith)
  rw [abs_of_pos (by norm_num : (0 : ℝ) < 180)] at e1
  have hP : 0 < Real.pi / 180 := by positivity
  generalize hA : ρs (ρs Real.pi / 180) = A at e1
  generalize hB : ρs (A * r) = B
  generalize hC : ρs (B * r) = C
  have eA : |A| ≤ (1 + u) * (1 + u) * (Real.pi / 180) := by
    have := abs_sub_abs_le_abs_sub A (Real.pi / 180)
    rw [abs_of_pos hP] at this
    linarith
  have e2 := round_error hs (A * r)
  rw [hB] at e2
  have e3 := round_error hs (B * r)
  rw [hC] at e3
  have e4 := round_error hr C
  have eq : (areaFactor (⟨ρs Real.pi⟩ : Rd ρs) ⟨r⟩).val = C := by
    rw [← hC, ← hB, ← hA]
    have : (180.0 : Rd ρs).val = 180 := by
      change ρs (180.0 : ℝ) = 180
      rw [← h180]; norm_num [h180]
    change ρs (ρs (ρs (ρs Real.pi / (180.0 : Rd ρs).val) * r) * r) = _
    rw [this]
  rw [eq]
  have b1 : |A * r - Real.pi / 180 * r| ≤ ((1 + u) * (1 + u) - 1) * (Real.pi / 180) * |r| := by
    rw [← sub_mul, abs_mul]
    exact mul_le_mul_of_nonneg_right e1 (abs_nonneg _)
  have b2 : |A * r| ≤ (1 + u) * (1 + u) * (Real.pi / 180) * |r| := by
    rw [abs_mul]; exact mul_le_mul_of_nonneg_right eA (abs_nonneg _)
  have b3 : |B - Real.pi / 180 * r| ≤ ((1 + u) * (1 + u) * (1 + u) - 1) * (Real.pi / 180) * |r| := by
    have := abs_sub_le B (A * r) (Real.pi / 180 * r)
    have k := mul_le_mul_of_nonneg_left b2 hu
    have : |B - Real.pi / 180 * r| ≤ u * ((1 + u) * (1 + u) * (Real.pi / 180) * |r|)
        + ((1 + u) * (1 + u) - 1) * (Real.pi / 180) * |r| := by linarith
    refine this.trans (le_of_eq (by ring))
  have b4 : |B| ≤ (1 + u) * (1 + u) * (1 + u) * (Real.pi / 180) * |r| := by
    have := abs_sub_abs_le_abs_sub B (Real.pi / 180 * r)
    rw [abs_mul (Real.pi / 180), abs_of_pos hP] at this
    linarith
  have hr2 : |r| * |r| = r ^ 2 := by rw [abs_mul_abs_self]; ring
  have b5 : |C - Real.pi / 180 * r ^ 2| ≤ ((1 + u) * (1 + u) * (1 + u) * (1 + u) - 1) * (Real.pi / 180 * r ^ 2) := by
    have t := abs_sub_le C (B * r) (Real.pi / 180 * r ^ 2)
    have k1 : |B * r| ≤ (1 + u) * (1 + u) * (1 + u) * (Real.pi / 180) * |r| * |r| := by
      rw [abs_mul]; exact mul_le_mul_of_nonneg_right b4 (abs_nonneg _)
    have k2 : |B * r - Real.pi / 180 * r ^ 2| ≤ ((1 + u) * (1 + u) * (1 + u) - 1) * (Real.pi / 180) * |r| * |r| := by
      rw [show B * r - Real.pi / 180 * r ^ 2 = (B - Real.pi / 180 * r) * r by ring, abs_mul]
      exact mul_le_mul_of_nonneg_right b3 (abs_nonneg _)
    rw [mul_assoc _ |r| |r|, hr2] at k1 k2
    have k3 := mul_le_mul_of_nonneg_left k1 hu
    have : |C - Real.pi / 180 * r ^ 2| ≤ u * ((1 + u) * (1 + u) * (1 + u) * (Real.pi / 180) * r ^ 2)
        + ((1 + u) * (1 + u) * (1 + u) - 1) * (Real.pi / 180) * r ^ 2 := by linarith
    refine this.trans (le_of_eq (by ring))
  have hQ : 0 ≤ Real.pi / 180 * r ^ 2 := by positivity
  have b6 : |C| ≤ (1 + u) * (1 + u) * (1 + u) * (1 + u) * (Real.pi / 180 * r ^ 2) := by
    have := abs_sub_abs_le_abs_sub C (Real.pi / 180 * r ^ 2)
    rw [abs_of_nonneg hQ] at this
    linarith
  have t := abs_sub_le (ρ C) C (Real.pi / 180 * r ^ 2)
  have k := mul_le_mul_of_nonneg_left b6 hu
  have b7 : |ρ C - Real.pi / 180 * r ^ 2| ≤ ((1 + u) ^ 5 - 1) * (Real.pi / 180 * r ^ 2) := by
    have : |ρ C - Real.pi / 180 * r ^ 2| ≤ u * ((1 + u) * (1 + u) * (1 + u) * (1 + u) * (Real.pi / 180 * r ^ 2))
        + ((1 + u) * (1 + u) * (1 + u) * (1 + u) - 1) * (Real.pi / 180 * r ^ 2) := by linarith
    refine this.trans (le_of_eq (by ring))
  refine b7.trans (mul_le_mul_of_nonneg_right ?_ hQ)
  exact fifth_small hu hu1

/-- The difference of the sines. -/
theorem sines_error (hr : Rounds u 0 ρ) (hu : 0 ≤ u) (hu1 : u ≤ 1 / 10 ^ 6) {k s0 s1 z0 z1 : ℝ} (hk1 : k ≤ 1000)
    (hz0 : |z0| ≤ 1) (hz1 : |z1| ≤ 1) (e0 : |s0 - z0| ≤ (k + 23) * u)
    (e1 : |s1 - z1| ≤ (k + 23) * u) : |(|ρ (s0 - s1)| - |z0 - z1|)| ≤ (2 * k + 49) * u := by
  have hS2 : |z0 - z1| ≤ 2 := by have := abs_sub z0 z1; linarith
  have hku : k * u ≤ 1 / 1000 := by
    have := mul_le_mul hk1 hu1 hu (by norm_num)
    linarith
  have t0 : |(s0 - s1) - (z0 - z1)| ≤ 2 * (k + 23) * u := by
    rw [show (s0 - s1) - (z0 - z1) = (s0 - z0) - (s1 - z1) by ring]
    have := abs_sub (s0 - z0) (s1 - z1)
    linarith
  have t1 := round_error hr (s0 - s1)
  have t2 : |s0 - s1| ≤ 3 := by
    have := abs_sub_abs_le_abs_sub (s0 - s1) (z0 - z1)
    norm_num at hu1
    linarith
  have k1 := mul_le_mul_of_nonneg_left t2 hu
  have := abs_sub_le (ρ (s0 - s1)) (s0 - s1) (z0 - z1)
  refine (abs_abs_sub_abs_le _ _).trans ?_
  linarith

/-- The width. -/
theorem width_error (hr : Rounds u 0 ρ) (hu : 0 ≤ u) (hu1 : u ≤ 1 / 10 ^ 6) {lo d y0 y1 : ℝ}
    (e0 : |y0 - (lo - d / 2)| ≤ 3.001 * u * (|lo| + |d| / 2)) (e1 : |y1 - (lo + d / 2)| ≤ 3.001 * u * (|lo| + |d| / 2)) :
    |(|ρ (y0 - y1)| - |d|)| ≤ u * (6.01 * |lo| + 4.01 * |d|) := by
  have t0 : |(y0 - y1) - -d| ≤ 6.002 * u * (|lo| + |d| / 2) := by
    rw [show (y0 - y1) - -d = (y0 - (lo - d / 2)) - (y1 - (lo + d / 2)) by ring]
    have := abs_sub (y0 - (lo - d / 2)) (y1 - (lo + d / 2))
    linarith
  have t1 := round_error hr (y0 - y1)
  have t2 : |y0 - y1| ≤ |d| + 6.002 * u * (|lo| + |d| / 2) := by
    have := abs_sub_abs_le_abs_sub (y0 - y1) (-d)
    rw [abs_neg] at this
    linarith
  have k1 := mul_le_mul_of_nonneg_left t2 hu
  have k2 : u * (6.002 * u * (|lo| + |d| / 2)) ≤ u * (0.001 * (|lo| + |d| / 2)) := by
    refine mul_le_mul_of_nonneg_left (mul_le_mul_of_nonneg_right ?_ (by positivity)) hu
    norm_num at hu1 ⊢; linarith
  have k3 : 0 ≤ u * |lo| := mul_nonneg hu (abs_nonneg _)
  have k4 : 0 ≤ u * |d| := mul_nonneg hu (abs_nonneg _)
  have := abs_sub_le (ρ (y0 - y1)) (y0 - y1) (-d)
  rw [← abs_neg d]
  refine (abs_abs_sub_abs_le _ _).trans ?_
  rw [abs_neg]
  linarith

/-- The two last products. -/
theorem area_products (hr : Rounds u 0 ρ) (hu : 0 ≤ u) (hu1 : u ≤ 1 / 10 ^ 6) {P S W σ ω F a b : ℝ} (hP0 : 0 ≤ P)
    (hS0 : 0 ≤ S) (hW0 : 0 ≤ W) (hσ0 : 0 ≤ σ) (hω0 : 0 ≤ ω) (hF : |F - P| ≤ 6 * u * P) (eS : |a - S| ≤ σ)
    (eW : |b - W| ≤ ω) :
    |ρ (ρ (F * a) * b) - P * S * W| ≤ P * (8.001 * u * (S * W) + 1.00001 * (σ * W + (S + σ) * ω)) := by
  have ha : |a| ≤ S + σ := by
    have := abs_sub_abs_le_abs_sub a S
    rw [abs_of_nonneg hS0] at this
    linarith
  have hb' : |b| ≤ W + ω := by
    have := abs_sub_abs_le_abs_sub b W
    rw [abs_of_nonneg hW0] at this
    linarith
  have hFb : |F| ≤ (1 + 6 * u) * P := by
    have := abs_sub_abs_le_abs_sub F P
    rw [abs_of_nonneg hP0] at this
    linarith
  obtain ⟨X, hX⟩ : ∃ X, X = (S + σ) * (W + ω) := ⟨_, rfl⟩
  have hX0 : 0 ≤ X := by rw [hX]; positivity
  have hab : |a * b - S * W| ≤ X - S * W := by
    rw [show a * b - S * W = (a - S) * b + S * (b - W) by ring]
    have t := abs_add_le ((a - S) * b) (S * (b - W))
    rw [abs_mul (a - S) b, abs_mul S (b - W), abs_of_nonneg hS0] at t
    have m1 := mul_le_mul eS hb' (abs_nonneg _) hσ0
    have m2 := mul_le_mul_of_nonneg_left eW hS0
    rw [hX]
    linarith
  have habn : |a * b| ≤ X := by
    rw [abs_mul, hX]; exact mul_le_mul ha hb' (abs_nonneg _) (by positivity)
  have p1 : |F * a * b - P * S * W| ≤ 6 * u * P * X + P * (X - S * W) := by
    rw [show F * a * b - P * S * W = (F - P) * (a * b) + P * (a * b - S * W) by ring]
    have t := abs_add_le ((F - P) * (a * b)) (P * (a * b - S * W))
    rw [abs_mul (F - P) (a * b), abs_mul P (a * b - S * W), abs_of_nonneg hP0] at t
    have m1 := mul_le_mul hF habn (abs_nonneg _) (by positivity)
    have m2 := mul_le_mul_of_nonneg_left hab hP0
    linarith
  have p2 := round_error hr (F * a)
  generalize hG : ρ (F * a) = G at p2 ⊢
  have p3 := round_error hr (G * b)
  have pFab : |F * a * b| ≤ (1 + 6 * u) * P * X := by
    rw [mul_assoc F a b, abs_mul F (a * b)]; exact mul_le_mul hFb habn (abs_nonneg _) (by positivity)
  have p4 : |G * b - F * a * b| ≤ u * ((1 + 6 * u) * P * X) := by
    rw [← sub_mul, abs_mul]
    have m := mul_le_mul_of_nonneg_right p2 (abs_nonneg b)
    rw [mul_assoc u, ← abs_mul (F * a) b] at m
    exact m.trans (mul_le_mul_of_nonneg_left pFab hu)
  have p5 : |G * b| ≤ (1 + u) * ((1 + 6 * u) * P * X) := by
    have := abs_sub_abs_le_abs_sub (G * b) (F * a * b)
    linarith
  have p6 := p3.trans (mul_le_mul_of_nonneg_left p5 hu)
  have t1 := abs_sub_le (ρ (G * b)) (G * b) (P * S * W)
  have t2 := abs_sub_le (G * b) (F * a * b) (P * S * W)
  have total : |ρ (G * b) - P * S * W|
      ≤ P * ((u * ((1 + u) * (1 + 6 * u)) + u * (1 + 6 * u) + 6 * u) * X + (X - S * W)) := by
    have : |ρ (G * b) - P * S * W| ≤ u * ((1 + u) * ((1 + 6 * u) * P * X)) + u * ((1 + 6 * u) * P * X)
        + (6 * u * P * X + P * (X - S * W)) := by linarith
    refine this.trans (le_of_eq (by ring))
  refine total.trans (mul_le_mul_of_nonneg_left ?_ hP0)
  have q1 : u * ((1 + u) * (1 + 6 * u)) + u * (1 + 6 * u) + 6 * u ≤ 8.001 * u := by
    have h0 : (1 + u) * (1 + 6 * u) + (1 + 6 * u) + 6 ≤ 8.001 := by
      have : u * u ≤ 1 / 10 ^ 6 * u := mul_le_mul_of_nonneg_right hu1 hu
      norm_num at this hu1 ⊢
      linarith
    have := mul_le_mul_of_nonneg_left h0 hu
    linarith
  have q2 := mul_le_mul_of_nonneg_right q1 hX0
  refine (add_le_add_left q2 _).trans ?_
  have q3 : X = S * W + σ * W + (S + σ) * ω := by rw [hX]; ring
  have n2 : 0 ≤ σ * W := mul_nonneg hσ0 hW0
  have n3 : 0 ≤ (S + σ) * ω := by positivity
  have n4 : 8.001 * u ≤ 0.00001 := by norm_num at hu1 ⊢; linarith
  have m1 := mul_le_mul_of_nonneg_right n4 n2
  have m2 := mul_le_mul_of_nonneg_right n4 n3
  rw [q3]
  linarith

/-- With exact numbers the formula of one cell is the entry of `standard_grid_cell_area`. -/
theorem C147_exact {lat lon : List ℝ} {la0 la1 lo0 lo1 : ℝ} (r : ℝ) (h1 : lat[0]? = some la0)
    (h2 : lat[1]? = some la1) (h3 : lon[0]? = some lo0) (h4 : lon[1]? = some lo1) :
    standardGridCellArea (lat.map fin) (lon.map fin) (fin r) =
      .ok (lat.map (fun la => lon.map (fun lo => fin (cellAreaPoint (fun y => |y|) Real.sin rad
        (areaFactor Real.pi r) la0 la1 lo0 lo1 la lo)))) := by
  rw [C44_value r h1 h2 h3 h4]
  congr 1
  refine List.map_congr_left (fun la _ => List.map_congr_left (fun lo _ => ?_))
  congr 1
  have hp := Real.pi_pos
  unfold quadArea cellAreaPoint areaFactor
  have e : rad (lo + (lo1 - lo0) / 2) - rad (lo - (lo1 - lo0) / 2) = Real.pi / 180 * (lo1 - lo0) := by unfold rad; ring
  have e' : lo - (lo1 - lo0) / 2 - (lo + (lo1 - lo0) / 2) = -(lo1 - lo0) := by ring
  norm_num only [e]
  rw [abs_mul, abs_of_pos (by positivity : 0 < Real.pi / 180), abs_sub_comm (Real.sin _), e', abs_neg]
  ring

example : ∃ t, standardGridCellArea ([-89.5, -88.5].map fin) ([0.5, 1.5].map fin) (fin 6371000) = .ok t ∧
    t[1]? = some [fin (cellAreaPoint (fun y => |y|) Real.sin rad (areaFactor Real.pi 6371000) (-89.5) (-88.5) 0.5 1.5 (-88.5) 0.5),
      fin (cellAreaPoint (fun y => |y|) Real.sin rad (areaFactor Real.pi 6371000) (-89.5) (-88.5) 0.5 1.5 (-88.5) 1.5)] :=
  ⟨_, C147_exact 6371000 rfl rfl rfl rfl, rfl⟩

/-- Rounding error of a cell area.  `S` is the difference of the sines of the edges, `W` the width in degrees; the
sine function is exact up to `k` units of roundoff and the conversion to radians up to four; the prefactor is
computed in another format (Python scalars) at least as precise.  The second term does not shrink with the cell: it
comes from the subtraction of two edges of size `|lo|`. -/
theorem C147_area {ρs : ℝ → ℝ} {absf sinf radf : Rd ρ → Rd ρ} {k : ℝ} (hr : Rounds u 0 ρ) (hs : Rounds u 0 ρs)
    (h2 : ρ 2 = 2) (h180 : ρs 180 = 180) (hu : 0 ≤ u) (hu1 : u ≤ 1 / 10 ^ 6) (hk : 0 ≤ k) (hk1 : k ≤ 1000)
    (habs : ∀ y, (absf y).val = |y.val|) (hsin : ∀ y, |(sinf y).val - Real.sin y.val| ≤ k * u)
    (hrad : ∀ y, |(radf y).val - rad y.val| ≤ 4 * u * |rad y.val|)
    (r la0 la1 lo0 lo1 la lo : ℝ) (hla : |la| ≤ 90) (hd : |la1 - la0| ≤ 180) {S W : ℝ}
    (hS : S = |Real.sin (rad (la + (la1 - la0) / 2)) - Real.sin (rad (la - (la1 - la0) / 2))|)
    (hW : W = |lo1 - lo0|) :
    |(cellAreaPoint absf sinf radf ⟨ρ (areaFactor (⟨ρs Real.pi⟩ : Rd ρs) ⟨r⟩).val⟩ ⟨la0⟩ ⟨la1⟩ ⟨lo0⟩ ⟨lo1⟩
        ⟨la⟩ ⟨lo⟩ : Rd ρ).val
      - quadArea r (la - (la1 - la0) / 2) (la + (la1 - la0) / 2) (lo - (lo1 - lo0) / 2) (lo + (lo1 - lo0) / 2)|
    ≤ 1.01 * u * (Real.pi / 180 * r ^ 2)
        * ((2 * k + 49) * W + (S + (2 * k + 49) * u) * (6.01 * |lo| + 13 * W)) := by
  have hp0 := Real.pi_pos
  obtain ⟨eA0, eA1⟩ := cell_edge_error hr hu hu1 la la1 la0
  obtain ⟨eO0, eO1⟩ := cell_edge_error hr hu hu1 lo lo1 lo0
  generalize hx0 : ρ (la - ρ (ρ (la1 - la0) / 2)) = x0 at eA0
  generalize hx1 : ρ (la + ρ (ρ (la1 - la0) / 2)) = x1 at eA1
  generalize hy0 : ρ (lo - ρ (ρ (lo1 - lo0) / 2)) = y0 at eO0
  generalize hy1 : ρ (lo + ρ (ρ (lo1 - lo0) / 2)) = y1 at eO1
  have hF := factor_error hr hs h180 hu hu1 r
  generalize hFv : ρ (areaFactor (⟨ρs Real.pi⟩ : Rd ρs) ⟨r⟩).val = F at hF
  generalize hs0 : (sinf (radf ⟨x0⟩)).val = s0
  generalize hs1 : (sinf (radf ⟨x1⟩)).val = s1
  have two : (2.0 : Rd ρ).val = 2 := by
    change ρ (2.0 : ℝ) = 2
    rw [← h2]; norm_num [h2]
  have eval : (cellAreaPoint absf sinf radf ⟨F⟩ ⟨la0⟩ ⟨la1⟩ ⟨lo0⟩ ⟨lo1⟩ ⟨la⟩ ⟨lo⟩ : Rd ρ).val
      = ρ (ρ (F * |ρ (s0 - s1)|) * |ρ (y0 - y1)|) := by
    unfold cellAreaPoint
    simp only
    change ρ (ρ (F * (absf _).val) * (absf _).val) = _
    rw [habs, habs]
    change ρ (ρ (F * |ρ ((sinf (radf ⟨ρ (la - ρ (ρ (la1 - la0) / (2.0 : Rd ρ).val))⟩)).val
      - (sinf (radf ⟨ρ (la + ρ (ρ (la1 - la0) / (2.0 : Rd ρ).val))⟩)).val)|)
      * |ρ (ρ (lo - ρ (ρ (lo1 - lo0) / (2.0 : Rd ρ).val)) - ρ (lo + ρ (ρ (lo1 - lo0) / (2.0 : Rd ρ).val)))|) = _
    rw [two, hx0, hx1, hy0, hy1, hs0, hs1]
  rw [eval]
  -- the difference of the sines
  have hb : |la| + |la1 - la0| / 2 ≤ 180 := by linarith
  have half : |(la1 - la0) / 2| = |la1 - la0| / 2 := by rw [abs_div, abs_of_pos (by norm_num : (0 : ℝ) < 2)]
  have c0 : |la - (la1 - la0) / 2| ≤ 180 := by
    have := abs_sub la ((la1 - la0) / 2); rw [half] at this; linarith
  have c1 : |la + (la1 - la0) / 2| ≤ 180 := by
    have := abs_add_le la ((la1 - la0) / 2); rw [half] at this; linarith
  have e0 := sine_error hu hu1 hsin hrad c0 hb eA0
  have e1 := sine_error hu hu1 hsin hrad c1 hb eA1
  rw [hs0] at e0
  rw [hs1] at e1
  generalize hz0 : Real.sin (rad (la - (la1 - la0) / 2)) = z0 at *
  generalize hz1 : Real.sin (rad (la + (la1 - la0) / 2)) = z1 at *
  have hz0b : |z0| ≤ 1 := hz0 ▸ Real.abs_sin_le_one _
  have hz1b : |z1| ≤ 1 := hz1 ▸ Real.abs_sin_le_one _
  have hS0 : 0 ≤ S := hS ▸ abs_nonneg _
  have hS2 : S ≤ 2 := by
    rw [hS]; have := abs_sub z1 z0; linarith
  have hku : k * u ≤ 1 / 1000 := by nlinarith
  obtain ⟨σ, hσ⟩ : ∃ σ, σ = (2 * k + 49) * u := ⟨_, rfl⟩
  have eS : |(|ρ (s0 - s1)| - S)| ≤ σ := by
    rw [hS, abs_sub_comm z1 z0, hσ]
    exact sines_error hr hu hu1 hk1 hz0b hz1b e0 e1
  -- the width
  have hW0 : 0 ≤ W := hW ▸ abs_nonneg _
  obtain ⟨ω, hω⟩ : ∃ ω, ω = u * (6.01 * |lo| + 4.01 * W) := ⟨_, rfl⟩
  have eW : |(|ρ (y0 - y1)| - W)| ≤ ω := by
    rw [hω, hW]
    exact width_error hr hu hu1 eO0 eO1
  generalize |ρ (s0 - s1)| = a at eS ⊢
  generalize hbv : |ρ (y0 - y1)| = b at eW ⊢
  -- the exact area
  obtain ⟨P, hP⟩ : ∃ P, P = Real.pi / 180 * r ^ 2 := ⟨_, rfl⟩
  have hP0 : 0 ≤ P := by rw [hP]; positivity
  have exact : quadArea r (la - (la1 - la0) / 2) (la + (la1 - la0) / 2) (lo - (lo1 - lo0) / 2)
      (lo + (lo1 - lo0) / 2) = P * S * W := by
    unfold quadArea
    rw [hz0, hz1, ← hS, hW, hP, show rad (lo + (lo1 - lo0) / 2) - rad (lo - (lo1 - lo0) / 2)
      = (lo1 - lo0) * (Real.pi / 180) by unfold rad; ring, abs_mul, abs_of_pos (by positivity : (0 : ℝ) < Real.pi / 180)]
    ring
  rw [exact, ← hP]
  rw [← hP] at hF
  have hσ0 : 0 ≤ σ := by rw [hσ]; positivity
  have hω0 : 0 ≤ ω := by rw [hω]; positivity
  refine (area_products hr hu hu1 hP0 hS0 hW0 hσ0 hω0 hF eS eW).trans ?_
  rw [show 1.01 * u * P * ((2 * k + 49) * W + (S + (2 * k + 49) * u) * (6.01 * |lo| + 13 * W))
    = P * (1.01 * u * ((2 * k + 49) * W + (S + (2 * k + 49) * u) * (6.01 * |lo| + 13 * W))) by ring]
  refine mul_le_mul_of_nonneg_left ?_ hP0
  have n2 : 0 ≤ σ * W := mul_nonneg hσ0 hW0
  rw [hω]
  have n5 : 0 ≤ u * (S + σ) * |lo| := by positivity
  have n6 : 0 ≤ u * (S * W) := by positivity
  have n7 : 0 ≤ u * (σ * W) := by positivity
  have e3 : 1.01 * u * ((2 * k + 49) * W + (S + (2 * k + 49) * u) * (6.01 * |lo| + 13 * W))
      = 1.01 * (σ * W) + 1.01 * 6.01 * (u * (S + σ) * |lo|) + 1.01 * 13 * (u * (S * W)) + 1.01 * 13 * (u * (σ * W)) := by
    rw [hσ]; ring
  have e4 : 8.001 * u * (S * W) + 1.00001 * (σ * W + (S + σ) * (u * (6.01 * |lo| + 4.01 * W)))
      = 8.001 * (u * (S * W)) + 1.00001 * (σ * W) + 1.00001 * 6.01 * (u * (S + σ) * |lo|)
        + 1.00001 * 4.01 * (u * (S * W)) + 1.00001 * 4.01 * (u * (σ * W)) := by ring
  rw [e3, e4]
  norm_num
  linarith

/-- Correctly rounded sine, and degrees multiplied by the rounded quotient of pi and 180, as in numpy. -/
noncomputable def nearestSin (p : ℕ) (y : Rd (nearest p)) : Rd (nearest p) := ⟨nearest p (Real.sin y.val)⟩

noncomputable def nearestRad (p : ℕ) (y : Rd (nearest p)) : Rd (nearest p) :=
  y * ((⟨nearest p Real.pi⟩ : Rd (nearest p)) / (180.0 : Rd (nearest p)))

def absRd {ρ : ℝ → ℝ} (y : Rd ρ) : Rd ρ := ⟨|y.val|⟩

/-- With numbers of `p ≥ 20` binary digits, correctly rounded sine, and the prefactor in double precision or better. -/
theorem C147_nearest {p q : ℕ} (hp : 20 ≤ p) (hq : p ≤ q) (r la0 la1 lo0 lo1 la lo : ℝ) (hla : |la| ≤ 90)
    (hd : |la1 - la0| ≤ 180) {u S W : ℝ} (hu : u = 2⁻¹ ^ p)
    (hS : S = |Real.sin (rad (la + (la1 - la0) / 2)) - Real.sin (rad (la - (la1 - la0) / 2))|)
    (hW : W = |lo1 - lo0|) :
    |(cellAreaPoint absRd (nearestSin p) (nearestRad p)
        ⟨nearest p (areaFactor (⟨nearest q Real.pi⟩ : Rd (nearest q)) ⟨r⟩).val⟩ ⟨la0⟩ ⟨la1⟩ ⟨lo0⟩ ⟨lo1⟩
        ⟨la⟩ ⟨lo⟩ : Rd (nearest p)).val
      - quadArea r (la - (la1 - la0) / 2) (la + (la1 - la0) / 2) (lo - (lo1 - lo0) / 2) (lo + (lo1 - lo0) / 2)|
    ≤ 1.01 * u * (Real.pi / 180 * r ^ 2) * (51 * W + (S + 51 * u) * (6.01 * |lo| + 13 * W)) := by
  have hr := C91_nearest p
  have hs : Rounds (2⁻¹ ^ p) 0 (nearest q) := fun x => (C91_nearest q x).trans (mul_le_mul_of_nonneg_right
    (pow_le_pow_of_le_one (by norm_num) (by norm_num) hq) (le_max_of_le_left (abs_nonneg x)))
  rw [← hu] at hr hs
  have hu0 : 0 ≤ u := by rw [hu]; positivity
  have hu1 : u ≤ 1 / 10 ^ 6 := by
    rw [hu]
    refine (pow_le_pow_of_le_one (by norm_num) (by norm_num) hp).trans (by norm_num)
  have int : ∀ (n : ℕ) (m : ℤ), 20 ≤ n → |m| < 2 ^ 20 → nearest n (m : ℝ) = m := fun n m hn hm =>
    nearest_int (lt_of_lt_of_le hm (pow_le_pow_right₀ (by norm_num) hn))
  have h2 : nearest p 2 = 2 := by exact_mod_cast int p 2 hp (by norm_num)
  have h180p : nearest p 180 = 180 := by exact_mod_cast int p 180 hp (by norm_num)
  have h180 : nearest q 180 = 180 := by exact_mod_cast int q 180 (hp.trans hq) (by norm_num)
  have hsin : ∀ y : Rd (nearest p), |(nearestSin p y).val - Real.sin y.val| ≤ 1 * u := by
    intro y
    refine (round_error hr _).trans ?_
    have := mul_le_mul_of_nonneg_left (Real.abs_sin_le_one y.val) hu0
    linarith
  have hrad : ∀ y : Rd (nearest p), |(nearestRad p y).val - rad y.val| ≤ 4 * u * |rad y.val| := by
    intro y
    have hp0 := Real.pi_pos
    have e0 := round_error hr Real.pi
    rw [abs_of_pos hp0] at e0
    have e1 := div_error hr hu0 (S := Real.pi) (S' := nearest p Real.pi) (M := Real.pi) (W := 180) (g := 1 + u)
      (by norm_num) (by rw [abs_of_pos hp0]) (by linarith)
    rw [abs_of_pos (by norm_num : (0 : ℝ) < 180)] at e1
    have lit : (180.0 : Rd (nearest p)).val = 180 := by
      change nearest p (180.0 : ℝ) = 180
      rw [← h180p]; norm_num [h180p]
    have ev : (nearestRad p y).val = nearest p (y.val * nearest p (nearest p Real.pi / 180)) := by
      change nearest p (y.val * nearest p (nearest p Real.pi / (180.0 : Rd (nearest p)).val)) = _
      rw [lit]
    rw [ev]
    generalize nearest p (nearest p Real.pi / 180) = c at e1 ⊢
    have e2 := round_error hr (y.val * c)
    have hP : 0 < Real.pi / 180 := by positivity
    have er : rad y.val = y.val * (Real.pi / 180) := by unfold rad; ring
    have e3 : |y.val * c - rad y.val| ≤ ((1 + u) * (1 + u) - 1) * |rad y.val| := by
      rw [er, ← mul_sub, abs_mul, abs_mul, abs_of_pos hP]
      have := mul_le_mul_of_nonneg_left e1 (abs_nonneg y.val)
      linarith
    have e4 : |y.val * c| ≤ (1 + u) * (1 + u) * |rad y.val| := by
      have := abs_sub_abs_le_abs_sub (y.val * c) (rad y.val)
      linarith
    have t := abs_sub_le (nearest p (y.val * c)) (y.val * c) (rad y.val)
    have k := mul_le_mul_of_nonneg_left e4 hu0
    have c3 := mul_le_mul_of_nonneg_right (cube_small hu0 hu1) (abs_nonneg (rad y.val))
    have c4 : 0 ≤ u * |rad y.val| := by positivity
    have : |nearest p (y.val * c) - rad y.val| ≤ ((1 + u) * ((1 + u) * (1 + u)) - 1) * |rad y.val| := by
      refine (t.trans (add_le_add (e2.trans k) e3)).trans (le_of_eq (by ring))
    linarith
  have := C147_area (k := 1) hr hs h2 h180 hu0 hu1 (by norm_num) (by norm_num) (absf := absRd) (fun _ => rfl) hsin hrad
    r la0 la1 lo0 lo1 la lo hla hd hS hW
  norm_num at this ⊢
  exact this

/-- Single precision: the one-degree cell at 45°N, 359.5°E of the sphere of radius 6371 km (1.2e10 m²) is right to
6e6 m². -/
example : |(cellAreaPoint absRd (nearestSin 24) (nearestRad 24)
        ⟨nearest 24 (areaFactor (⟨nearest 53 Real.pi⟩ : Rd (nearest 53)) ⟨6371000⟩).val⟩ ⟨-89.5⟩ ⟨-88.5⟩ ⟨0.5⟩ ⟨1.5⟩
        ⟨45⟩ ⟨359.5⟩ : Rd (nearest 24)).val
      - quadArea 6371000 (45 - (-88.5 - -89.5) / 2) (45 + (-88.5 - -89.5) / 2) (359.5 - (1.5 - 0.5) / 2)
        (359.5 + (1.5 - 0.5) / 2)| ≤ 6000000 := by
  refine (C147_nearest (p := 24) (q := 53) (by norm_num) (by norm_num) 6371000 (-89.5) (-88.5) 0.5 1.5 45 359.5
    (by norm_num [abs_of_nonneg]) (by norm_num [abs_of_nonneg]) rfl rfl rfl).trans ?_
  have hp := Real.pi_lt_d2
  have hp0 := Real.pi_pos
  obtain ⟨S, hS⟩ : ∃ S, S = |Real.sin (rad (45 + (-88.5 - -89.5) / 2)) - Real.sin (rad (45 - (-88.5 - -89.5) / 2))| :=
    ⟨_, rfl⟩
  rw [← hS]
  have hS1 : S ≤ 0.018 := by
    rw [hS]
    have hlip : |Real.sin (rad (45 + (-88.5 - -89.5) / 2)) - Real.sin (rad (45 - (-88.5 - -89.5) / 2))|
        ≤ |rad (45 + (-88.5 - -89.5) / 2) - rad (45 - (-88.5 - -89.5) / 2)| := by
      simpa [Real.dist_eq] using Real.lipschitzWith_sin.dist_le_mul (rad (45 + (-88.5 - -89.5) / 2))
        (rad (45 - (-88.5 - -89.5) / 2))
    refine hlip.trans ?_
    rw [show rad (45 + (-88.5 - -89.5) / 2) - rad (45 - (-88.5 - -89.5) / 2) = Real.pi / 180 by unfold rad; norm_num; ring,
      abs_of_pos (by positivity)]
    linarith
  have hS0 : 0 ≤ S := hS ▸ abs_nonneg _
  have hw : |(1.5 : ℝ) - 0.5| = 1 := by norm_num
  have hl : |(359.5 : ℝ)| = 359.5 := by norm_num [abs_of_nonneg]
  rw [hw, hl]
  have h1 : 51 * 1 + (S + 51 * 2⁻¹ ^ 24) * (6.01 * 359.5 + 13 * 1) ≤ 91 := by
    norm_num at hS1 ⊢; linarith
  have h2 : 1.01 * 2⁻¹ ^ 24 * (Real.pi / 180 * 6371000 ^ 2) ≤ 43000 := by
    norm_num; nlinarith
  calc _ ≤ 43000 * 91 := mul_le_mul h2 h1 (by positivity) (by norm_num)
    _ ≤ 6000000 := by norm_num

end Momlevel.Props
