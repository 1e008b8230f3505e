import Verif.Props.Coriolis
import Mathlib.Analysis.Real.Pi.Bounds

/-! # C170: errors in latitude and wave speed, and Coriolis parameter and Rossby radius -/

set_option linter.unusedSectionVars false

namespace Momlevel.Props
open Momlevel Momlevel.Fl

theorem coriolisOf_diff (x y : ℝ) : |coriolisOf y - coriolisOf x| ≤ 2 * Omega * (Real.pi / 180) * |y - x| := by
  unfold coriolisOf
  have hO := Omega_pos
  have hp := Real.pi_pos
  rw [← mul_sub, abs_mul, abs_of_pos (by positivity), mul_assoc (2 * Omega)]
  refine mul_le_mul_of_nonneg_left ((Real.abs_sin_sub_sin_le _ _).trans_eq ?_) (by positivity)
  rw [← sub_mul, abs_mul, abs_of_pos (by positivity : 0 < Real.pi / 180), mul_comm]

theorem coriolisOf_size {x : ℝ} (h0 : -90 ≤ x) (h1 : x ≤ 90) : 2 * Omega * (|x| / 90) ≤ |coriolisOf x| := by
  have key : ∀ x : ℝ, 0 ≤ x → x ≤ 90 → 2 * Omega * (|x| / 90) ≤ |coriolisOf x| := by
    intro x h0 h1
    have hO := Omega_pos
    have hp := Real.pi_pos
    have hs := Real.mul_le_sin (x := x * (Real.pi / 180)) (by positivity) (by nlinarith)
    have e : 2 / Real.pi * (x * (Real.pi / 180)) = x / 90 := by field_simp; ring
    rw [e] at hs
    unfold coriolisOf
    rw [abs_mul, abs_of_nonneg h0, abs_of_pos (by positivity : 0 < 2 * Omega)]
    exact mul_le_mul_of_nonneg_left (hs.trans (le_abs_self _)) (by positivity)
  rcases le_total 0 x with h | h
  · exact key x h h1
  · have := key (-x) (by linarith) (by linarith)
    rwa [abs_neg, coriolisOf_neg, abs_neg] at this

/-- **C170 (Coriolis parameter)** Latitudes that differ by `d` degrees: the parameters differ by at most
`π²/3888000 · d`, that is 2.54·10⁻⁶ per degree. -/
theorem C170_coriolis {lat lat' : DA (Fl ℝ)} {e : Env} {x y : ℝ} (h : lat.get e = fin x) (h' : lat'.get e = fin y) :
    ∃ f g, (calcCoriolis lat).get e = fin f ∧ (calcCoriolis lat').get e = fin g ∧
      |g - f| ≤ Real.pi ^ 2 / 3888000 * |y - x| := by
  refine ⟨_, _, ((C15_formula lat).2 e).1 x h, ((C15_formula lat').2 e).1 y h', (coriolisOf_diff x y).trans_eq ?_⟩
  unfold Omega
  ring

/-- A degree from 30 to 31 degrees. -/
example : ∃ f g, (calcCoriolis (DA.scalar (fin 30))).get (fun _ => 0) = fin f ∧
    (calcCoriolis (DA.scalar (fin 31))).get (fun _ => 0) = fin g ∧ |g - f| ≤ 0.00000255 := by
  obtain ⟨f, g, h1, h2, h3⟩ := C170_coriolis (lat := DA.scalar (fin 30)) (lat' := DA.scalar (fin 31)) (e := fun _ => 0)
    rfl rfl
  refine ⟨f, g, h1, h2, h3.trans ?_⟩
  have p1 := Real.pi_lt_d4
  have p0 := Real.pi_pos
  rw [show |(31 : ℝ) - 30| = 1 by norm_num, mul_one]
  nlinarith

/-- **C170 (Rossby radius)** Wave speeds `c`, `c'` and latitudes `x`, `x'` off the equator: the radii differ by at most
`(1944000/π |c'-c| + π/2 · r |x'-x|) / |x'|`, `r` the radius for `c` and `x`. -/
theorem C170_radius {wave wave' lat lat' : DA (Fl ℝ)} {e : Env} {c c' x x' : ℝ} (hc : wave.get e = fin c)
    (hc' : wave'.get e = fin c') (hx : lat.get e = fin x) (hx' : lat'.get e = fin x') (b0 : -90 ≤ x) (b1 : x ≤ 90)
    (b0' : -90 ≤ x') (b1' : x' ≤ 90) (n : x ≠ 0) (n' : x' ≠ 0) :
    ∃ r r', (calcRossbyRd wave (calcCoriolis lat)).get e = fin r ∧
      (calcRossbyRd wave' (calcCoriolis lat')).get e = fin r' ∧
      |r' - r| ≤ (1944000 / Real.pi * |c' - c| + Real.pi / 2 * (|r| * |x' - x|)) / |x'| := by
  have hO := Omega_pos
  have hp := Real.pi_pos
  have ax := abs_pos.2 n
  have ax' := abs_pos.2 n'
  have s := coriolisOf_size b0 b1
  have s' := coriolisOf_size b0' b1'
  have k : 0 < 2 * Omega * (|x| / 90) := by positivity
  have k' : 0 < 2 * Omega * (|x'| / 90) := by positivity
  have fp : 0 < |coriolisOf x| := k.trans_le s
  have fp' : 0 < |coriolisOf x'| := k'.trans_le s'
  obtain ⟨-, r, h1, h2, -⟩ := C16_off_equator wave (calcCoriolis lat) e c _ hc (((C15_formula lat).2 e).1 x hx)
    (abs_pos.1 fp)
  obtain ⟨-, r', h1', h2', -⟩ := C16_off_equator wave' (calcCoriolis lat') e c' _ hc' (((C15_formula lat').2 e).1 x' hx')
    (abs_pos.1 fp')
  refine ⟨r, r', h1, h1', ?_⟩
  have id : (r' - r) * |coriolisOf x'| = (c' - c) - r * (|coriolisOf x'| - |coriolisOf x|) := by
    rw [← h2, ← h2']; ring
  have d := (abs_abs_sub_abs_le (coriolisOf x') (coriolisOf x)).trans (coriolisOf_diff x x')
  have m : |r' - r| * |coriolisOf x'| ≤ |c' - c| + |r| * (2 * Omega * (Real.pi / 180) * |x' - x|) := by
    rw [← abs_abs (coriolisOf x'), ← abs_mul, id]
    refine (abs_sub _ _).trans (add_le_add le_rfl ?_)
    rw [abs_mul]
    exact mul_le_mul_of_nonneg_left d (abs_nonneg _)
  have m2 : |r' - r| * (2 * Omega * (|x'| / 90)) ≤ |c' - c| + |r| * (2 * Omega * (Real.pi / 180) * |x' - x|) :=
    (mul_le_mul_of_nonneg_left s' (abs_nonneg _)).trans m
  rw [le_div_iff₀ ax']
  have q := mul_le_mul_of_nonneg_left m2 (by positivity : 0 ≤ 1944000 / Real.pi)
  have e1 : 1944000 / Real.pi * (|r' - r| * (2 * Omega * (|x'| / 90))) = |r' - r| * |x'| := by
    unfold Omega; field_simp; ring
  have e2 : 1944000 / Real.pi * (|c' - c| + |r| * (2 * Omega * (Real.pi / 180) * |x' - x|))
      = 1944000 / Real.pi * |c' - c| + Real.pi / 2 * (|r| * |x' - x|) := by
    unfold Omega; field_simp; ring
  rwa [e1, e2] at q

/-- At 45 degrees an error of 0.1 m/s in the wave speed alone: at most 1.4 km. -/
example : ∃ r r', (calcRossbyRd (DA.scalar (fin 2.5)) (calcCoriolis (DA.scalar (fin 45)))).get (fun _ => 0) = fin r ∧
    (calcRossbyRd (DA.scalar (fin 2.6)) (calcCoriolis (DA.scalar (fin 45)))).get (fun _ => 0) = fin r' ∧
    |r' - r| ≤ 1400 := by
  obtain ⟨r, r', h1, h2, h3⟩ := C170_radius (wave := DA.scalar (fin 2.5)) (wave' := DA.scalar (fin 2.6))
    (lat := DA.scalar (fin 45)) (lat' := DA.scalar (fin 45)) (e := fun _ => 0) rfl rfl rfl rfl (by norm_num)
    (by norm_num) (by norm_num) (by norm_num) (by norm_num) (by norm_num)
  refine ⟨r, r', h1, h2, h3.trans ?_⟩
  have p1 := Real.pi_gt_d4
  have p0 := Real.pi_pos
  rw [show |(2.6 : ℝ) - 2.5| = 0.1 by norm_num [abs_of_pos], show |(45 : ℝ) - 45| = 0 by norm_num, abs_of_pos (by norm_num : (0 : ℝ) < 45),
    mul_zero, mul_zero, add_zero, div_le_iff₀ (by norm_num), ← mul_div_right_comm, div_le_iff₀ p0]
  linarith

end Momlevel.Props
