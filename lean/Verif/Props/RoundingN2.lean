import Verif.Model.RoundingN2
import Verif.Props.Rounding
import Verif.Props.N2Sign

/-!
# C133: rounding error of N²
-/

set_option linter.unusedSectionVars false

namespace Momlevel.Props
open Momlevel Momlevel.Spec Momlevel.Fl Momlevel.Eos

variable {ρ : ℝ → ℝ} {u : ℝ}

/-! ## Counting roundings -/

/-- `x'` is `x` after at most `k` roundings of quantities of magnitude at most `M`. -/
structure Off (u : ℝ) (k : ℕ) (x' x M : ℝ) : Prop where
  mag : |x| ≤ M
  off : |x' - x| ≤ ((1 - u)⁻¹ ^ k - 1) * M

/-- `x'` is the positive number `x` after at most `k` relative errors. -/
structure Ratio (u : ℝ) (k : ℕ) (x' x : ℝ) : Prop where
  pos : 0 < x
  pos' : 0 < x'
  lo : x * (1 - u) ^ k ≤ x'
  hi : x' * (1 - u) ^ k ≤ x

section
variable (hu : 0 ≤ u) (hu1 : u < 1)
include hu hu1

theorem grow_one : 1 + u ≤ (1 - u)⁻¹ := by
  rw [le_inv_comm₀ (by linarith) (by linarith), inv_eq_one_div, le_div_iff₀ (by linarith)]
  nlinarith

theorem grow_ge (k : ℕ) : 1 ≤ (1 - u)⁻¹ ^ k :=
  one_le_pow₀ (by linarith [grow_one hu hu1])

theorem grow_mono {j k : ℕ} (h : j ≤ k) : (1 - u)⁻¹ ^ j ≤ (1 - u)⁻¹ ^ k :=
  pow_le_pow_right₀ (by linarith [grow_one hu hu1]) h

theorem Off.mono {j k : ℕ} {x' x M : ℝ} (h : Off u j x' x M) (hk : j ≤ k) : Off u k x' x M :=
  ⟨h.mag, h.off.trans (mul_le_mul_of_nonneg_right (by linarith [grow_mono hu hu1 hk])
    ((abs_nonneg _).trans h.mag))⟩

theorem Off.weaken {k : ℕ} {x' x M N : ℝ} (h : Off u k x' x M) (hM : M ≤ N) : Off u k x' x N :=
  ⟨h.mag.trans hM, h.off.trans (mul_le_mul_of_nonneg_left hM (by linarith [grow_ge hu hu1 k]))⟩

theorem Off.exact (x : ℝ) : Off u 0 x x |x| := ⟨le_refl _, by simp⟩

theorem Off.size {k : ℕ} {x' x M : ℝ} (h : Off u k x' x M) : |x'| ≤ (1 - u)⁻¹ ^ k * M := by
  have := abs_sub_abs_le_abs_sub x' x
  have h1 := h.off
  have h2 := h.mag
  linarith

theorem Off.round (hr : Rounds u 0 ρ) {k : ℕ} {x' x M : ℝ} (h : Off u k x' x M) :
    Off u (k + 1) (ρ x') x M := by
  refine ⟨h.mag, ?_⟩
  have h1 := hr x'
  rw [max_eq_left (abs_nonneg x')] at h1
  have h2 := h.size hu hu1
  have h3 : u * |x'| ≤ u * ((1 - u)⁻¹ ^ k * M) := mul_le_mul_of_nonneg_left h2 hu
  have h4 := abs_sub_le (ρ x') x' x
  have h5 := h.off
  have hM : 0 ≤ M := (abs_nonneg _).trans h.mag
  have h6 : (1 + u) * ((1 - u)⁻¹ ^ k * M) ≤ (1 - u)⁻¹ * ((1 - u)⁻¹ ^ k * M) :=
    mul_le_mul_of_nonneg_right (grow_one hu hu1)
      (mul_nonneg (by linarith [grow_ge hu hu1 k]) hM)
  have h7 : (1 - u)⁻¹ ^ (k + 1) * M = (1 - u)⁻¹ * ((1 - u)⁻¹ ^ k * M) := by ring
  have h8 : ((1 - u)⁻¹ ^ (k + 1) - 1) * M = (1 - u)⁻¹ ^ (k + 1) * M - M := by ring
  have h9 : ((1 - u)⁻¹ ^ k - 1) * M = (1 - u)⁻¹ ^ k * M - M := by ring
  rw [h8, h7]
  rw [h9] at h5
  linarith

theorem Off.neg {k : ℕ} {x' x M : ℝ} (h : Off u k x' x M) : Off u k (-x') (-x) M :=
  ⟨by rw [abs_neg]; exact h.mag, by
    rw [show -x' - -x = -(x' - x) by ring, abs_neg]; exact h.off⟩

theorem Off.add {k : ℕ} {x' x y' y M N : ℝ} (h : Off u k x' x M) (g : Off u k y' y N) :
    Off u k (x' + y') (x + y) (M + N) := by
  refine ⟨(abs_add_le _ _).trans (add_le_add h.mag g.mag), ?_⟩
  rw [show x' + y' - (x + y) = (x' - x) + (y' - y) by ring]
  refine (abs_add_le _ _).trans ?_
  have := h.off
  have := g.off
  linarith

theorem Off.sub {k : ℕ} {x' x y' y M N : ℝ} (h : Off u k x' x M) (g : Off u k y' y N) :
    Off u k (x' - y') (x - y) (M + N) := by
  rw [sub_eq_add_neg, sub_eq_add_neg]
  exact h.add hu hu1 (g.neg hu hu1)

theorem Off.mul {j k : ℕ} {x' x y' y M N : ℝ} (h : Off u j x' x M) (g : Off u k y' y N) :
    Off u (j + k) (x' * y') (x * y) (M * N) := by
  have hM : 0 ≤ M := (abs_nonneg _).trans h.mag
  have hN : 0 ≤ N := (abs_nonneg _).trans g.mag
  refine ⟨by rw [abs_mul]; exact mul_le_mul h.mag g.mag (abs_nonneg _) hM, ?_⟩
  rw [show x' * y' - x * y = x' * (y' - y) + (x' - x) * y by ring]
  refine (abs_add_le _ _).trans ?_
  rw [abs_mul, abs_mul]
  have h1 : |x'| * |y' - y| ≤ (1 - u)⁻¹ ^ j * M * (((1 - u)⁻¹ ^ k - 1) * N) :=
    mul_le_mul (h.size hu hu1) g.off (abs_nonneg _)
      (mul_nonneg (by linarith [grow_ge hu hu1 j]) hM)
  have h2 : |x' - x| * |y| ≤ (((1 - u)⁻¹ ^ j - 1) * M) * N :=
    mul_le_mul h.off g.mag (abs_nonneg _) ((abs_nonneg _).trans h.off)
  calc _ ≤ _ := add_le_add h1 h2
    _ = _ := by rw [pow_add]; ring

theorem Ratio.off {k : ℕ} {x' x : ℝ} (h : Ratio u k x' x) : Off u k x' x x := by
  have hp : 0 < (1 - u) ^ k := pow_pos (by linarith) k
  have hle : (1 - u) ^ k ≤ 1 := pow_le_one₀ (by linarith) (by linarith)
  have hx := h.pos
  refine ⟨(abs_of_pos h.pos).le, ?_⟩
  rw [inv_pow]
  have h2 : x' ≤ x * ((1 - u) ^ k)⁻¹ := by
    rw [← div_eq_mul_inv, le_div_iff₀ hp]; exact h.hi
  have h1 := h.lo
  rw [abs_le]
  constructor
  · have : 2 ≤ (1 - u) ^ k + ((1 - u) ^ k)⁻¹ := by
      have h3 := mul_inv_cancel₀ hp.ne'
      set t := (1 - u) ^ k
      have h4 : 0 < t⁻¹ := inv_pos.2 hp
      nlinarith [sq_nonneg (t - t⁻¹), sq_nonneg (t + t⁻¹ - 2)]
    nlinarith
  · linarith

theorem Ratio.inv {k : ℕ} {x' x : ℝ} (h : Ratio u k x' x) : Ratio u k x'⁻¹ x⁻¹ := by
  refine ⟨inv_pos.2 h.pos, inv_pos.2 h.pos', ?_, ?_⟩
  · rw [inv_mul_le_iff₀ h.pos, ← div_eq_mul_inv, le_div_iff₀ h.pos', mul_comm]; exact h.hi
  · rw [inv_mul_le_iff₀ h.pos', ← div_eq_mul_inv, le_div_iff₀ h.pos, mul_comm]; exact h.lo

theorem Ratio.mono {j k : ℕ} {x' x : ℝ} (h : Ratio u j x' x) (hk : j ≤ k) : Ratio u k x' x := by
  have : (1 - u) ^ k ≤ (1 - u) ^ j := pow_le_pow_of_le_one (by linarith) (by linarith) hk
  exact ⟨h.pos, h.pos', (mul_le_mul_of_nonneg_left this h.pos.le).trans h.lo,
    (mul_le_mul_of_nonneg_left this h.pos'.le).trans h.hi⟩

theorem Ratio.add {k : ℕ} {x' x y' y : ℝ} (h : Ratio u k x' x) (g : Ratio u k y' y) :
    Ratio u k (x' + y') (x + y) :=
  ⟨add_pos h.pos g.pos, add_pos h.pos' g.pos', by rw [add_mul]; exact add_le_add h.lo g.lo,
    by rw [add_mul]; exact add_le_add h.hi g.hi⟩

theorem Ratio.mul {j k : ℕ} {x' x y' y : ℝ} (h : Ratio u j x' x) (g : Ratio u k y' y) :
    Ratio u (j + k) (x' * y') (x * y) := by
  have hp : ∀ k : ℕ, 0 ≤ (1 - u) ^ k := fun k => pow_nonneg (by linarith) k
  refine ⟨mul_pos h.pos g.pos, mul_pos h.pos' g.pos', ?_, ?_⟩
  · calc x * y * (1 - u) ^ (j + k) = x * (1 - u) ^ j * (y * (1 - u) ^ k) := by rw [pow_add]; ring
      _ ≤ _ := mul_le_mul h.lo g.lo (mul_nonneg g.pos.le (hp k)) h.pos'.le
  · calc x' * y' * (1 - u) ^ (j + k) = x' * (1 - u) ^ j * (y' * (1 - u) ^ k) := by rw [pow_add]; ring
      _ ≤ _ := mul_le_mul h.hi g.hi (mul_nonneg g.pos'.le (hp k)) h.pos.le

theorem Ratio.div {j k : ℕ} {x' x y' y : ℝ} (h : Ratio u j x' x) (g : Ratio u k y' y) :
    Ratio u (j + k) (x' / y') (x / y) := by
  rw [div_eq_mul_inv, div_eq_mul_inv]
  exact h.mul hu hu1 (g.inv hu hu1)

theorem Ratio.exact {x : ℝ} (h : 0 < x) : Ratio u 0 x x := ⟨h, h, by simp, by simp⟩

theorem Ratio.round (hr : Rounds u 0 ρ) {k : ℕ} {x' x : ℝ} (h : Ratio u k x' x) :
    Ratio u (k + 1) (ρ x') x := by
  have h1 := hr x'
  rw [max_eq_left (abs_nonneg x'), abs_of_pos h.pos', abs_le] at h1
  obtain ⟨h1, h2⟩ := h1
  have hx := h.pos
  have hx' := h.pos'
  have hp : 0 < (1 - u) ^ k := pow_pos (by linarith) k
  refine ⟨h.pos, by nlinarith, ?_, ?_⟩
  · calc x * (1 - u) ^ (k + 1) = x * (1 - u) ^ k * (1 - u) := by ring
      _ ≤ x' * (1 - u) := mul_le_mul_of_nonneg_right h.lo (by linarith)
      _ ≤ _ := by linarith
  · have h3 : ρ x' * (1 - u) ≤ x' := by nlinarith
    calc ρ x' * (1 - u) ^ (k + 1) = ρ x' * (1 - u) * (1 - u) ^ k := by ring
      _ ≤ x' * (1 - u) ^ k := mul_le_mul_of_nonneg_right h3 hp.le
      _ ≤ _ := h.hi

/-- Swapping the roles: the exact number is the rounded one with as many errors. -/
theorem Ratio.symm {k : ℕ} {x' x : ℝ} (h : Ratio u k x' x) : Ratio u k x x' :=
  ⟨h.pos', h.pos, h.hi, h.lo⟩

theorem Ratio.trans {j k : ℕ} {x y z : ℝ} (h : Ratio u j x y) (g : Ratio u k y z) :
    Ratio u (j + k) x z := by
  have := h.mul hu hu1 (g.mul hu hu1 (Ratio.exact hu hu1 (inv_pos.2 h.pos)))
  rw [add_zero, show x * (y * y⁻¹) = x by rw [mul_inv_cancel₀ h.pos.ne', mul_one],
    show y * (z * y⁻¹) = z by field_simp [h.pos.ne']] at this
  exact this

/-- Three products added up from the left. -/
theorem three_terms (hr : Rounds u 0 ρ) {k : ℕ} {a' a A b' b B c' c C f0 f1 f2 F : ℝ}
    (ha : Off u k a' a A) (hb : Off u k b' b B) (hc : Off u k c' c C)
    (h0 : |f0| ≤ F) (h1 : |f1| ≤ F) (h2 : |f2| ≤ F) :
    Off u (k + 3) (ρ (ρ (ρ (a' * f0) + ρ (b' * f1)) + ρ (c' * f2))) (a * f0 + b * f1 + c * f2)
      ((A + B + C) * F) := by
  have term : ∀ {x' x X g : ℝ}, Off u k x' x X → |g| ≤ F →
      Off u (k + 1) (ρ (x' * g)) (x * g) (X * F) := fun h hg =>
    ((h.mul hu hu1 ((Off.exact hu hu1 _).weaken hu hu1 hg)).round hu hu1 hr)
  have e1 := ((term ha h0).add hu hu1 (term hb h1)).round hu hu1 hr
  have e2 := ((e1.add hu hu1 ((term hc h2).mono hu hu1 (Nat.le_succ _))).round hu hu1 hr)
  refine e2.weaken hu hu1 (le_of_eq (by ring))


/-- Errors in two stages. -/
theorem Off.trans {j k : ℕ} {x y z M N : ℝ} (h : Off u j x y M) (g : Off u k y z N)
    (hM : M ≤ (1 - u)⁻¹ ^ k * N) : Off u (j + k) x z N := by
  refine ⟨g.mag, ?_⟩
  have h1 := abs_sub_le x y z
  have h2 := h.off
  have h3 := g.off
  have h4 : ((1 - u)⁻¹ ^ j - 1) * M ≤ ((1 - u)⁻¹ ^ j - 1) * ((1 - u)⁻¹ ^ k * N) :=
    mul_le_mul_of_nonneg_left hM (by linarith [grow_ge hu hu1 j])
  have h5 : ((1 - u)⁻¹ ^ (j + k) - 1) * N
      = ((1 - u)⁻¹ ^ j - 1) * ((1 - u)⁻¹ ^ k * N) + ((1 - u)⁻¹ ^ k - 1) * N := by rw [pow_add]; ring
  linarith

section
variable (hr : Rounds u 0 ρ) {d1 d2 d1' d2' : ℝ} (h1 : Ratio u 1 d1' d1) (h2 : Ratio u 1 d2' d2)
include hr h1 h2

/-- The outer weight at an end. -/
theorem weight_end : Ratio u 9 (ρ (ρ (ρ (ρ (2.0 : ℝ) * d1') + d2') / ρ (d1' * ρ (d1' + d2'))))
    ((2 * d1 + d2) / (d1 * (d1 + d2))) := by
  have two : Ratio u 1 (ρ (2.0 : ℝ)) 2 := by
    have := (Ratio.exact hu hu1 (x := (2.0 : ℝ)) (by norm_num)).round hu hu1 hr
    norm_num at this ⊢; exact this
  have num := ((((two.mul hu hu1 h1).round hu hu1 hr).add hu hu1 (h2.mono hu hu1 (k := 3) (by omega))).round
    hu hu1 hr)
  have den := (h1.mul hu hu1 ((h1.add hu hu1 h2).round hu hu1 hr)).round hu hu1 hr
  exact (num.div hu hu1 den).round hu hu1 hr

/-- The middle weight at an end. -/
theorem weight_mid : Ratio u 6 (ρ (ρ (d1' + d2') / ρ (d1' * d2'))) ((d1 + d2) / (d1 * d2)) :=
  ((((h1.add hu hu1 h2).round hu hu1 hr).div hu hu1 ((h1.mul hu hu1 h2).round hu hu1 hr)).round hu hu1 hr).mono
    hu hu1 (by omega)

/-- The far weight. -/
theorem weight_far : Ratio u 6 (ρ (d1' / ρ (d2' * ρ (d1' + d2')))) (d1 / (d2 * (d1 + d2))) :=
  (h1.div hu hu1 ((h2.mul hu hu1 ((h1.add hu hu1 h2).round hu hu1 hr)).round hu hu1 hr)).round hu hu1 hr

/-- The middle weight inside. -/
theorem weight_inner : Off u 6 (ρ (ρ (d2' - d1') / ρ (d1' * d2'))) ((d2 - d1) / (d1 * d2))
    ((d1 + d2) / (d1 * d2)) := by
  have den := ((h1.mul hu hu1 h2).round hu hu1 hr).inv hu hu1
  have num := ((h2.off hu hu1).sub hu hu1 (h1.off hu hu1)).round hu hu1 hr
  have := (num.mul hu hu1 (den.off hu hu1)).round hu hu1 hr
  rw [← div_eq_mul_inv, ← div_eq_mul_inv, ← div_eq_mul_inv, add_comm d2 d1] at this
  exact this.mono hu hu1 (by omega)

end

section
variable {d1 d2 h' : ℝ} (h1 : Ratio u 1 h' d1) (h2 : Ratio u 1 h' d2)
include h1 h2

/-- With equal computed spacings the weights of equal spacing are near the exact ones. -/
theorem equal_end : Ratio u 3 (1.5 / h') ((2 * d1 + d2) / (d1 * (d1 + d2))) := by
  have num := ((Ratio.exact hu hu1 (x := (2 : ℝ)) (by norm_num)).mul hu hu1 h1).add hu hu1
    (h2.mono hu hu1 (k := 0 + 1) (by omega))
  have := num.div hu hu1 (h1.mul hu hu1 (h1.add hu hu1 h2))
  have h0 := h1.pos'
  rw [show (2 * h' + h') / (h' * (h' + h')) = 1.5 / h' by field_simp; norm_num] at this
  exact this

theorem equal_mid : Ratio u 3 (2 / h') ((d1 + d2) / (d1 * d2)) := by
  have := (h1.add hu hu1 h2).div hu hu1 (h1.mul hu hu1 h2)
  have h0 := h1.pos'
  rw [show (h' + h') / (h' * h') = 2 / h' by field_simp; norm_num] at this
  exact this

theorem equal_far : Ratio u 3 (0.5 / h') (d1 / (d2 * (d1 + d2))) := by
  have := h1.div hu hu1 (h2.mul hu hu1 (h1.add hu hu1 h2))
  have h0 := h1.pos'
  rw [show h' / (h' * (h' + h')) = 0.5 / h' by field_simp; norm_num] at this
  exact this

theorem equal_inner : Off u 3 0 ((d2 - d1) / (d1 * d2)) ((d1 + d2) / (d1 * d2)) := by
  have := ((h2.off hu hu1).sub hu hu1 (h1.off hu hu1)).mul hu hu1 (((h1.mul hu hu1 h2).inv hu hu1).off hu hu1)
  rw [sub_self, zero_mul, ← div_eq_mul_inv, ← div_eq_mul_inv, add_comm d2 d1] at this
  exact this

end

/-- A literal divided by the spacing. -/
theorem literal_weight (hr : Rounds u 0 ρ) {c h' w : ℝ} (hc : 0 < c) (h : Ratio u 3 (c / h') w) (hh : 0 < h') :
    Ratio u 5 (ρ (ρ c / h')) w := by
  have h1 := ((((Ratio.exact hu hu1 hc).round hu hu1 hr).div hu hu1 (Ratio.exact hu hu1 hh)).round hu hu1 hr)
  exact (h1.trans hu hu1 h).mono hu hu1 (by omega)

end

/-! ## The gradient at one level -/

section
variable {x0 x1 x2 : ℝ} (h1 : 0 < x1 - x0) (h2 : 0 < x2 - x1) (f0 f1 f2 : ℝ)
include h1 h2

theorem parabola_top : parabolaDeriv x0 x1 x2 f0 f1 f2 x0
    = -((2 * (x1 - x0) + (x2 - x1)) / ((x1 - x0) * ((x1 - x0) + (x2 - x1)))) * f0
      + ((x1 - x0) + (x2 - x1)) / ((x1 - x0) * (x2 - x1)) * f1
      + -((x1 - x0) / ((x2 - x1) * ((x1 - x0) + (x2 - x1)))) * f2 := by
  unfold parabolaDeriv
  have e1 : x0 - x1 ≠ 0 := by intro h; linarith
  have e2 : x0 - x2 ≠ 0 := by intro h; linarith
  have e3 : x1 - x2 ≠ 0 := by intro h; linarith
  have e4 : x1 - x0 + (x2 - x1) ≠ 0 := by intro h; linarith
  have e5 : x2 - x0 ≠ 0 := by intro h; linarith
  have e6 := h1.ne'
  have e7 := h2.ne'
  field_simp
  ring

theorem parabola_bottom : parabolaDeriv x0 x1 x2 f0 f1 f2 x2
    = (x2 - x1) / ((x1 - x0) * ((x1 - x0) + (x2 - x1))) * f0
      + -(((x2 - x1) + (x1 - x0)) / ((x1 - x0) * (x2 - x1))) * f1
      + (2 * (x2 - x1) + (x1 - x0)) / ((x2 - x1) * ((x1 - x0) + (x2 - x1))) * f2 := by
  unfold parabolaDeriv
  have e1 : x0 - x1 ≠ 0 := by intro h; linarith
  have e2 : x0 - x2 ≠ 0 := by intro h; linarith
  have e3 : x1 - x2 ≠ 0 := by intro h; linarith
  have e4 : x1 - x0 + (x2 - x1) ≠ 0 := by intro h; linarith
  have e5 : x2 - x0 ≠ 0 := by intro h; linarith
  have e6 := h1.ne'
  have e7 := h2.ne'
  field_simp
  ring

theorem parabola_inner : parabolaDeriv x0 x1 x2 f0 f1 f2 x1
    = -((x2 - x1) / ((x1 - x0) * ((x1 - x0) + (x2 - x1)))) * f0
      + ((x2 - x1) - (x1 - x0)) / ((x1 - x0) * (x2 - x1)) * f1
      + (x1 - x0) / ((x2 - x1) * ((x1 - x0) + (x2 - x1))) * f2 := by
  unfold parabolaDeriv
  have e1 : x0 - x1 ≠ 0 := by intro h; linarith
  have e2 : x0 - x2 ≠ 0 := by intro h; linarith
  have e3 : x1 - x2 ≠ 0 := by intro h; linarith
  have e4 : x1 - x0 + (x2 - x1) ≠ 0 := by intro h; linarith
  have e5 : x2 - x0 ≠ 0 := by intro h; linarith
  have e6 := h1.ne'
  have e7 := h2.ne'
  field_simp
  ring

end

theorem weights_end {d1 d2 : ℝ} (h1 : 0 < d1) (h2 : 0 < d2) :
    (2 * d1 + d2) / (d1 * (d1 + d2)) + (d1 + d2) / (d1 * d2) + d1 / (d2 * (d1 + d2)) = 2 / d1 + 2 / d2 := by
  field_simp
  ring

theorem weights_inner {d1 d2 : ℝ} (h1 : 0 < d1) (h2 : 0 < d2) :
    d2 / (d1 * (d1 + d2)) + (d1 + d2) / (d1 * d2) + d1 / (d2 * (d1 + d2)) ≤ 2 / d1 + 2 / d2 := by
  have e1 : d2 / (d1 * (d1 + d2)) ≤ 1 / d1 := by
    rw [div_le_div_iff₀ (by positivity) h1]; nlinarith
  have e2 : d1 / (d2 * (d1 + d2)) ≤ 1 / d2 := by
    rw [div_le_div_iff₀ (by positivity) h2]; nlinarith
  have e3 : (d1 + d2) / (d1 * d2) = 1 / d1 + 1 / d2 := by field_simp; ring
  have e4 : 2 / d1 = 1 / d1 + 1 / d1 := by ring
  have e5 : 2 / d2 = 1 / d2 + 1 / d2 := by ring
  linarith

section
variable (hu : 0 ≤ u) (hu1 : u < 1) (hr : Rounds u 0 ρ) {x0 x1 x2 f0 f1 f2 F : ℝ}
  (b0 : |f0| ≤ F) (b1 : |f1| ≤ F) (b2 : |f2| ≤ F)
include hu hu1 hr b0 b1 b2

section
variable {d1' d2' : ℝ} (h1 : Ratio u 1 d1' (x1 - x0)) (h2 : Ratio u 1 d2' (x2 - x1))
include h1 h2

theorem gradient_top :
    Off u 12 (ρ (ρ (ρ (ρ (-ρ (ρ (ρ (2.0 : ℝ) * d1') + d2') / ρ (d1' * ρ (d1' + d2'))) * f0)
        + ρ (ρ (ρ (d1' + d2') / ρ (d1' * d2')) * f1))
        + ρ (ρ (-d1' / ρ (d2' * ρ (d1' + d2'))) * f2)))
      (parabolaDeriv x0 x1 x2 f0 f1 f2 x0) ((2 / (x1 - x0) + 2 / (x2 - x1)) * F) := by
  rw [parabola_top h1.pos h2.pos, ← weights_end h1.pos h2.pos]
  have two : Ratio u 1 (ρ (2.0 : ℝ)) 2 := by
    have := (Ratio.exact hu hu1 (x := (2.0 : ℝ)) (by norm_num)).round hu hu1 hr
    norm_num at this ⊢; exact this
  have num := ((((two.mul hu hu1 h1).round hu hu1 hr).add hu hu1 (h2.mono hu hu1 (k := 3) (by omega))).round
    hu hu1 hr)
  have den := (h1.mul hu hu1 ((h1.add hu hu1 h2).round hu hu1 hr)).round hu hu1 hr
  have den2 := (h2.mul hu hu1 ((h1.add hu hu1 h2).round hu hu1 hr)).round hu hu1 hr
  have wa := (((num.div hu hu1 den).off hu hu1).neg hu hu1).round hu hu1 hr
  have wc := (((h1.div hu hu1 den2).off hu hu1).neg hu hu1).round hu hu1 hr
  rw [← neg_div] at wa wc
  have wb := (weight_mid hu hu1 hr h1 h2).off hu hu1
  exact three_terms hu hu1 hr (k := 9) wa (wb.mono hu hu1 (by omega)) (wc.mono hu hu1 (by omega)) b0 b1 b2

theorem gradient_bottom :
    Off u 12 (ρ (ρ (ρ (ρ (d2' / ρ (d1' * ρ (d1' + d2'))) * f0)
        + ρ (ρ (-ρ (d2' + d1') / ρ (d1' * d2')) * f1))
        + ρ (ρ (ρ (ρ (ρ (2.0 : ℝ) * d2') + d1') / ρ (d2' * ρ (d1' + d2'))) * f2)))
      (parabolaDeriv x0 x1 x2 f0 f1 f2 x2) ((2 / (x1 - x0) + 2 / (x2 - x1)) * F) := by
  rw [parabola_bottom h1.pos h2.pos]
  have wc := (weight_end hu hu1 hr h2 h1).off hu hu1
  have wa := (weight_far hu hu1 hr h2 h1).off hu hu1
  have wb := (((((h2.add hu hu1 h1).round hu hu1 hr).div hu hu1
    ((h1.mul hu hu1 h2).round hu hu1 hr)).off hu hu1).neg hu hu1).round hu hu1 hr
  rw [add_comm d2' d1', add_comm (x2 - x1) (x1 - x0)] at wc wa
  rw [← neg_div] at wb
  have := three_terms hu hu1 hr (k := 9) (wa.mono hu hu1 (by omega)) (wb.mono hu hu1 (by omega)) wc b0 b1 b2
  refine this.weaken hu hu1 (le_of_eq ?_)
  rw [← weights_end h1.pos h2.pos]
  have e := weights_end h1.pos h2.pos
  have e' := weights_end h2.pos h1.pos
  rw [add_comm (x2 - x1) (x1 - x0), mul_comm (x2 - x1) (x1 - x0)] at e'
  congr 1
  rw [add_comm (x2 - x1) (x1 - x0)]
  linarith

theorem gradient_inner :
    Off u 12 (ρ (ρ (ρ (ρ (-d2' / ρ (d1' * ρ (d1' + d2'))) * f0)
        + ρ (ρ (ρ (d2' - d1') / ρ (d1' * d2')) * f1))
        + ρ (ρ (d1' / ρ (d2' * ρ (d1' + d2'))) * f2)))
      (parabolaDeriv x0 x1 x2 f0 f1 f2 x1) ((2 / (x1 - x0) + 2 / (x2 - x1)) * F) := by
  rw [parabola_inner h1.pos h2.pos]
  have den := (h1.mul hu hu1 ((h1.add hu hu1 h2).round hu hu1 hr)).round hu hu1 hr
  have wa := (((h2.div hu hu1 den).off hu hu1).neg hu hu1).round hu hu1 hr
  rw [← neg_div] at wa
  have wc := (weight_far hu hu1 hr h1 h2).off hu hu1
  have wb := weight_inner hu hu1 hr h1 h2
  have := three_terms hu hu1 hr (k := 9) (wa.mono hu hu1 (by omega)) (wb.mono hu hu1 (by omega))
    (wc.mono hu hu1 (by omega)) b0 b1 b2
  exact this.weaken hu hu1 (mul_le_mul_of_nonneg_right (weights_inner h1.pos h2.pos)
    ((abs_nonneg _).trans b0))

end

section
variable {h' : ℝ} (h1 : Ratio u 1 h' (x1 - x0)) (h2 : Ratio u 1 h' (x2 - x1))
include h1 h2

theorem gradient_top_equal :
    Off u 12 (ρ (ρ (ρ (ρ (-ρ (1.5 : ℝ) / h') * f0) + ρ (ρ (ρ (2.0 : ℝ) / h') * f1))
        + ρ (ρ (-ρ (0.5 : ℝ) / h') * f2)))
      (parabolaDeriv x0 x1 x2 f0 f1 f2 x0) ((2 / (x1 - x0) + 2 / (x2 - x1)) * F) := by
  rw [parabola_top h1.pos h2.pos, ← weights_end h1.pos h2.pos]
  have exact_lit : ∀ {c w : ℝ}, 0 < c → Ratio u 3 (c / h') w → Ratio u 4 (ρ c / h') w := fun hc h => by
    have := (((Ratio.exact hu hu1 hc).round hu hu1 hr).div hu hu1 (Ratio.exact hu hu1 h1.pos'))
    exact (this.trans hu hu1 h).mono hu hu1 (by omega)
  have two := equal_mid hu hu1 h1 h2
  rw [show (2 : ℝ) = 2.0 by norm_num] at two
  have wa := (((exact_lit (by norm_num) (equal_end hu hu1 h1 h2)).off hu hu1).neg hu hu1).round hu hu1 hr
  have wb := ((exact_lit (by norm_num) two).off hu hu1).round hu hu1 hr
  have wc := (((exact_lit (by norm_num) (equal_far hu hu1 h1 h2)).off hu hu1).neg hu hu1).round hu hu1 hr
  rw [← neg_div] at wa wc
  exact three_terms hu hu1 hr (k := 9) (wa.mono hu hu1 (by omega)) (wb.mono hu hu1 (by omega))
    (wc.mono hu hu1 (by omega)) b0 b1 b2

theorem gradient_bottom_equal :
    Off u 12 (ρ (ρ (ρ (ρ (ρ (0.5 : ℝ) / h') * f0) + ρ (ρ (-ρ (2.0 : ℝ) / h') * f1))
        + ρ (ρ (ρ (1.5 : ℝ) / h') * f2)))
      (parabolaDeriv x0 x1 x2 f0 f1 f2 x2) ((2 / (x1 - x0) + 2 / (x2 - x1)) * F) := by
  rw [parabola_bottom h1.pos h2.pos]
  have exact_lit : ∀ {c w : ℝ}, 0 < c → Ratio u 3 (c / h') w → Ratio u 4 (ρ c / h') w := fun hc h => by
    have := (((Ratio.exact hu hu1 hc).round hu hu1 hr).div hu hu1 (Ratio.exact hu hu1 h1.pos'))
    exact (this.trans hu hu1 h).mono hu hu1 (by omega)
  have two := equal_mid hu hu1 h1 h2
  rw [show (2 : ℝ) = 2.0 by norm_num] at two
  have wa := ((exact_lit (by norm_num) (equal_far hu hu1 h2 h1)).off hu hu1).round hu hu1 hr
  have wb := (((exact_lit (by norm_num) two).off hu hu1).neg hu hu1).round hu hu1 hr
  have wc := ((exact_lit (by norm_num) (equal_end hu hu1 h2 h1)).off hu hu1).round hu hu1 hr
  rw [← neg_div] at wb
  have := three_terms hu hu1 hr (k := 9) (wa.mono hu hu1 (by omega)) (wb.mono hu hu1 (by omega))
    (wc.mono hu hu1 (by omega)) b0 b1 b2
  rw [add_comm (x2 - x1) (x1 - x0)] at this ⊢
  refine this.weaken hu hu1 (le_of_eq ?_)
  have e' := weights_end h2.pos h1.pos
  rw [add_comm (x2 - x1) (x1 - x0), mul_comm (x2 - x1) (x1 - x0)] at e'
  congr 1
  linarith

theorem gradient_inner_equal :
    Off u 12 (ρ (ρ (f2 - f0) / ρ (ρ (2.0 : ℝ) * h')))
      (parabolaDeriv x0 x1 x2 f0 f1 f2 x1) ((2 / (x1 - x0) + 2 / (x2 - x1)) * F) := by
  have hF : 0 ≤ F := (abs_nonneg _).trans b0
  have hh := h1.pos'
  have two : Ratio u 1 (ρ (2.0 : ℝ)) 2 := by
    have := (Ratio.exact hu hu1 (x := (2.0 : ℝ)) (by norm_num)).round hu hu1 hr
    norm_num at this ⊢; exact this
  have num : Off u 1 (ρ (f2 - f0)) (f2 - f0) (F + F) :=
    (((Off.exact hu hu1 f2).weaken hu hu1 b2).sub hu hu1 ((Off.exact hu hu1 f0).weaken hu hu1 b0)).round hu hu1 hr
  have den := (((two.mul hu hu1 (Ratio.exact hu hu1 hh)).round hu hu1 hr).inv hu hu1).off hu hu1
  have s1 := (num.mul hu hu1 den).round hu hu1 hr
  rw [← div_eq_mul_inv, ← div_eq_mul_inv, ← div_eq_mul_inv] at s1
  rw [parabola_inner h1.pos h2.pos]
  have wa := ((equal_far hu hu1 h2 h1).off hu hu1).neg hu hu1
  have wb := equal_inner hu hu1 h1 h2
  have wc := (equal_far hu hu1 h1 h2).off hu hu1
  have ex : ∀ {f : ℝ}, |f| ≤ F → Off u 0 f f F := fun h => (Off.exact hu hu1 _).weaken hu hu1 h
  have s2 := ((wa.mul hu hu1 (ex b0)).add hu hu1 (wb.mul hu hu1 (ex b1))).add hu hu1 (wc.mul hu hu1 (ex b2))
  rw [add_comm (x2 - x1) (x1 - x0)] at s2
  have e1 : -(0.5 / h') * f0 + 0 * f1 + 0.5 / h' * f2 = (f2 - f0) / (2 * h') := by field_simp; norm_num; ring
  rw [e1] at s2
  have w1 := weights_inner h1.pos h2.pos
  have w2 := (equal_far hu hu1 h1 h2).off hu hu1 |>.size hu hu1
  have w3 := (equal_far hu hu1 h2 h1).off hu hu1 |>.size hu hu1
  have p1 : 0 < 0.5 / h' := by positivity
  rw [abs_of_pos p1] at w2 w3
  rw [add_comm (x2 - x1) (x1 - x0)] at w3
  have hmid : 0 ≤ ((x1 - x0) + (x2 - x1)) / ((x1 - x0) * (x2 - x1)) := (equal_mid hu hu1 h1 h2).pos.le
  have g3 := grow_ge hu hu1 3
  have s3 := s1.trans hu hu1 s2 (by
    have e2 : (F + F) / (2 * h') = (0.5 / h' + 0.5 / h') * F := by field_simp; norm_num; ring
    rw [e2]
    refine (mul_le_mul_of_nonneg_right (add_le_add w3 w2) hF).trans ?_
    have : 0 ≤ (1 - u)⁻¹ ^ 3 * (((x1 - x0) + (x2 - x1)) / ((x1 - x0) * (x2 - x1)) * F) :=
      mul_nonneg (by linarith) (mul_nonneg hmid hF)
    simp only [add_zero]
    linarith)
  refine (s3.mono hu hu1 (by omega)).weaken hu hu1 ?_
  rw [← add_mul, ← add_mul]
  exact mul_le_mul_of_nonneg_right w1 hF

end

end

theorem off_bound (hu : 0 ≤ u) (hu1 : u ≤ 1 / 10 ^ 6) {x' x M : ℝ} (h : Off u 12 x' x M) :
    |x' - x| ≤ 12.001 * u * M := by
  have hM : 0 ≤ M := (abs_nonneg _).trans h.mag
  refine h.off.trans (mul_le_mul_of_nonneg_right ?_ hM)
  have h1 : (1 - u)⁻¹ ≤ 1 + 1.000002 * u := by
    rw [inv_le_iff_one_le_mul₀ (by linarith)]
    nlinarith
  have h2 : (1 - u)⁻¹ ^ 12 ≤ (1 + 1.000002 * u) ^ 12 :=
    pow_le_pow_left₀ (inv_nonneg.2 (by linarith)) h1 12
  set t := 1.000002 * u with ht
  have t0 : 0 ≤ t := by positivity
  have t1 : t ≤ 1.000002 / 10 ^ 6 := by rw [ht]; linarith
  have h3 : (1 + t) ^ 12 ≤ 1 + 12 * t + 67 * t ^ 2 := by
    have a2 : (1 + t) ^ 2 = 1 + 2 * t + t ^ 2 := by ring
    have a3 : (1 + t) ^ 3 ≤ 1 + 3 * t + 3.001 * t ^ 2 := by nlinarith [pow_nonneg t0 2, pow_nonneg t0 3]
    have a6 : (1 + t) ^ 6 ≤ 1 + 6 * t + 15.1 * t ^ 2 := by
      calc (1 + t) ^ 6 = ((1 + t) ^ 3) ^ 2 := by ring
        _ ≤ (1 + 3 * t + 3.001 * t ^ 2) ^ 2 := pow_le_pow_left₀ (by positivity) a3 2
        _ ≤ _ := by nlinarith [pow_nonneg t0 2, pow_nonneg t0 3, mul_le_mul_of_nonneg_left t1 (pow_nonneg t0 2), mul_le_mul_of_nonneg_left t1 (pow_nonneg t0 3)]
    calc (1 + t) ^ 12 = ((1 + t) ^ 6) ^ 2 := by ring
      _ ≤ (1 + 6 * t + 15.1 * t ^ 2) ^ 2 := pow_le_pow_left₀ (by positivity) a6 2
      _ ≤ _ := by nlinarith [pow_nonneg t0 2, pow_nonneg t0 3, mul_le_mul_of_nonneg_left t1 (pow_nonneg t0 2), mul_le_mul_of_nonneg_left t1 (pow_nonneg t0 3)]
  have h4 : t ^ 2 ≤ t * (1.000002 / 10 ^ 6) := by rw [sq]; exact mul_le_mul_of_nonneg_left t1 t0
  have h5 : (1 - u)⁻¹ ^ 12 - 1 ≤ 12 * t + 67 * (t * (1.000002 / 10 ^ 6)) := by linarith
  refine h5.trans ?_
  rw [ht]
  linarith

/-- The computed spacing. -/
theorem spacing_ratio (hu : 0 ≤ u) (hu1 : u < 1) (hr : Rounds u 0 ρ) {a b : ℝ} (h : a < b) :
    Ratio u 1 (ρ (b - a)) (b - a) :=
  (Ratio.exact hu hu1 (sub_pos.2 h)).round hu hu1 hr

theorem gradient_off (hu : 0 ≤ u) (hu1 : u < 1) (hr : Rounds u 0 ρ) {n : ℕ} (hn : 3 ≤ n) {x f : ℕ → ℝ}
    {i : ℕ} (hi : i < n) (hx : ∀ k, k + 1 < n → x k < x (k + 1)) {F : ℝ} (hF : ∀ k < n, |f k| ≤ F) :
    Off u 12 (gradientPoint Rd.same n (fun k => (⟨x k⟩ : Rd ρ)) (fun k => ⟨f k⟩) i).val (derivAt n x f i)
      ((2 / (x (stencil n i + 1) - x (stencil n i)) + 2 / (x (stencil n i + 2) - x (stencil n i + 1))) * F) := by
  have hd : ∀ k, k + 1 < n → Ratio u 1 (ρ (x (k + 1) - x k)) (x (k + 1) - x k) :=
    fun k hk => spacing_ratio hu hu1 hr (hx k hk)
  unfold gradientPoint derivAt
  dsimp only
  by_cases h0 : ((List.range (n - 1)).all fun k =>
      (({ val := x (k + 1) } : Rd ρ) - { val := x k }).same ({ val := x (0 + 1) } - { val := x 0 })) = true
  · rw [if_pos h0]
    have heq : ∀ k, k + 1 < n → ρ (x (k + 1) - x k) = ρ (x 1 - x 0) := by
      intro k hk
      have := List.all_eq_true.1 h0 k (List.mem_range.2 (by omega))
      simp only [Rd.same, decide_eq_true_eq] at this
      exact this
    have hs : ∀ k, k + 1 < n → Ratio u 1 (ρ (x 1 - x 0)) (x (k + 1) - x k) := fun k hk => by
      rw [← heq k hk]; exact hd k hk
    by_cases h1 : i = 0
    · subst h1
      rw [if_pos rfl, show stencil n 0 = 0 from rfl]
      exact gradient_top_equal hu hu1 hr (hF 0 (by omega)) (hF 1 (by omega)) (hF 2 (by omega))
        (hs 0 (by omega)) (hs 1 (by omega))
    · rw [if_neg h1]
      by_cases h2 : i + 1 = n
      · rw [if_pos h2, show stencil n i = n - 3 by simp [stencil, h1, h2]]
        obtain ⟨m, rfl⟩ : ∃ m, n = m + 3 := ⟨n - 3, by omega⟩
        obtain rfl : i = m + 2 := by omega
        exact gradient_bottom_equal hu hu1 hr (hF m (by omega)) (hF (m + 1) (by omega)) (hF (m + 2) (by omega))
          (hs m (by omega)) (hs (m + 1) (by omega))
      · rw [if_neg h2, show stencil n i = i - 1 by simp [stencil, h1, h2]]
        obtain ⟨m, rfl⟩ : ∃ m, i = m + 1 := ⟨i - 1, by omega⟩
        exact gradient_inner_equal hu hu1 hr (hF m (by omega)) (hF (m + 1) (by omega)) (hF (m + 2) (by omega))
          (hs m (by omega)) (hs (m + 1) (by omega))
  · rw [if_neg h0]
    by_cases h1 : i = 0
    · subst h1
      rw [if_pos rfl, show stencil n 0 = 0 from rfl]
      exact gradient_top hu hu1 hr (hF 0 (by omega)) (hF 1 (by omega)) (hF 2 (by omega))
        (hd 0 (by omega)) (hd 1 (by omega))
    · rw [if_neg h1]
      by_cases h2 : i + 1 = n
      · rw [if_pos h2, show stencil n i = n - 3 by simp [stencil, h1, h2]]
        obtain ⟨m, rfl⟩ : ∃ m, n = m + 3 := ⟨n - 3, by omega⟩
        obtain rfl : i = m + 2 := by omega
        exact gradient_bottom hu hu1 hr (hF m (by omega)) (hF (m + 1) (by omega)) (hF (m + 2) (by omega))
          (hd m (by omega)) (hd (m + 1) (by omega))
      · rw [if_neg h2, show stencil n i = i - 1 by simp [stencil, h1, h2]]
        obtain ⟨m, rfl⟩ : ∃ m, i = m + 1 := ⟨i - 1, by omega⟩
        exact gradient_inner hu hu1 hr (hF m (by omega)) (hF (m + 1) (by omega)) (hF (m + 2) (by omega))
          (hd m (by omega)) (hd (m + 1) (by omega))

/-! ## C133 -/

/-- The gradient formulas at the floats of the model are `npGradient`, and `n2Column` is what `calcN2` yields. -/
theorem C133_model {th so : DA (Fl ℝ)} {z : Nat → Fl ℝ} {zc : String} {e : Env} {n : Nat} {x T S : Nat → ℝ}
    (c : TSColumn th so z zc e n x T S) (g pa : ℝ) :
    (∀ n x f i, gradientPoint (Fl.eqv (K := ℝ)) n x f i = npGradient n x f i) ∧
    ∃ r, calcN2 th so z "Wright" (fin g) (DA.scalar (fin pa)) zc = .ok r ∧
      r.get e = n2Column Wright.alpha Wright.beta Fl.eqv (fin g) (fin pa) n z
        (fun k => fin (T k)) (fun k => fin (S k)) (e zc) := by
  have fa : eosFuncFromStr "Wright" "alpha" = .ok (fun T S p : Fl ℝ => Wright.alpha T S p) := rfl
  have fb : eosFuncFromStr "Wright" "beta" = .ok (fun T S p : Fl ℝ => Wright.beta T S p) := rfl
  have hg : ∀ n (x f : ℕ → Fl ℝ) i, gradientPoint (Fl.eqv (K := ℝ)) n x f i = npGradient n x f i :=
    fun _ _ _ _ => rfl
  refine ⟨hg, ?_⟩
  obtain ⟨r, hr, hv⟩ := C19_formula c fa fb g (DA.scalar (fin pa)) (by simp) pa rfl
  refine ⟨r, hr, ?_⟩
  rw [hv]
  have h4 : (1.0e4 : Fl ℝ) = fin (10 ^ 4) := by rw [ofSci]; norm_num
  unfold n2Column colPressure
  rw [hg, hg, c.hz, npGradient_eq c.hn c.inj T c.he, npGradient_eq c.hn c.inj S c.he, h4]
  simp only [fin_mul, fin_add]

/-- Rounding error of the vertical gradient: levels at least `h` apart, values at most `M`. -/
theorem C133_gradient (F : Format u 0 ρ) {n : ℕ} (hn : 3 ≤ n) {x f : ℕ → ℝ} {i : ℕ} (hi : i < n) {h : ℝ}
    (hh : 0 < h) (hx : ∀ k, k + 1 < n → h ≤ x (k + 1) - x k) {M : ℝ} (hM : ∀ k < n, |f k| ≤ M) :
    |(gradientPoint Rd.same n (fun k => (⟨x k⟩ : Rd ρ)) (fun k => ⟨f k⟩) i).val - derivAt n x f i|
      ≤ 48.01 * u * (M / h) := by
  have hu := F.u0
  have hu1 := F.u1
  have h1 := off_bound hu hu1 (gradient_off hu (by linarith) F.rounds hn (x := x) hi
    (fun k hk => by linarith [hx k hk]) hM)
  have hs : stencil n i + 2 < n := by unfold stencil; split_ifs <;> omega
  have hM0 : 0 ≤ M := (abs_nonneg _).trans (hM 0 (by omega))
  have hd : ∀ k, k + 1 < n → 2 / (x (k + 1) - x k) ≤ 2 / h := fun k hk =>
    div_le_div_of_nonneg_left (by norm_num) hh (hx k hk)
  have e1 := hd (stencil n i) (by omega)
  have e2 := hd (stencil n i + 1) (by omega)
  refine h1.trans ?_
  have e3 : (2 / (x (stencil n i + 1) - x (stencil n i)) + 2 / (x (stencil n i + 2) - x (stencil n i + 1))) * M
      ≤ 4 * (M / h) := by
    calc _ ≤ (2 / h + 2 / h) * M := mul_le_mul_of_nonneg_right (add_le_add e1 e2) hM0
      _ = _ := by ring
  have e4 := mul_le_mul_of_nonneg_left e3 (show 0 ≤ 12.001 * u by positivity)
  have e5 : 0 ≤ u * (M / h) := by positivity
  linarith

theorem column_coefficients (F : Format u 0 ρ) {T S z pa : ℝ} (hT : -2 ≤ T ∧ T ≤ 40)
    (hS : 0 ≤ S ∧ S ≤ 42) (hz : 0 ≤ z ∧ z ≤ 9900) (hp : 0 ≤ pa ∧ pa ≤ 10 ^ 6) :
    (|Wright.alpha T S (colPressure pa z)| ≤ 0.0045 ∧
      |(Wright.alpha (⟨T⟩ : Rd ρ) ⟨S⟩ (colPressure ⟨pa⟩ ⟨z⟩)).val - Wright.alpha T S (colPressure pa z)|
        ≤ 0.452 * u) ∧
    |Wright.beta T S (colPressure pa z)| ≤ 0.0023 ∧
      |(Wright.beta (⟨T⟩ : Rd ρ) ⟨S⟩ (colPressure ⟨pa⟩ ⟨z⟩)).val - Wright.beta T S (colPressure pa z)|
        ≤ 0.195 * u := by
  obtain ⟨a1, a2, a3⟩ := Ex.check_sound F.rounds F.u0 (U := 1 / 10 ^ 6) (by push_cast; exact F.u1) F.w0
    (W := 1 / 10 ^ 30) (by push_cast; exact F.w1) (column_box hT hS hz hp)
    (Wright.alpha (.var 0) (.var 1) (colPressure (.var 3) (.var 2))) (lo := -45 / 10000) (hi := 45 / 10000)
    (err := 452 / 1000) (by decide +kernel)
  obtain ⟨b1, b2, b3⟩ := Ex.check_sound F.rounds F.u0 (U := 1 / 10 ^ 6) (by push_cast; exact F.u1) F.w0
    (W := 1 / 10 ^ 30) (by push_cast; exact F.w1) (column_box hT hS hz hp)
    (Wright.beta (.var 0) (.var 1) (colPressure (.var 3) (.var 2))) (lo := -23 / 10000) (hi := 23 / 10000)
    (err := 195 / 1000) (by decide +kernel)
  push_cast at a1 a2 a3 b1 b2 b3
  have c1 : (452 / 1000 : ℝ) = 0.452 := by norm_num
  have c2 : (195 / 1000 : ℝ) = 0.195 := by norm_num
  have c3 : (-45 / 10000 : ℝ) = -0.0045 := by norm_num
  have c4 : (45 / 10000 : ℝ) = 0.0045 := by norm_num
  have c5 : (-23 / 10000 : ℝ) = -0.0023 := by norm_num
  have c6 : (23 / 10000 : ℝ) = 0.0023 := by norm_num
  rw [c3] at a1
  rw [c4] at a2
  rw [c1] at a3
  rw [c5] at b1
  rw [c6] at b2
  rw [c2] at b3
  exact ⟨⟨abs_le.2 ⟨a1, a2⟩, a3⟩, abs_le.2 ⟨b1, b2⟩, b3⟩

/-- One product of a coefficient and a gradient. -/
theorem coeff_product (hr : Rounds u 0 ρ) (hu : 0 ≤ u) (hu1 : u ≤ 1 / 10 ^ 6) {a a' d d' A E G : ℝ}
    (hA : |a| ≤ A) (ha : |a' - a| ≤ E * u) (hd : |d' - d| ≤ G * u) (hE : E ≤ 1) :
    |ρ (a' * d') - a * d| ≤ u * (E * |d| + (A + 10⁻¹ ^ 6) * G + (A + 10⁻¹ ^ 6) * (|d| + G * u)) := by
  have h1 := hr (a' * d')
  rw [max_eq_left (abs_nonneg _)] at h1
  have hA0 := (abs_nonneg _).trans hA
  have hGu := (abs_nonneg _).trans hd
  have a1 : |a'| ≤ A + 10⁻¹ ^ 6 := by
    have := abs_sub_abs_le_abs_sub a' a
    have h2 : E * u ≤ 10⁻¹ ^ 6 := by
      calc E * u ≤ 1 * u := mul_le_mul_of_nonneg_right hE hu
        _ ≤ _ := by norm_num at hu1 ⊢; exact hu1
    linarith
  have d1 : |d'| ≤ |d| + G * u := by
    have := abs_sub_abs_le_abs_sub d' d
    linarith
  have e1 : |a' * d'| ≤ (A + 10⁻¹ ^ 6) * (|d| + G * u) := by
    rw [abs_mul]
    exact mul_le_mul a1 d1 (abs_nonneg _) (by positivity)
  have e2 : |a' * d' - a * d| ≤ (A + 10⁻¹ ^ 6) * (G * u) + E * u * |d| := by
    rw [show a' * d' - a * d = a' * (d' - d) + (a' - a) * d by ring]
    refine (abs_add_le _ _).trans ?_
    rw [abs_mul, abs_mul]
    exact add_le_add (mul_le_mul a1 hd (abs_nonneg _) (by positivity))
      (mul_le_mul_of_nonneg_right ha (abs_nonneg _))
  have e3 := abs_sub_le (ρ (a' * d')) (a' * d') (a * d)
  have e4 := mul_le_mul_of_nonneg_left e1 hu
  linarith

/-- Rounding error of a difference or product, given the error of its argument. -/
theorem round_after (hr : Rounds u 0 ρ) (hu : 0 ≤ u) {x' x e m : ℝ} (h : |x' - x| ≤ u * e) (hm : |x| ≤ m) :
    |ρ x' - x| ≤ u * (e + m + u * e) := by
  have h1 := hr x'
  rw [max_eq_left (abs_nonneg _)] at h1
  have h2 := abs_sub_abs_le_abs_sub x' x
  have h3 : u * |x'| ≤ u * (m + u * e) := mul_le_mul_of_nonneg_left (by linarith) hu
  have h4 := abs_sub_le (ρ x') x' x
  linarith

theorem n2_error (F : Format u 0 ρ) {th so : DA (Fl ℝ)} {z : Nat → Fl ℝ} {e : Env} {n : Nat}
    {x T S : Nat → ℝ} (c : TSColumn th so z "z_l" e n x T S) (g : ℝ) {pa h : ℝ} (hh : 0 < h)
    (hx : ∀ k, k + 1 < n → h ≤ x (k + 1) - x k) (hz : 0 ≤ x (e "z_l") ∧ x (e "z_l") ≤ 9900)
    (hp : 0 ≤ pa ∧ pa ≤ 10 ^ 6) (hT : ∀ k < n, -2 ≤ T k ∧ T k ≤ 40) (hS : ∀ k < n, 0 ≤ S k ∧ S k ≤ 42) :
    ∃ r, calcN2 th so z "Wright" (fin g) (DA.scalar (fin pa)) = .ok r ∧ r.get e = fin (g * (Wright.alpha (T (e "z_l")) (S (e "z_l")) (x (e "z_l") * 10 ^ 4 + pa) * derivAt n x T (e "z_l")
          - Wright.beta (T (e "z_l")) (S (e "z_l")) (x (e "z_l") * 10 ^ 4 + pa) * derivAt n x S (e "z_l"))) ∧
      |(n2Column Wright.alpha Wright.beta Rd.same (⟨g⟩ : Rd ρ) ⟨pa⟩ n (fun k => ⟨x k⟩) (fun k => ⟨T k⟩)
          (fun k => ⟨S k⟩) (e "z_l")).val
          - g * (Wright.alpha (T (e "z_l")) (S (e "z_l")) (x (e "z_l") * 10 ^ 4 + pa) * derivAt n x T (e "z_l")
          - Wright.beta (T (e "z_l")) (S (e "z_l")) (x (e "z_l") * 10 ^ 4 + pa) * derivAt n x S (e "z_l"))|
        ≤ |g| * u * (0.47 * |derivAt n x T (e "z_l")| + 0.21 * |derivAt n x S (e "z_l")| + 14 / h) := by
  have fa : eosFuncFromStr "Wright" "alpha" = .ok (fun T S p : Fl ℝ => Wright.alpha T S p) := rfl
  have fb : eosFuncFromStr "Wright" "beta" = .ok (fun T S p : Fl ℝ => Wright.beta T S p) := rfl
  obtain ⟨r, hr, hv⟩ := C19_formula c fa fb g (DA.scalar (fin pa)) (by simp) pa rfl
  set i := e "z_l" with hi
  have hin : i < n := c.he
  have ho : Spec.Wright.Ocean (T i) (S i) (x i * 10 ^ 4 + pa) :=
    ⟨(hT i hin).1, (hT i hin).2, (hS i hin).1, (hS i hin).2, by nlinarith [hz.1, hp.1], by
      linarith [hz.2, hp.2]⟩
  have hlin : Linear.density (T i) (S i) (x i * 10 ^ 4 + pa) ≠ 0 := by
    rw [C02_linear_density]
    obtain ⟨h1, h2, h3, h4, -⟩ := ho
    have : 0 < 1000 - T i / 5 + 4 / 5 * S i := by linarith
    exact this.ne'
  obtain ⟨e1, e2, -⟩ := C02_float_finite (T i) (S i) (x i * 10 ^ 4 + pa) (C03_pos ho).1.ne' (C03_pos ho).2.ne' hlin
  rw [e1, e2, fin_mul, fin_mul, fin_sub, fin_mul] at hv
  refine ⟨r, hr, hv, ?_⟩
  have hu := F.u0
  have hu1 := F.u1
  obtain ⟨⟨a1, a2⟩, b1, b2⟩ := column_coefficients F (hT i hin) (hS i hin) hz hp
  have hcp : colPressure pa (x i) = x i * 10 ^ 4 + pa := by unfold colPressure; norm_num
  rw [hcp] at a1 a2 b1 b2
  have gT := C133_gradient F c.hn hin hh hx (f := T) (M := 40) (fun k hk => abs_le.2
    ⟨by linarith [(hT k hk).1], (hT k hk).2⟩)
  have gS := C133_gradient F c.hn hin hh hx (f := S) (M := 42) (fun k hk => abs_le.2
    ⟨by linarith [(hS k hk).1], (hS k hk).2⟩)
  rw [show 48.01 * u * (40 / h) = (1920.4 / h) * u by ring] at gT
  rw [show 48.01 * u * (42 / h) = (2016.42 / h) * u by ring] at gS
  have pX := coeff_product F.rounds hu hu1 a1 a2 gT (by norm_num)
  have pY := coeff_product F.rounds hu hu1 b1 b2 gS (by norm_num)
  show |ρ (g * ρ (ρ (_ * _) - ρ (_ * _))) - _| ≤ _
  set X' := ρ ((Wright.alpha (⟨T i⟩ : Rd ρ) ⟨S i⟩ (colPressure ⟨pa⟩ ⟨x i⟩)).val
    * (gradientPoint Rd.same n (fun k => (⟨x k⟩ : Rd ρ)) (fun k => ⟨T k⟩) i).val)
  set Y' := ρ ((Wright.beta (⟨T i⟩ : Rd ρ) ⟨S i⟩ (colPressure ⟨pa⟩ ⟨x i⟩)).val
    * (gradientPoint Rd.same n (fun k => (⟨x k⟩ : Rd ρ)) (fun k => ⟨S k⟩) i).val)
  set t := derivAt n x T i
  set s := derivAt n x S i
  set a := Wright.alpha (T i) (S i) (x i * 10 ^ 4 + pa)
  set b := Wright.beta (T i) (S i) (x i * 10 ^ 4 + pa)
  have k0 : 0 < 1 / h := by positivity
  have t0 := abs_nonneg t
  have s0 := abs_nonneg s
  have hk1 : 1920.4 / h = 1920.4 * (1 / h) := by ring
  have hk2 : 2016.42 / h = 2016.42 * (1 / h) := by ring
  have hk3 : 14 / h = 14 * (1 / h) := by ring
  rw [hk1] at pX
  rw [hk2] at pY
  rw [hk3]
  set k := 1 / h
  have uk : u * k ≤ 1 / 10 ^ 6 * k := mul_le_mul_of_nonneg_right hu1 k0.le
  set Q := 0.4566 * |t| + 0.1974 * |s| + 13.29 * k with hQ
  have hm : |a * t - b * s| ≤ 0.0045 * |t| + 0.0023 * |s| := by
    refine (abs_sub _ _).trans ?_
    rw [abs_mul, abs_mul]
    exact add_le_add (mul_le_mul_of_nonneg_right a1 t0) (mul_le_mul_of_nonneg_right b1 s0)
  have hd : |(X' - Y') - (a * t - b * s)| ≤ u * Q := by
    rw [show (X' - Y') - (a * t - b * s) = (X' - a * t) - (Y' - b * s) by ring]
    refine (abs_sub _ _).trans ((add_le_add pX pY).trans ?_)
    rw [← mul_add]
    refine mul_le_mul_of_nonneg_left ?_ hu
    rw [hQ]
    norm_num at uk ⊢
    linarith
  have hZ := round_after F.rounds hu hd hm
  set m := 0.0045 * |t| + 0.0023 * |s| with hmd
  set Z' := ρ (X' - Y')
  have hW : |g * Z' - g * (a * t - b * s)| ≤ u * (|g| * (Q + m + u * Q)) := by
    rw [← mul_sub, abs_mul]
    calc |g| * |Z' - (a * t - b * s)| ≤ |g| * (u * (Q + m + u * Q)) :=
          mul_le_mul_of_nonneg_left hZ (abs_nonneg g)
      _ = _ := by ring
  have hm2 : |g * (a * t - b * s)| ≤ |g| * m := by
    rw [abs_mul]; exact mul_le_mul_of_nonneg_left hm (abs_nonneg g)
  refine (round_after F.rounds hu hW hm2).trans ?_
  have hQ0 : 0 ≤ Q := by positivity
  have hm0 : 0 ≤ m := by positivity
  have hin' : Q + m + u * Q ≤ 1.000001 * Q + m := by
    have := mul_le_mul_of_nonneg_right hu1 hQ0
    norm_num at this ⊢
    linarith
  have hfin : (Q + m + u * Q) + m + u * (Q + m + u * Q) ≤ 0.47 * |t| + 0.21 * |s| + 14 * k := by
    have h0 : 0 ≤ Q + m + u * Q := by positivity
    have := mul_le_mul_of_nonneg_right hu1 h0
    have h1 : 1.000001 * (1.000001 * Q + m) + m ≤ 0.47 * |t| + 0.21 * |s| + 14 * k := by
      rw [hQ, hmd]
      norm_num
      linarith
    norm_num at this h1 hin' ⊢
    linarith
  calc u * (|g| * (Q + m + u * Q) + |g| * m + u * (|g| * (Q + m + u * Q)))
      = |g| * u * ((Q + m + u * Q) + m + u * (Q + m + u * Q)) := by ring
    _ ≤ _ := mul_le_mul_of_nonneg_left hfin (by positivity)

/-- Rounding error of `calc_n2` with Wright's equation: `N` is the value in exact arithmetic, `h` the smallest
distance between levels (temperatures -2 to 40, salinities 0 to 42, depths to 9900 m, pressure at the surface
to 10⁶ Pa). -/
theorem C133_n2 (F : Format u 0 ρ) {th so : DA (Fl ℝ)} {z : Nat → Fl ℝ} {e : Env} {n : Nat}
    {x T S : Nat → ℝ} (c : TSColumn th so z "z_l" e n x T S) (g : ℝ) {pa h : ℝ} (hh : 0 < h)
    (hx : ∀ k, k + 1 < n → h ≤ x (k + 1) - x k) (hz : 0 ≤ x (e "z_l") ∧ x (e "z_l") ≤ 9900)
    (hp : 0 ≤ pa ∧ pa ≤ 10 ^ 6) (hT : ∀ k < n, -2 ≤ T k ∧ T k ≤ 40) (hS : ∀ k < n, 0 ≤ S k ∧ S k ≤ 42) :
    ∃ r N, calcN2 th so z "Wright" (fin g) (DA.scalar (fin pa)) = .ok r ∧ r.get e = fin N ∧
      |(n2Column Wright.alpha Wright.beta Rd.same (⟨g⟩ : Rd ρ) ⟨pa⟩ n (fun k => ⟨x k⟩) (fun k => ⟨T k⟩)
          (fun k => ⟨S k⟩) (e "z_l")).val - N|
        ≤ |g| * u * (0.47 * |derivAt n x T (e "z_l")| + 0.21 * |derivAt n x S (e "z_l")| + 14 / h) := by
  obtain ⟨r, h1, h2, h3⟩ := n2_error F c g hh hx hz hp hT hS
  exact ⟨r, _, h1, h2, h3⟩

/-- A value further from zero than the bound keeps its sign. -/
theorem C133_sign {x' x b : ℝ} (h : |x' - x| ≤ b) (hb : b < |x|) : (0 < x' ↔ 0 < x) ∧ (x' < 0 ↔ x < 0) := by
  obtain ⟨h1, h2⟩ := abs_le.1 h
  rcases lt_or_ge 0 x with hx | hx
  · rw [abs_of_pos hx] at hb
    exact ⟨⟨fun _ => hx, fun _ => by linarith⟩, ⟨fun _ => by linarith, fun _ => by linarith⟩⟩
  · rw [abs_of_nonpos hx] at hb
    exact ⟨⟨fun _ => by linarith, fun _ => by linarith⟩, ⟨fun _ => by linarith, fun _ => by linarith⟩⟩

/-- In binary64, levels at least 1 m apart, gradients up to 10 per metre, gravity up to 10 m s⁻²: the error is
below 2.4·10⁻¹⁴ s⁻², and `N²` of larger magnitude has the right sign. -/
theorem C133_double {th so : DA (Fl ℝ)} {z : Nat → Fl ℝ} {e : Env} {n : Nat} {x T S : Nat → ℝ}
    (c : TSColumn th so z "z_l" e n x T S) {g pa : ℝ} (hg : |g| ≤ 10)
    (hx : ∀ k, k + 1 < n → 1 ≤ x (k + 1) - x k) (hz : 0 ≤ x (e "z_l") ∧ x (e "z_l") ≤ 9900)
    (hp : 0 ≤ pa ∧ pa ≤ 10 ^ 6) (hT : ∀ k < n, -2 ≤ T k ∧ T k ≤ 40) (hS : ∀ k < n, 0 ≤ S k ∧ S k ≤ 42)
    (dT : |derivAt n x T (e "z_l")| ≤ 10) (dS : |derivAt n x S (e "z_l")| ≤ 10) :
    ∃ r N, calcN2 th so z "Wright" (fin g) (DA.scalar (fin pa)) = .ok r ∧ r.get e = fin N ∧
      |(n2Column Wright.alpha Wright.beta Rd.same (⟨g⟩ : Rd (nearest 53)) ⟨pa⟩ n (fun k => ⟨x k⟩)
          (fun k => ⟨T k⟩) (fun k => ⟨S k⟩) (e "z_l")).val - N| ≤ 2.4e-14 ∧
      (2.4e-14 < |N| → (0 < (n2Column Wright.alpha Wright.beta Rd.same (⟨g⟩ : Rd (nearest 53)) ⟨pa⟩ n
          (fun k => ⟨x k⟩) (fun k => ⟨T k⟩) (fun k => ⟨S k⟩) (e "z_l")).val ↔ 0 < N)) := by
  have F : Format (2⁻¹ ^ 53) 0 (nearest 53) :=
    ⟨C91_nearest 53, by positivity, by norm_num, le_refl _, by norm_num⟩
  obtain ⟨r, N, h1, h2, h3⟩ := C133_n2 F c g one_pos hx hz hp hT hS
  have h4 : |g| * 2⁻¹ ^ 53 * (0.47 * |derivAt n x T (e "z_l")| + 0.21 * |derivAt n x S (e "z_l")| + 14 / 1)
      ≤ 10 * 2⁻¹ ^ 53 * (0.47 * 10 + 0.21 * 10 + 14 / 1) := by
    gcongr
  have h5 := h3.trans (h4.trans (show _ ≤ (2.4e-14 : ℝ) by norm_num))
  exact ⟨r, N, h1, h2, h5, fun h => (C133_sign h5 h).1⟩

/-- Water of uniform temperature and salinity: exactly zero in exact arithmetic, within the bound when rounded. -/
theorem C133_uniform (F : Format u 0 ρ) {th so : DA (Fl ℝ)} {z : Nat → Fl ℝ} {e : Env} {n : Nat}
    {x T S : Nat → ℝ} (c : TSColumn th so z "z_l" e n x T S) (g : ℝ) {pa h T0 S0 : ℝ} (hh : 0 < h)
    (hx : ∀ k, k + 1 < n → h ≤ x (k + 1) - x k) (hz : 0 ≤ x (e "z_l") ∧ x (e "z_l") ≤ 9900)
    (hp : 0 ≤ pa ∧ pa ≤ 10 ^ 6) (hT : ∀ k, T k = T0) (hS : ∀ k, S k = S0) (bT : -2 ≤ T0 ∧ T0 ≤ 40)
    (bS : 0 ≤ S0 ∧ S0 ≤ 42) :
    (∃ r, calcN2 th so z "Wright" (fin g) (DA.scalar (fin pa)) = .ok r ∧ r.get e = fin 0) ∧
      |(n2Column Wright.alpha Wright.beta Rd.same (⟨g⟩ : Rd ρ) ⟨pa⟩ n (fun k => ⟨x k⟩) (fun k => ⟨T k⟩)
          (fun k => ⟨S k⟩) (e "z_l")).val| ≤ 14 * |g| * u / h := by
  obtain ⟨r, h1, h2, h3⟩ := n2_error F c g hh hx hz hp (fun k _ => by rw [hT]; exact bT)
    (fun k _ => by rw [hS]; exact bS)
  have z1 : derivAt n x T (e "z_l") = 0 := by
    rw [show T = fun _ => T0 from funext hT]; exact derivAt_const c.hn c.inj c.he T0
  have z2 : derivAt n x S (e "z_l") = 0 := by
    rw [show S = fun _ => S0 from funext hS]; exact derivAt_const c.hn c.inj c.he S0
  rw [z1, z2, mul_zero, mul_zero, sub_zero, mul_zero] at h2 h3
  refine ⟨⟨r, h1, h2⟩, ?_⟩
  rw [sub_zero, abs_zero] at h3
  refine h3.trans (le_of_eq ?_)
  ring

/-- Three levels of unequal distance with the data of a stably stratified column. -/
noncomputable def unevenX : ℕ → ℝ := fun k => 5 + 10 * k + 5 * (k * k)
def unevenT : DA (Fl ℝ) := ⟨[("z_l", 3)], fun e => fin (20 - e "z_l")⟩
noncomputable def unevenS : DA (Fl ℝ) := ⟨[("z_l", 3)], fun e => fin (34 + e "z_l" / 10)⟩

theorem uneven_column {i : ℕ} (hi : i < 3) : TSColumn unevenT unevenS (fun k => fin (unevenX k)) "z_l"
    (fun _ => i) 3 unevenX (fun k => 20 - k) (fun k => 34 + k / 10) where
  hn := le_refl 3
  inj := by
    intro a _ b _ h
    simp only [unevenX] at h
    have h0 : ((a : ℝ) - b) * (10 + 5 * (a + b)) = 0 := by linarith
    rcases mul_eq_zero.1 h0 with h1 | h1
    · exact_mod_cast sub_eq_zero.1 h1
    · have : (0 : ℝ) ≤ a := Nat.cast_nonneg a
      have : (0 : ℝ) ≤ b := Nat.cast_nonneg b
      linarith
  hz := rfl
  tz := by decide
  sz := by decide
  tn := rfl
  sn := rfl
  hT := by intro k _; simp [unevenT]
  hS := by intro k _; simp [unevenS]
  he := hi

/-- The hypotheses of `C133_n2` hold for this column at every level, in binary32 and binary64. -/
example (p : ℕ) (hp : 20 ≤ p) {i : ℕ} (hi : i < 3) : ∃ r N,
    calcN2 unevenT unevenS (fun k => fin (unevenX k)) "Wright" (fin (-9.8)) (DA.scalar (fin 101325)) = .ok r ∧
      r.get (fun _ => i) = fin N ∧
      |(n2Column Wright.alpha Wright.beta Rd.same (⟨-9.8⟩ : Rd (nearest p)) ⟨101325⟩ 3 (fun k => ⟨unevenX k⟩)
          (fun k => ⟨20 - k⟩) (fun k => ⟨34 + k / 10⟩) i).val - N|
        ≤ |(-9.8 : ℝ)| * 2⁻¹ ^ p * (0.47 * |derivAt 3 unevenX (fun k => 20 - k) i|
          + 0.21 * |derivAt 3 unevenX (fun k => 34 + k / 10) i| + 14 / 15) := by
  have F : Format (2⁻¹ ^ p) 0 (nearest p) := ⟨C91_nearest p, by positivity, by
    calc (2⁻¹ : ℝ) ^ p ≤ 2⁻¹ ^ 20 := pow_le_pow_of_le_one (by norm_num) (by norm_num) hp
      _ ≤ _ := by norm_num, le_refl _, by norm_num⟩
  have hk : ∀ k : ℕ, k < 3 → (k : ℝ) ≤ 2 := fun k hk => by exact_mod_cast (by omega : k ≤ 2)
  refine C133_n2 F (uneven_column hi) (-9.8) (by norm_num) ?_ ?_ ⟨by norm_num, by norm_num⟩ ?_ ?_
  · intro k _
    simp only [unevenX]
    push_cast
    have : (0 : ℝ) ≤ k := Nat.cast_nonneg k
    nlinarith
  · have h1 := hk i hi
    have h2 : (0 : ℝ) ≤ i := Nat.cast_nonneg i
    simp only [unevenX]
    exact ⟨by positivity, by nlinarith⟩
  · intro k h
    have h1 := hk k h
    have h2 : (0 : ℝ) ≤ k := Nat.cast_nonneg k
    exact ⟨by linarith, by linarith⟩
  · intro k h
    have h1 := hk k h
    have h2 : (0 : ℝ) ≤ k := Nat.cast_nonneg k
    exact ⟨by positivity, by linarith⟩

theorem even_column {i : ℕ} (hi : i < 3) : TSColumn (⟨[("z_l", 3)], fun _ => fin 10⟩ : DA (Fl ℝ))
    ⟨[("z_l", 3)], fun _ => fin 35⟩ (fun k => fin (unevenX k)) "z_l" (fun _ => i) 3 unevenX (fun _ => 10)
    (fun _ => 35) where
  hn := le_refl 3
  inj := (uneven_column hi).inj
  hz := rfl
  tz := by decide
  sz := by decide
  tn := rfl
  sn := rfl
  hT := by intro k _; rfl
  hS := by intro k _; rfl
  he := hi

theorem uneven_spacing (k : ℕ) : 15 ≤ unevenX (k + 1) - unevenX k := by
  simp only [unevenX]
  push_cast
  have : (0 : ℝ) ≤ k := Nat.cast_nonneg k
  nlinarith

theorem uneven_depth {i : ℕ} (hi : i < 3) : 0 ≤ unevenX i ∧ unevenX i ≤ 9900 := by
  have h1 : (i : ℝ) ≤ 2 := by exact_mod_cast (by omega : i ≤ 2)
  have h2 : (0 : ℝ) ≤ i := Nat.cast_nonneg i
  simp only [unevenX]
  exact ⟨by positivity, by nlinarith⟩

/-- Uniform water on uneven levels, in binary64 (`C133_double`, `C133_uniform`). -/
example {i : ℕ} (hi : i < 3) :
    (∃ r N, calcN2 (⟨[("z_l", 3)], fun _ => fin 10⟩ : DA (Fl ℝ)) ⟨[("z_l", 3)], fun _ => fin 35⟩
        (fun k => fin (unevenX k)) "Wright" (fin (-9.8)) (DA.scalar (fin 101325)) = .ok r ∧
      r.get (fun _ => i) = fin N ∧
      |(n2Column Wright.alpha Wright.beta Rd.same (⟨-9.8⟩ : Rd (nearest 53)) ⟨101325⟩ 3
          (fun k => ⟨unevenX k⟩) (fun _ => ⟨10⟩) (fun _ => ⟨35⟩) i).val - N| ≤ 2.4e-14) ∧
    |(n2Column Wright.alpha Wright.beta Rd.same (⟨-9.8⟩ : Rd (nearest 53)) ⟨101325⟩ 3
        (fun k => ⟨unevenX k⟩) (fun _ => ⟨10⟩) (fun _ => ⟨35⟩) i).val| ≤ 14 * |(-9.8 : ℝ)| * 2⁻¹ ^ 53 / 15 := by
  have c := even_column hi
  have F : Format (2⁻¹ ^ 53) 0 (nearest 53) :=
    ⟨C91_nearest 53, by positivity, by norm_num, le_refl _, by norm_num⟩
  constructor
  · obtain ⟨r, N, h1, h2, h3, -⟩ := C133_double c (g := -9.8) (pa := 101325) (by norm_num [abs_of_neg])
      (fun k _ => by linarith [uneven_spacing k]) (uneven_depth hi) ⟨by norm_num, by norm_num⟩
      (fun _ _ => by norm_num) (fun _ _ => by norm_num)
      (by rw [derivAt_const c.hn c.inj c.he]; norm_num) (by rw [derivAt_const c.hn c.inj c.he]; norm_num)
    exact ⟨r, N, h1, h2, h3⟩
  · exact (C133_uniform F c (-9.8) (by norm_num) (fun k _ => uneven_spacing k) (uneven_depth hi)
      ⟨by norm_num, by norm_num⟩ (fun _ => rfl) (fun _ => rfl) ⟨by norm_num, by norm_num⟩
      ⟨by norm_num, by norm_num⟩).2

end Momlevel.Props
