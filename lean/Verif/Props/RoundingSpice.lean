import Verif.Model.RoundingSpice
import Verif.Props.RoundingVort
import Verif.Props.RoundingDz
import Verif.Props.Spice

/-! # C136: spiciness in floating point -/

set_option linter.unusedSectionVars false

namespace Momlevel.Props
open Momlevel Momlevel.Fl Momlevel.Spec

variable {ρ : ℝ → ℝ} {u v : ℝ}

/-- A rounded product of numbers that carry errors. -/
theorem times_error (hr : Rounds u 0 ρ) (hu : 0 ≤ u) {a a' b b' g h : ℝ} (hg : 1 ≤ g)
    (ha : |a' - a| ≤ (g - 1) * |a|) (hb : |b' - b| ≤ (h - 1) * |b|) :
    |ρ (a' * b') - a * b| ≤ ((1 + u) * (g * h) - 1) * |a * b| := by
  have k := hr (a' * b')
  rw [max_eq_left (abs_nonneg _)] at k
  have h1 : |a'| ≤ g * |a| := by have := abs_sub_abs_le_abs_sub a' a; linarith
  have h2 : |a' * b' - a * b| ≤ (g * h - 1) * |a * b| := by
    rw [show a' * b' - a * b = a' * (b' - b) + (a' - a) * b by ring, abs_mul a b]
    refine (abs_add_le _ _).trans ?_
    rw [abs_mul, abs_mul]
    have n1 := mul_le_mul h1 hb (abs_nonneg _) (by positivity)
    have n2 := mul_le_mul_of_nonneg_right ha (abs_nonneg b)
    nlinarith
  have h3 : |a' * b'| ≤ g * h * |a * b| := by
    have := abs_sub_abs_le_abs_sub (a' * b') (a * b); linarith
  have h4 := abs_sub_le (ρ (a' * b')) (a' * b') (a * b)
  have h5 := mul_le_mul_of_nonneg_left h3 hu
  linarith

/-- A power of a number that carries an error. -/
theorem pow_error (hu : 0 ≤ u) {d s : ℝ} (h : |d - s| ≤ u * |s|) (j : ℕ) :
    |d ^ j - s ^ j| ≤ ((1 + u) ^ j - 1) * |s ^ j| := by
  induction j with
  | zero => simp
  | succ j ih =>
    have hd : |d| ≤ (1 + u) * |s| := by have := abs_sub_abs_le_abs_sub d s; linarith
    have h1 : (1 : ℝ) ≤ (1 + u) ^ j := one_le_pow₀ (by linarith)
    rw [pow_succ, pow_succ, show d ^ j * d - s ^ j * s = (d ^ j - s ^ j) * d + s ^ j * (d - s) by ring,
      abs_mul (s ^ j) s]
    refine (abs_add_le _ _).trans ?_
    rw [abs_mul, abs_mul]
    have n1 := mul_le_mul ih hd (abs_nonneg _) (mul_nonneg (by linarith) (abs_nonneg _))
    have n2 := mul_le_mul_of_nonneg_left h (abs_nonneg (s ^ j))
    rw [pow_succ]
    nlinarith

theorem spiceCoef_eq {i j : ℕ} (hi : i < 6) (hj : j < 5) :
    (spiceCoef (i, j) : ℝ) = (((Spec.Flament.b.getD i []).getD j 0 : ℤ) : ℝ) / 10 ^ 13 := by
  interval_cases i <;> interval_cases j <;>
    norm_num [spiceCoef, Spice.B_IJ, Spec.Flament.b, List.getD_cons_zero, List.getD_cons_succ]

theorem spiceCoef_error (hr : Rounds u 0 ρ) {i j : ℕ} (hi : i < 6) (hj : j < 5) :
    |(spiceCoef (i, j) : Rd ρ).val - spiceCoef (i, j)| ≤ u * |(spiceCoef (i, j) : ℝ)| := by
  have pos : ∀ (m : ℕ) (b : Bool) (e : ℕ), |(OfScientific.ofScientific m b e : Rd ρ).val
      - OfScientific.ofScientific m b e| ≤ u * |(OfScientific.ofScientific m b e : ℝ)| := by
    intro m b e
    have := hr (OfScientific.ofScientific m b e)
    rw [max_eq_left (abs_nonneg _)] at this
    exact this
  have neg : ∀ (m : ℕ) (b : Bool) (e : ℕ), |(-(OfScientific.ofScientific m b e) : Rd ρ).val
      - -OfScientific.ofScientific m b e| ≤ u * |(-OfScientific.ofScientific m b e : ℝ)| := by
    intro m b e
    rw [abs_neg, show (-(OfScientific.ofScientific m b e) : Rd ρ).val
      = -(OfScientific.ofScientific m b e : Rd ρ).val from rfl, ← neg_sub', abs_neg]
    exact pos m b e
  interval_cases i <;> interval_cases j <;> first | exact pos _ _ _ | exact neg _ _ _

theorem sum_exponents (f : ℕ × ℕ → ℝ) :
    (Spec.Flament.exponents.map f).sum = ∑ i ∈ Finset.range 6, ∑ j ∈ Finset.range 5, f (i, j) := by
  have h : Spec.Flament.exponents = (List.range 6).flatMap (fun i => (List.range 5).map (fun j => (i, j))) := by
    decide
  rw [h]
  simp only [Finset.sum_range_succ, Finset.sum_range_zero, List.range, List.range.loop, List.flatMap_cons,
    List.flatMap_nil, List.map_cons, List.map_nil, List.cons_append, List.nil_append, List.append_nil,
    List.sum_cons, List.sum_nil]
  ring

theorem mem_exponents {p : ℕ × ℕ} (h : p ∈ Spec.Flament.exponents) : p.1 < 6 ∧ p.2 < 5 := by
  have := List.mem_product.1 h
  simpa using this

/-- With exact arithmetic the table adds up to the polynomial, in whatever order. -/
theorem C136_exact (order : SumTree (ℕ × ℕ)) (ho : order.leaves.Perm Spec.Flament.exponents) (t s : ℝ) :
    spicePoint (fun x k => x ^ k) order t s = Spec.Flament.poly t s := by
  unfold spicePoint
  rw [SumTree.sum_leaves, (ho.map _).sum_eq, sum_exponents]
  refine Finset.sum_congr rfl fun i hi => Finset.sum_congr rfl fun j hj => ?_
  rw [spiceTerm, spiceCoef_eq (Finset.mem_range.1 hi) (Finset.mem_range.1 hj)]
  rw [show (35.0 : ℝ) = 35 by norm_num]
  ring

/-- The rounded value of `spice`: whatever the order of the additions, the error is at most
`(1+u)^(7+d) (1+v)² - 1` times the size of the terms, `d` the largest number of additions a term goes
through and `v` the accuracy of the library's powers. -/
theorem C136_error (hr : Rounds u 0 ρ) (hu : 0 ≤ u) (hv : 0 ≤ v) (h35 : ρ 35 = 35) (pw : Rd ρ → ℕ → Rd ρ)
    (hp : ∀ x k, k < 6 → |(pw x k).val - x.val ^ k| ≤ v * |x.val ^ k|)
    (order : SumTree (ℕ × ℕ)) (ho : order.leaves.Perm Spec.Flament.exponents) (t s : ℝ) :
    |(spicePoint pw order ⟨t⟩ ⟨s⟩).val - Spec.Flament.poly t s|
      ≤ ((1 + u) ^ (7 + order.depth) * (1 + v) ^ 2 - 1) * Spec.Flament.size t s := by
  have h1u : (1 : ℝ) ≤ 1 + u := by linarith
  have h1v : (1 : ℝ) ≤ 1 + v := by linarith
  have e35 : (35.0 : Rd ρ).val = 35 := by
    have : (35.0 : Rd ρ).val = ρ (35.0 : ℝ) := rfl
    rw [this, show (35.0 : ℝ) = 35 by norm_num, h35]
  have key : ∀ p ∈ order.leaves, |(spiceTerm pw (⟨t⟩ : Rd ρ) ⟨s⟩ p).val - spiceTerm (fun x k => x ^ k) t s p|
      ≤ ((1 + u) ^ 7 * (1 + v) ^ 2 - 1) * |spiceTerm (fun x k => x ^ k) t s p| := by
    rintro ⟨i, j⟩ hm
    obtain ⟨hi, hj⟩ := mem_exponents (ho.mem_iff.1 hm)
    simp only at hi hj
    have hd := hr (s - 35)
    rw [max_eq_left (abs_nonneg _)] at hd
    have ed : ((⟨s⟩ : Rd ρ) - 35.0).val = ρ (s - 35) := by
      show ρ (s - (35.0 : Rd ρ).val) = _
      rw [e35]
    have q1 := pow_error hu hd j
    have q2 := hp ((⟨s⟩ : Rd ρ) - 35.0) j (by omega)
    rw [ed] at q2
    -- the power of the salinity term
    have q3 : |(pw ((⟨s⟩ : Rd ρ) - 35.0) j).val - (s - 35) ^ j|
        ≤ ((1 + v) * (1 + u) ^ 4 - 1) * |(s - 35) ^ j| := by
      have m1 : |ρ (s - 35) ^ j| ≤ (1 + u) ^ j * |(s - 35) ^ j| := by
        have := abs_sub_abs_le_abs_sub (ρ (s - 35) ^ j) ((s - 35) ^ j); linarith
      have m2 := abs_sub_le (pw ((⟨s⟩ : Rd ρ) - 35.0) j).val (ρ (s - 35) ^ j) ((s - 35) ^ j)
      have m3 := mul_le_mul_of_nonneg_left m1 hv
      have m4 : (1 + u) ^ j ≤ (1 + u) ^ 4 := pow_le_pow_right₀ h1u (by omega)
      have m5 := mul_le_mul_of_nonneg_right m4 (mul_nonneg (by linarith : (0 : ℝ) ≤ 1 + v) (abs_nonneg ((s - 35) ^ j)))
      nlinarith
    have q4 : |(pw (⟨t⟩ : Rd ρ) i).val - t ^ i| ≤ ((1 + v) - 1) * |t ^ i| := by
      rw [add_sub_cancel_left]; exact hp ⟨t⟩ i hi
    have g1 : (1 : ℝ) ≤ (1 + v) * (1 + u) ^ 4 :=
      one_le_mul_of_one_le_of_one_le h1v (one_le_pow₀ h1u)
    have r1 := times_error hr hu g1 q3 q4
    have g2 : (1 : ℝ) ≤ (1 + u) * ((1 + v) * (1 + u) ^ 4 * (1 + v)) :=
      one_le_mul_of_one_le_of_one_le h1u (one_le_mul_of_one_le_of_one_le g1 h1v)
    have q5 : |(spiceCoef (i, j) : Rd ρ).val - spiceCoef (i, j)| ≤ ((1 + u) - 1) * |(spiceCoef (i, j) : ℝ)| := by
      rw [add_sub_cancel_left]; exact spiceCoef_error hr hi hj
    have r2 := times_error hr hu g2 r1 q5
    have e1 : spiceTerm (fun x k => x ^ k) t s (i, j) = (s - 35) ^ j * t ^ i * spiceCoef (i, j) := by
      unfold spiceTerm
      rw [show (35.0 : ℝ) = 35 by norm_num]
    rw [e1]
    calc _ ≤ _ := r2
      _ = _ := by ring
  obtain ⟨k1, -, -⟩ := SumTree.sum_error hr hu le_rfl (spiceTerm pw (⟨t⟩ : Rd ρ) ⟨s⟩)
    (spiceTerm (fun x k => x ^ k) t s)
    (fun p => ((1 + u) ^ 7 * (1 + v) ^ 2 - 1) * |spiceTerm (fun x k => x ^ k) t s p|)
    (fun p => |spiceTerm (fun x k => x ^ k) t s p|) order key (fun _ _ => le_rfl)
  have es : (order.leaves.map fun p => |spiceTerm (fun x k => x ^ k) t s p|).sum = Spec.Flament.size t s := by
    rw [(ho.map _).sum_eq, sum_exponents]
    refine Finset.sum_congr rfl fun i hi => Finset.sum_congr rfl fun j hj => ?_
    rw [spiceTerm, spiceCoef_eq (Finset.mem_range.1 hi) (Finset.mem_range.1 hj),
      show (35.0 : ℝ) = 35 by norm_num, abs_mul, abs_mul, abs_pow, abs_pow, abs_div,
      abs_of_pos (show (0 : ℝ) < 10 ^ 13 by norm_num)]
    ring
  simp only [add_zero] at k1
  rw [List.sum_map_mul_left, es] at k1
  rw [← C136_exact order ho t s]
  calc _ ≤ _ := k1
    _ = _ := by rw [pow_add]; ring

/-- Over water between -2 and 40 degrees and 30 and 40 salinity units the terms add up to at most 327. -/
theorem C136_size {t s : ℝ} (ht : |t| ≤ 40) (hs : |s - 35| ≤ 5) : Spec.Flament.size t s ≤ 327 := by
  have h : Spec.Flament.size t s ≤ Spec.Flament.size 40 40 := by
    refine Finset.sum_le_sum fun i _ => Finset.sum_le_sum fun j _ => ?_
    have a : |t| ^ i ≤ |(40 : ℝ)| ^ i := pow_le_pow_left₀ (abs_nonneg _) (by norm_num; exact ht) i
    have b : |s - 35| ^ j ≤ |(40 : ℝ) - 35| ^ j := pow_le_pow_left₀ (abs_nonneg _) (by norm_num; exact hs) j
    gcongr
  refine h.trans ?_
  unfold Spec.Flament.size
  simp only [Finset.sum_range_succ, Finset.sum_range_zero, Spec.Flament.b, List.getD_cons_zero,
    List.getD_cons_succ]
  norm_num

theorem depth_lt {β : Type*} (o : SumTree β) : o.depth < o.leaves.length := by
  induction o with
  | leaf b => simp [SumTree.depth, SumTree.leaves]
  | node l r hl hr =>
    have := l.leaves_pos
    have := r.leaves_pos
    simp only [SumTree.depth, SumTree.leaves, List.length_append]
    omega

/-- The error over ordinary sea water: at most `14000 u` when the powers are right to two units of roundoff. -/
theorem C136_bound (hr : Rounds u 0 ρ) (hu : 0 ≤ u) (hu' : u ≤ 2⁻¹ ^ 24) (h35 : ρ 35 = 35)
    (pw : Rd ρ → ℕ → Rd ρ) (hp : ∀ x k, k < 6 → |(pw x k).val - x.val ^ k| ≤ 2 * u * |x.val ^ k|)
    (order : SumTree (ℕ × ℕ)) (ho : order.leaves.Perm Spec.Flament.exponents) {t s : ℝ}
    (ht : |t| ≤ 40) (hs : |s - 35| ≤ 5) :
    |(spicePoint pw order ⟨t⟩ ⟨s⟩).val - Spec.Flament.poly t s| ≤ 14000 * u := by
  refine (C136_error hr hu (by linarith) h35 pw hp order ho t s).trans ?_
  have hd : order.depth ≤ 29 := by
    have := depth_lt order
    rw [ho.length_eq] at this
    have : Spec.Flament.exponents.length = 30 := by decide
    omega
  have h1 : (1 + u) ^ (7 + order.depth) * (1 + 2 * u) ^ 2 ≤ (1 + u) ^ 40 := by
    have a : (1 + u) ^ (7 + order.depth) ≤ (1 + u) ^ 36 := pow_le_pow_right₀ (by linarith) (by omega)
    have b : (1 + 2 * u) ≤ (1 + u) ^ 2 := by nlinarith
    have c : (1 + 2 * u) ^ 2 ≤ ((1 + u) ^ 2) ^ 2 := pow_le_pow_left₀ (by linarith) b 2
    calc _ ≤ (1 + u) ^ 36 * ((1 + u) ^ 2) ^ 2 := mul_le_mul a c (by positivity) (by positivity)
      _ = _ := by ring
  have h2 := growth_le hu 40 (by
    have : (2⁻¹ : ℝ) ^ 24 ≤ 1 / 4000 := by norm_num
    push_cast; linarith)
  have h3 := C136_size ht hs
  have h4 : 0 ≤ Spec.Flament.size t s :=
    Finset.sum_nonneg fun i _ => Finset.sum_nonneg fun j _ => by positivity
  push_cast at h2
  nlinarith

/-- `calc_spice` of water between -40 and 40 degrees and 30 and 40 salinity units: double precision gives
the exact values up to `2e-12`. -/
theorem C136_double (pw : Rd (nearest 53) → ℕ → Rd (nearest 53))
    (hp : ∀ x k, k < 6 → |(pw x k).val - x.val ^ k| ≤ 2 * 2⁻¹ ^ 53 * |x.val ^ k|)
    (order : SumTree (ℕ × ℕ)) (ho : order.leaves.Perm Spec.Flament.exponents)
    (th so : DA (Fl ℝ)) (hth : th.WF) (hso : so.WF) (hn : th.dimNames.Nodup) (hperm : th.dims.Perm so.dims) :
    ∃ r, Spice.calcSpice th so = .ok r ∧ r.dims = th.dims ∧
      ∀ e t s, th.InBounds e → th.get e = fin t → so.get e = fin s → |t| ≤ 40 → |s - 35| ≤ 5 →
        ∃ q, r.get e = fin q ∧ |(spicePoint pw order ⟨t⟩ ⟨s⟩).val - q| < 2e-12 := by
  obtain ⟨r, h1, h2, h3⟩ := C07_calc_spice th so hth hso hn hperm
  refine ⟨r, h1, h2, fun e t s he ht hs bt bs => ⟨_, (h3 e he).1 t s ht hs, ?_⟩⟩
  have h35 : nearest 53 35 = 35 := by exact_mod_cast nearest_int (p := 53) (m := 35) (by norm_num)
  refine (C136_bound (C91_nearest 53) (by positivity) ?_ h35 pw hp order ho bt bs).trans_lt (by norm_num)
  exact pow_le_pow_of_le_one (by norm_num) (by norm_num) (by norm_num)

/-- The same in single precision: up to `1e-3`. -/
theorem C136_single (pw : Rd (nearest 24) → ℕ → Rd (nearest 24))
    (hp : ∀ x k, k < 6 → |(pw x k).val - x.val ^ k| ≤ 2 * 2⁻¹ ^ 24 * |x.val ^ k|)
    (order : SumTree (ℕ × ℕ)) (ho : order.leaves.Perm Spec.Flament.exponents)
    (th so : DA (Fl ℝ)) (hth : th.WF) (hso : so.WF) (hn : th.dimNames.Nodup) (hperm : th.dims.Perm so.dims) :
    ∃ r, Spice.calcSpice th so = .ok r ∧ r.dims = th.dims ∧
      ∀ e t s, th.InBounds e → th.get e = fin t → so.get e = fin s → |t| ≤ 40 → |s - 35| ≤ 5 →
        ∃ q, r.get e = fin q ∧ |(spicePoint pw order ⟨t⟩ ⟨s⟩).val - q| < 1e-3 := by
  obtain ⟨r, h1, h2, h3⟩ := C07_calc_spice th so hth hso hn hperm
  refine ⟨r, h1, h2, fun e t s he ht hs bt bs => ⟨_, (h3 e he).1 t s ht hs, ?_⟩⟩
  have h35 : nearest 24 35 = 35 := by exact_mod_cast nearest_int (p := 24) (m := 35) (by norm_num)
  exact (C136_bound (C91_nearest 24) (by positivity) le_rfl h35 pw hp order ho bt bs).trans_lt (by norm_num)

/-- Row after row, as numpy adds a small array. -/
def rowMajor : SumTree (ℕ × ℕ) :=
  (Spec.Flament.exponents.tail).foldl (fun t p => .node t (.leaf p)) (.leaf (0, 0))

theorem rowMajor_leaves : rowMajor.leaves = Spec.Flament.exponents := by decide

/-- Correctly rounded powers. -/
noncomputable def roundedPow (p : ℕ) (x : Rd (nearest p)) (k : ℕ) : Rd (nearest p) := ⟨nearest p (x.val ^ k)⟩

theorem roundedPow_error (p : ℕ) (x : Rd (nearest p)) (k : ℕ) :
    |(roundedPow p x k).val - x.val ^ k| ≤ 2 * 2⁻¹ ^ p * |x.val ^ k| := by
  have := C91_nearest p (x.val ^ k)
  rw [max_eq_left (abs_nonneg _)] at this
  have h : (0 : ℝ) ≤ 2⁻¹ ^ p * |x.val ^ k| := by positivity
  show |nearest p (x.val ^ k) - x.val ^ k| ≤ _
  linarith

/-- Non-vacuity: row-major order, correctly rounded powers, two levels of water. -/
example : ∃ r, Spice.calcSpice
      (⟨[("z_l", 2)], fun e => if e "z_l" = 0 then fin 20 else fin 4⟩ : DA (Fl ℝ))
      ⟨[("z_l", 2)], fun e => if e "z_l" = 0 then fin 36.5 else fin 34.7⟩ = .ok r ∧
    ∃ q, r.get (fun _ => 1) = fin q ∧ |(spicePoint (roundedPow 53) rowMajor ⟨4⟩ ⟨34.7⟩).val - q| < 2e-12 := by
  obtain ⟨r, h1, -, h2⟩ := C136_double (roundedPow 53) (fun x k _ => roundedPow_error 53 x k) rowMajor
    (by rw [rowMajor_leaves])
    (⟨[("z_l", 2)], fun e => if e "z_l" = 0 then fin 20 else fin 4⟩ : DA (Fl ℝ))
    ⟨[("z_l", 2)], fun e => if e "z_l" = 0 then fin 36.5 else fin 34.7⟩
    (by intro e e' h; have := h "z_l" (by simp [DA.dimNames]); simp [this])
    (by intro e e' h; have := h "z_l" (by simp [DA.dimNames]); simp [this])
    (by simp [DA.dimNames]) (List.Perm.refl _)
  exact ⟨r, h1, h2 (fun _ => 1) 4 34.7 (by simp [DA.InBounds]) (by simp) (by simp) (by norm_num)
    (by rw [abs_le]; norm_num)⟩

/-- The same in single precision. -/
example : ∃ r, Spice.calcSpice
      (⟨[("z_l", 2)], fun e => if e "z_l" = 0 then fin 20 else fin 4⟩ : DA (Fl ℝ))
      ⟨[("z_l", 2)], fun e => if e "z_l" = 0 then fin 36.5 else fin 34.75⟩ = .ok r ∧
    ∃ q, r.get (fun _ => 1) = fin q ∧ |(spicePoint (roundedPow 24) rowMajor ⟨4⟩ ⟨34.75⟩).val - q| < 1e-3 := by
  obtain ⟨r, h1, -, h2⟩ := C136_single (roundedPow 24) (fun x k _ => roundedPow_error 24 x k) rowMajor
    (by rw [rowMajor_leaves])
    (⟨[("z_l", 2)], fun e => if e "z_l" = 0 then fin 20 else fin 4⟩ : DA (Fl ℝ))
    ⟨[("z_l", 2)], fun e => if e "z_l" = 0 then fin 36.5 else fin 34.75⟩
    (by intro e e' h; have := h "z_l" (by simp [DA.dimNames]); simp [this])
    (by intro e e' h; have := h "z_l" (by simp [DA.dimNames]); simp [this])
    (by simp [DA.dimNames]) (List.Perm.refl _)
  exact ⟨r, h1, h2 (fun _ => 1) 4 34.75 (by simp [DA.InBounds]) (by simp) (by simp) (by norm_num)
    (by rw [abs_le]; norm_num)⟩

/-- The order of the additions covers all thirty terms, and the terms of ordinary water are not all zero. -/
example : rowMajor.leaves.length = 30 ∧ spicePoint (fun (x : ℝ) k => x ^ k) rowMajor 0 36 = Spec.Flament.poly 0 36 ∧
    |(20 : ℝ)| ≤ 40 ∧ |(36.5 : ℝ) - 35| ≤ 5 :=
  ⟨by rw [rowMajor_leaves]; decide, C136_exact rowMajor (by rw [rowMajor_leaves]) 0 36, by norm_num,
    by rw [abs_le]; norm_num⟩

end Momlevel.Props
