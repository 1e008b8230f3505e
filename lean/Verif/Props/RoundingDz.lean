import Verif.Model.RoundingDz
import Verif.Props.Rounding
import Verif.Props.Dz
import Mathlib.Order.Monotone.Basic
import Mathlib.Tactic.IntervalCases

/-! # C126: thicknesses in floating point -/

set_option linter.unusedSectionVars false

namespace Momlevel.Props
open Momlevel Momlevel.Fl Momlevel.Spec

/-! ### Rounding to nearest -/

theorem round_mono' {x y : ℝ} (h : x ≤ y) : round x ≤ round y := by
  rw [round_eq, round_eq]
  exact Int.floor_le_floor (by linarith)

theorem nearest_zero (p : ℕ) : nearest p 0 = 0 := by simp [nearest]

theorem nearest_pos {p : ℕ} (hp : 1 ≤ p) {x : ℝ} (hx : 0 < x) :
    (2 : ℝ) ^ Int.log 2 x ≤ nearest p x ∧ nearest p x ≤ (2 : ℝ) ^ (Int.log 2 x + 1) := by
  have h1 := Int.zpow_log_le_self (b := 2) (by norm_num) hx
  have h2 := (Int.lt_zpow_succ_log_self (b := 2) (by norm_num) x).le
  push_cast at h1 h2
  unfold nearest
  rw [abs_of_pos hx]
  set b := Int.log 2 x
  have hs : (0 : ℝ) < 2 ^ (b + 1 - p) := zpow_pos (by norm_num) _
  have e1 : (2 : ℝ) ^ b = ((2 ^ (p - 1) : ℤ) : ℝ) * 2 ^ (b + 1 - p) := by
    push_cast
    rw [← zpow_natCast, ← zpow_add₀ (by norm_num)]
    congr 1
    omega
  have e2 : (2 : ℝ) ^ (b + 1) = ((2 ^ p : ℤ) : ℝ) * 2 ^ (b + 1 - p) := by
    push_cast
    rw [← zpow_natCast, ← zpow_add₀ (by norm_num)]
    congr 1
    omega
  constructor
  · rw [e1] at h1 ⊢
    refine mul_le_mul_of_nonneg_right ?_ hs.le
    have : ((2 ^ (p - 1) : ℤ) : ℝ) ≤ x / 2 ^ (b + 1 - p) := (le_div_iff₀ hs).2 h1
    have := round_mono' this
    rw [round_intCast] at this
    exact_mod_cast this
  · rw [e2] at h2 ⊢
    refine mul_le_mul_of_nonneg_right ?_ hs.le
    have : x / 2 ^ (b + 1 - p) ≤ ((2 ^ p : ℤ) : ℝ) := (div_le_iff₀ hs).2 h2
    have := round_mono' this
    rw [round_intCast] at this
    exact_mod_cast this

theorem nearest_neg {p : ℕ} (hp : 1 ≤ p) {x : ℝ} (hx : x < 0) :
    -(2 : ℝ) ^ (Int.log 2 (-x) + 1) ≤ nearest p x ∧ nearest p x ≤ -(2 : ℝ) ^ Int.log 2 (-x) := by
  have hx' : 0 < -x := by linarith
  have h1 := Int.zpow_log_le_self (b := 2) (by norm_num) hx'
  have h2 := (Int.lt_zpow_succ_log_self (b := 2) (by norm_num) (-x)).le
  push_cast at h1 h2
  unfold nearest
  rw [abs_of_neg hx]
  set b := Int.log 2 (-x)
  have hs : (0 : ℝ) < 2 ^ (b + 1 - p) := zpow_pos (by norm_num) _
  have e1 : (2 : ℝ) ^ b = ((2 ^ (p - 1) : ℤ) : ℝ) * 2 ^ (b + 1 - p) := by
    push_cast
    rw [← zpow_natCast, ← zpow_add₀ (by norm_num)]
    congr 1
    omega
  have e2 : (2 : ℝ) ^ (b + 1) = ((2 ^ p : ℤ) : ℝ) * 2 ^ (b + 1 - p) := by
    push_cast
    rw [← zpow_natCast, ← zpow_add₀ (by norm_num)]
    congr 1
    omega
  constructor
  · rw [e2] at h2 ⊢
    rw [← neg_mul]
    refine mul_le_mul_of_nonneg_right ?_ hs.le
    have : ((-(2 ^ p) : ℤ) : ℝ) ≤ x / 2 ^ (b + 1 - p) := by
      rw [le_div_iff₀ hs]
      push_cast at h2 ⊢
      linarith
    have := round_mono' this
    rw [round_intCast] at this
    exact_mod_cast this
  · rw [e1] at h1 ⊢
    rw [← neg_mul]
    refine mul_le_mul_of_nonneg_right ?_ hs.le
    have : x / 2 ^ (b + 1 - p) ≤ ((-(2 ^ (p - 1)) : ℤ) : ℝ) := by
      rw [div_le_iff₀ hs]
      push_cast at h1 ⊢
      linarith
    have := round_mono' this
    rw [round_intCast] at this
    exact_mod_cast this

/-- Rounding to the nearest number with `p` binary digits is monotone. -/
theorem nearest_monotone {p : ℕ} (hp : 1 ≤ p) : Monotone (nearest p) := by
  have same : ∀ x y : ℝ, x ≤ y → Int.log 2 |x| = Int.log 2 |y| → nearest p x ≤ nearest p y := by
    intro x y h hl
    unfold nearest
    rw [hl]
    have hs : (0 : ℝ) < 2 ^ (Int.log 2 |y| + 1 - p) := zpow_pos (by norm_num) _
    refine mul_le_mul_of_nonneg_right ?_ hs.le
    exact_mod_cast round_mono' (div_le_div_of_nonneg_right h hs.le)
  intro x y h
  rcases lt_trichotomy x 0 with hx | rfl | hx
  · rcases lt_trichotomy y 0 with hy | rfl | hy
    · have hm : Int.log 2 (-y) ≤ Int.log 2 (-x) := Int.log_mono_right (by linarith) (by linarith)
      rcases hm.lt_or_eq with hl | hl
      · refine (nearest_neg hp hx).2.trans (le_trans ?_ (nearest_neg hp hy).1)
        rw [neg_le_neg_iff]
        exact zpow_le_zpow_right₀ (by norm_num) (by omega)
      · exact same x y h (by rw [abs_of_neg hx, abs_of_neg hy, hl])
    · rw [nearest_zero]
      refine (nearest_neg hp hx).2.trans ?_
      have : (0 : ℝ) < 2 ^ Int.log 2 (-x) := zpow_pos (by norm_num) _
      linarith
    · refine (nearest_neg hp hx).2.trans (le_trans ?_ (nearest_pos hp hy).1)
      have : (0 : ℝ) < 2 ^ Int.log 2 (-x) := zpow_pos (by norm_num) _
      have : (0 : ℝ) < 2 ^ Int.log 2 y := zpow_pos (by norm_num) _
      linarith
  · rw [nearest_zero]
    rcases h.lt_or_eq with hy | rfl
    · refine le_trans ?_ (nearest_pos hp hy).1
      exact (zpow_pos (by norm_num) _).le
    · rw [nearest_zero]
  · have hy : 0 < y := by linarith
    have hm : Int.log 2 x ≤ Int.log 2 y := Int.log_mono_right hx h
    rcases hm.lt_or_eq with hl | hl
    · refine (nearest_pos hp hx).2.trans (le_trans ?_ (nearest_pos hp hy).1)
      exact zpow_le_zpow_right₀ (by norm_num) (by omega)
    · exact same x y h (by rw [abs_of_pos hx, abs_of_pos hy, hl])

/-- Whole numbers below `2ᵖ` are not changed. -/
theorem nearest_int {p : ℕ} {m : ℤ} (h : |m| < 2 ^ p) : nearest p (m : ℝ) = m := by
  by_cases h0 : m = 0
  · subst h0; simp [nearest]
  have hpos : (0 : ℝ) < |(m : ℝ)| := abs_pos.2 (by exact_mod_cast h0)
  have hl : Int.log 2 |(m : ℝ)| + 1 ≤ p := by
    have h1 := Int.zpow_log_le_self (b := 2) (by norm_num) hpos
    push_cast at h1
    have h2 : |(m : ℝ)| < 2 ^ (p : ℤ) := by
      rw [zpow_natCast, ← Int.cast_abs]
      exact_mod_cast h
    have h3 := h1.trans_lt h2
    have := (zpow_lt_zpow_iff_right₀ (by norm_num : (1 : ℝ) < 2)).1 h3
    omega
  unfold nearest
  obtain ⟨k, hk⟩ : ∃ k : ℕ, (p : ℤ) - (Int.log 2 |(m : ℝ)| + 1) = k := ⟨_, (Int.toNat_of_nonneg (by omega)).symm⟩
  have e : (2 : ℝ) ^ (Int.log 2 |(m : ℝ)| + 1 - p) = (2 ^ k)⁻¹ := by
    rw [← zpow_natCast, ← zpow_neg, ← hk]
    congr 1
    ring
  rw [e, div_inv_eq_mul]
  have : (m : ℝ) * 2 ^ k = ((m * 2 ^ k : ℤ) : ℝ) := by push_cast; ring
  rw [this, round_intCast]
  push_cast
  rw [mul_assoc, mul_inv_cancel₀ (by positivity), mul_one]

/-! ### One cell -/

variable {ρ : ℝ → ℝ}

/-- In exact arithmetic the formula of one cell gives the values of `calc_dz`. -/
theorem C126_model {levels interfaces depth : DA (Fl ℝ)} {z zi : String} {n : Nat} {lev ifc : Nat → ℝ}
    (g : DzGrid levels interfaces z zi n lev ifc) (hb : Bathy depth) (hz : z ∉ depth.dimNames) (top : ℝ)
    (bottom : Option ℝ) :
    ∃ r, calcDz levels interfaces depth (fin top) (bottom.map fin) = .ok r ∧
      ∀ e, depth.InBounds e → r.get e
        = fin (dzCell (ifc (e z)) (ifc (e z + 1)) top (dzFloor (val0 (depth.get e)) bottom)) := by
  obtain ⟨r, h1, h2, h3⟩ := calcDz_ok g hb top bottom false hz
  refine ⟨r, h1, fun e he => ?_⟩
  have := h3 e he
  simp only [Bool.false_eq_true, if_false] at this
  rw [this]
  congr 1
  unfold cellDz dzCell
  have e0 : (0.0 : ℝ) = 0 := by norm_num
  have e1 : floorAt (depth.get e) bottom = dzFloor (val0 (depth.get e)) bottom := by
    cases bottom <;> rfl
  rw [e0, e1]

/-- And with `fraction=True` those of the fraction, where neither number is zero. -/
theorem C126_model_fraction {levels interfaces depth : DA (Fl ℝ)} {z zi : String} {n : Nat} {lev ifc : Nat → ℝ}
    (g : DzGrid levels interfaces z zi n lev ifc) (hb : Bathy depth) (hz : z ∉ depth.dimNames) (top : ℝ)
    (bottom : Option ℝ) :
    ∃ r, calcDz levels interfaces depth (fin top) (bottom.map fin) true = .ok r ∧
      ∀ e, depth.InBounds e →
        dzCell (ifc (e z)) (ifc (e z + 1)) top (dzFloor (val0 (depth.get e)) bottom) ≠ 0 →
        ifc (e z + 1) - ifc (e z) ≠ 0 → r.get e
        = fin (dzFraction (ifc (e z)) (ifc (e z + 1)) top (dzFloor (val0 (depth.get e)) bottom)) := by
  obtain ⟨r, h1, h2, h3⟩ := calcDz_ok g hb top bottom true hz
  refine ⟨r, h1, fun e he hne hne' => ?_⟩
  have := h3 e he
  have e0 : (0.0 : ℝ) = 0 := by norm_num
  have e1 : floorAt (depth.get e) bottom = dzFloor (val0 (depth.get e)) bottom := by
    cases bottom <;> rfl
  have e2 : cellDz (ifc (e z)) (ifc (e z + 1)) top (floorAt (depth.get e) bottom)
      = dzCell (ifc (e z)) (ifc (e z + 1)) top (dzFloor (val0 (depth.get e)) bottom) := by
    unfold cellDz dzCell
    rw [e0, e1]
  simp only [if_true, e2, if_neg hne, if_neg hne'] at this
  exact this

/-- Every thickness is the exact thickness, rounded once: whatever the boundaries, `calc_dz` is correctly rounded. -/
theorem C126_rounded (hm : Monotone ρ) (ztop zbot top depth : ℝ) (bottom : Option ℝ) :
    (dzCell (⟨ztop⟩ : Rd ρ) ⟨zbot⟩ ⟨top⟩ (dzFloor ⟨depth⟩ (bottom.map Rd.mk))).val
      = ρ (dzCell ztop zbot top (dzFloor depth bottom)) := by
  have e0 : (0.0 : ℝ) = 0 := by norm_num
  have ef : dzFloor (⟨depth⟩ : Rd ρ) (bottom.map Rd.mk) = ⟨dzFloor depth bottom⟩ := by
    cases bottom <;> rfl
  rw [ef]
  show min (max (ρ (zbot - top)) (ρ (0.0 : ℝ))) (min (max (ρ (dzFloor depth bottom - ztop)) (ρ (0.0 : ℝ)))
    (ρ (zbot - ztop))) = _
  unfold dzCell
  rw [hm.map_min, hm.map_min, hm.map_max, hm.map_max]

/-- So its relative error is at most the unit roundoff, and order is preserved: a deeper sea floor, a lower boundary or
a higher top never make a computed thickness smaller. -/
theorem C126_error (hm : Monotone ρ) {u w : ℝ} (hr : Rounds u w ρ) (ztop zbot top depth : ℝ)
    (bottom : Option ℝ) :
    |(dzCell (⟨ztop⟩ : Rd ρ) ⟨zbot⟩ ⟨top⟩ (dzFloor ⟨depth⟩ (bottom.map Rd.mk))).val
      - dzCell ztop zbot top (dzFloor depth bottom)|
      ≤ u * max |dzCell ztop zbot top (dzFloor depth bottom)| w := by
  rw [C126_rounded hm]
  exact hr _

theorem C126_monotone (hm : Monotone ρ) (ztop zbot : ℝ) {top top' depth depth' : ℝ}
    (ht : top' ≤ top) (hd : depth ≤ depth') :
    (dzCell (⟨ztop⟩ : Rd ρ) ⟨zbot⟩ ⟨top⟩ ⟨depth⟩).val ≤ (dzCell (⟨ztop⟩ : Rd ρ) ⟨zbot⟩ ⟨top'⟩ ⟨depth'⟩).val := by
  have h1 := C126_rounded hm ztop zbot top depth none
  have h2 := C126_rounded hm ztop zbot top' depth' none
  simp only [Option.map_none, dzFloor] at h1 h2
  rw [h1, h2]
  refine hm ?_
  unfold dzCell
  exact min_le_min (max_le_max (by linarith) le_rfl) (min_le_min (max_le_max (by linarith) le_rfl) le_rfl)

/-- The computed fraction (`fraction=True`) never leaves the interval from 0 to 1, and is exactly 1 in complete cells. -/
theorem C126_fraction (hm : Monotone ρ) (h0 : ρ 0 = 0) (h1 : ρ 1 = 1) {ztop zbot top floor : ℝ} (hz : ztop ≤ zbot)
    (hne : ((⟨zbot⟩ : Rd ρ) - ⟨ztop⟩).val ≠ 0) :
    0 ≤ (dzFraction (⟨ztop⟩ : Rd ρ) ⟨zbot⟩ ⟨top⟩ ⟨floor⟩).val ∧
      (dzFraction (⟨ztop⟩ : Rd ρ) ⟨zbot⟩ ⟨top⟩ ⟨floor⟩).val ≤ 1 ∧
      (top ≤ ztop → zbot ≤ floor → (dzFraction (⟨ztop⟩ : Rd ρ) ⟨zbot⟩ ⟨top⟩ ⟨floor⟩).val = 1) := by
  have hc := C126_rounded hm ztop zbot top floor none
  simp only [Option.map_none, dzFloor] at hc
  have e0 : (0.0 : ℝ) = 0 := by norm_num
  have hf : (dzFraction (⟨ztop⟩ : Rd ρ) ⟨zbot⟩ ⟨top⟩ ⟨floor⟩).val
      = ρ (ρ (dzCell ztop zbot top floor) / ρ (zbot - ztop)) := by
    rw [← hc]; rfl
  have hne' : ρ (zbot - ztop) ≠ 0 := hne
  have p0 : 0 ≤ ρ (zbot - ztop) := by
    rw [← h0]; exact hm (by linarith)
  have p1 : 0 < ρ (zbot - ztop) := lt_of_le_of_ne p0 (Ne.symm hne')
  have q0 : 0 ≤ dzCell ztop zbot top floor := by
    unfold dzCell
    rw [e0]
    exact le_min (le_max_right _ _) (le_min (le_max_right _ _) (by linarith))
  have q1 : dzCell ztop zbot top floor ≤ zbot - ztop := by
    unfold dzCell
    exact (min_le_right _ _).trans (min_le_right _ _)
  rw [hf]
  refine ⟨?_, ?_, fun ht hfl => ?_⟩
  · rw [← h0]
    refine hm (div_nonneg ?_ p0)
    rw [← h0]
    exact hm q0
  · exact (hm ((div_le_one p1).2 (hm q1))).trans h1.le
  · have : dzCell ztop zbot top floor = zbot - ztop := by
      unfold dzCell
      rw [e0, max_eq_left (by linarith : (0 : ℝ) ≤ zbot - top), max_eq_left (by linarith : (0 : ℝ) ≤ floor - ztop),
        min_eq_right (by linarith : zbot - ztop ≤ floor - ztop), min_eq_right (by linarith)]
    rw [this, div_self hne', h1]

/-! ### Columns -/

/-- The thicknesses of a column, added up in any order, give the depth of the water up to `(1+u)^(d+1) - 1`, with `d`
the number of additions a summand goes through. -/
theorem C126_column (hm : Monotone ρ) {u : ℝ} (hu : 0 ≤ u) (hr : Rounds u 0 ρ) {n : Nat}
    {ifc : Nat → ℝ} (hi : ∀ k < n, ifc k ≤ ifc (k + 1)) (h00 : ifc 0 = 0) {depth : ℝ} (hd : 0 ≤ depth)
    {order : SumTree ℕ} (ho : order.leaves.Perm (List.range n)) :
    |(order.sum (fun k => dzCell (⟨ifc k⟩ : Rd ρ) ⟨ifc (k + 1)⟩ ⟨0⟩ ⟨depth⟩)).val - min (ifc n) depth|
      ≤ ((1 + u) ^ (order.depth + 1) - 1) * min (ifc n) depth := by
  have e0 : (0.0 : ℝ) = 0 := by norm_num
  have hge : ∀ k ≤ n, 0 ≤ ifc k := by
    intro k
    induction k with
    | zero => intro _; rw [h00]
    | succ k ih => intro hk; exact (ih (by omega)).trans (hi k (by omega))
  set f : ℕ → ℝ := fun k => dzCell (ifc k) (ifc (k + 1)) 0 depth
  have hf0 : ∀ k < n, 0 ≤ f k := by
    intro k hk
    have := hi k hk
    simp only [f, dzCell, e0]
    exact le_min (le_max_right _ _) (le_min (le_max_right _ _) (by linarith))
  have hval : ∀ k < n, f k = Spec.overlap (ifc k) (ifc (k + 1)) (ifc 0) depth := by
    intro k hk
    have q1 := hi k hk
    have q2 := hge k hk.le
    have := (cellDz_eq_overlap_iff (a := ifc k) (b := ifc (k + 1)) (t := ifc 0) (D := depth) q1).2 (by
      rintro ⟨h, -⟩
      rw [h00] at h
      linarith)
    rw [← this]
    simp only [f, dzCell, cellDz, e0, h00]
  have hsum : order.sum f = min (ifc n) depth := by
    rw [SumTree.sum_leaves, (ho.map f).sum_eq]
    have : ((List.range n).map f).sum = ∑ k ∈ Finset.range n, f k := rfl
    rw [this, Finset.sum_congr rfl (fun k hk => hval k (Finset.mem_range.1 hk)), overlap_telescope ifc depth n hi]
    unfold Spec.overlap
    have q := hge n le_rfl
    rw [max_self, h00, sub_zero, max_eq_right (le_min q hd)]
  have hmem : ∀ b ∈ order.leaves, b < n := fun b hb => List.mem_range.1 (ho.mem_iff.1 hb)
  have key := (SumTree.sum_error hr hu le_rfl
    (fun k => dzCell (⟨ifc k⟩ : Rd ρ) ⟨ifc (k + 1)⟩ ⟨0⟩ ⟨depth⟩) f (fun k => u * f k) f order
    (fun b hb => by
      have h := C126_error hm hr (ifc b) (ifc (b + 1)) 0 depth none
      simp only [Option.map_none, dzFloor] at h
      have hb' := hf0 b (hmem b hb)
      rw [max_eq_left (abs_nonneg _), abs_of_nonneg hb'] at h
      exact h)
    (fun b hb => (abs_of_nonneg (hf0 b (hmem b hb))).le)).1
  have s1 : (order.leaves.map (fun k => u * f k)).sum = u * min (ifc n) depth := by
    rw [List.sum_map_mul_left, ← SumTree.sum_leaves, hsum]
  have s2 : (order.leaves.map (fun b => f b + 0)).sum = min (ifc n) depth := by
    simp only [add_zero]
    rw [← SumTree.sum_leaves, hsum]
  rw [s1, s2, hsum] at key
  refine key.trans (le_of_eq ?_)
  ring

/-- With depths in whole metres everything is exact: every thickness, and the sum over the column in any order. -/
theorem C126_whole {p : ℕ} (hp : 1 ≤ p) {n : Nat} {ifc : Nat → ℤ} (hi : ∀ k < n, ifc k ≤ ifc (k + 1)) (h00 : ifc 0 = 0)
    (hmax : ifc n < 2 ^ p) {depth : ℤ} (hd : 0 ≤ depth) {order : SumTree ℕ}
    (ho : order.leaves.Perm (List.range n)) :
    (∀ k < n, (dzCell (⟨ifc k⟩ : Rd (nearest p)) ⟨ifc (k + 1)⟩ ⟨0⟩ ⟨depth⟩).val
      = Spec.overlap (ifc k : ℝ) (ifc (k + 1)) 0 depth) ∧
    (order.sum (fun k => dzCell (⟨ifc k⟩ : Rd (nearest p)) ⟨ifc (k + 1)⟩ ⟨0⟩ ⟨depth⟩)).val
      = min (ifc n : ℝ) depth := by
  have e0 : (0.0 : ℝ) = 0 := by norm_num
  have hge : ∀ k ≤ n, 0 ≤ ifc k := by
    intro k
    induction k with
    | zero => intro _; rw [h00]
    | succ k ih => intro hk; exact (ih (by omega)).trans (hi k (by omega))
  have hle : ∀ j ≤ n, ifc (n - j) ≤ ifc n := by
    intro j
    induction j with
    | zero => intro _; exact le_rfl
    | succ j ih =>
      intro hj
      have := hi (n - (j + 1)) (by omega)
      rw [show n - (j + 1) + 1 = n - j by omega] at this
      exact this.trans (ih (by omega))
  have hle' : ∀ k ≤ n, ifc k ≤ ifc n := fun k hk => by
    have := hle (n - k) (by omega)
    rwa [show n - (n - k) = k by omega] at this
  set F : ℕ → ℤ := fun k => max 0 (min (ifc (k + 1)) depth - ifc k)
  have hF : ∀ k < n, (F k : ℝ) = Spec.overlap (ifc k : ℝ) (ifc (k + 1)) 0 depth := by
    intro k hk
    have q2 := hge k hk.le
    simp only [F, Spec.overlap]
    push_cast
    rw [max_eq_left (by exact_mod_cast q2 : (0 : ℝ) ≤ (ifc k : ℝ))]
  have hcell : ∀ k < n, (dzCell (⟨ifc k⟩ : Rd (nearest p)) ⟨ifc (k + 1)⟩ ⟨0⟩ ⟨depth⟩).val = F k := by
    intro k hk
    have q1 := hi k hk
    have q2 := hge k hk.le
    have q3 := hle' (k + 1) hk
    have h := C126_rounded (nearest_monotone hp) (ifc k) (ifc (k + 1)) 0 depth none
    simp only [Option.map_none, dzFloor] at h
    have hx : dzCell (ifc k : ℝ) (ifc (k + 1)) 0 depth = (F k : ℝ) := by
      rw [hF k hk, ← (cellDz_eq_overlap_iff (a := (ifc k : ℝ)) (b := ifc (k + 1)) (t := 0) (D := depth)
        (by exact_mod_cast q1)).2 (by
          rintro ⟨h, -⟩
          have : (0 : ℝ) ≤ ifc k := by exact_mod_cast q2
          linarith)]
      simp only [dzCell, cellDz, e0]
    rw [h, hx]
    refine nearest_int ?_
    rw [abs_of_nonneg (le_max_left _ _)]
    refine max_lt (by positivity) ?_
    have := min_le_left (ifc (k + 1)) depth
    linarith
  refine ⟨fun k hk => (hcell k hk).trans (hF k hk), ?_⟩
  have hF0 : ∀ k, 0 ≤ F k := fun k => le_max_left _ _
  have hsum : ((List.range n).map F).sum = min (ifc n) depth := by
    have : (((List.range n).map F).sum : ℝ) = ∑ k ∈ Finset.range n, (F k : ℝ) := by
      rw [← Int.cast_sum]
      rfl
    have h2 : ∑ k ∈ Finset.range n, (F k : ℝ) = min (ifc n : ℝ) depth := by
      rw [Finset.sum_congr rfl (fun k hk => hF k (Finset.mem_range.1 hk))]
      have h3 := overlap_telescope (fun k => (ifc k : ℝ)) depth n (fun k hk => by exact_mod_cast hi k hk)
      simp only [h00, Int.cast_zero] at h3
      rw [h3]
      unfold Spec.overlap
      have q : (0 : ℝ) ≤ ifc n := by exact_mod_cast hge n le_rfl
      have q' : (0 : ℝ) ≤ depth := by exact_mod_cast hd
      rw [max_self, sub_zero, max_eq_right (le_min q q')]
    rw [h2] at this
    exact_mod_cast this
  have key : ∀ t : SumTree ℕ, (∀ b ∈ t.leaves, b < n) → (t.leaves.map F).sum < 2 ^ p →
      (t.sum (fun k => dzCell (⟨ifc k⟩ : Rd (nearest p)) ⟨ifc (k + 1)⟩ ⟨0⟩ ⟨depth⟩)).val
        = ((t.leaves.map F).sum : ℤ) ∧ 0 ≤ (t.leaves.map F).sum := by
    intro t
    induction t with
    | leaf b =>
      intro hb _
      simp only [SumTree.leaves, List.map_cons, List.map_nil, List.sum_cons, List.sum_nil, add_zero]
      exact ⟨hcell b (hb b (by simp [SumTree.leaves])), hF0 b⟩
    | node l r ihl ihr =>
      intro hb hs
      simp only [SumTree.leaves, List.map_append, List.sum_append] at hs ⊢
      have nn : ∀ t : SumTree ℕ, 0 ≤ (t.leaves.map F).sum := fun t =>
        List.sum_nonneg (by simp only [List.mem_map]; rintro _ ⟨k, -, rfl⟩; exact hF0 k)
      have n1 := nn l
      have n2 := nn r
      have a := (ihl (fun b h => hb b (by simp [SumTree.leaves, h])) (by linarith)).1
      have b := (ihr (fun b h => hb b (by simp [SumTree.leaves, h])) (by linarith)).1
      refine ⟨?_, by linarith⟩
      show nearest p ((SumTree.sum (fun k => dzCell (⟨ifc k⟩ : Rd (nearest p)) ⟨ifc (k + 1)⟩ ⟨0⟩ ⟨depth⟩) l).val
        + (SumTree.sum (fun k => dzCell (⟨ifc k⟩ : Rd (nearest p)) ⟨ifc (k + 1)⟩ ⟨0⟩ ⟨depth⟩) r).val) = _
      rw [a, b, ← Int.cast_add]
      refine nearest_int ?_
      rw [abs_of_nonneg (by linarith)]
      exact hs
  have hp' := (ho.map F).sum_eq
  have := (key order (fun b hb => List.mem_range.1 (ho.mem_iff.1 hb)) (by
    rw [hp', hsum]
    exact (min_le_left _ _).trans_lt hmax)).1
  rw [this, hp', hsum]
  push_cast
  rfl

/-! ### Examples -/

/-- The hypotheses of `C126_model` are met: two layers of 100 m over a sea floor at 130 m. -/
example : ∃ r, calcDz (⟨[("z_l", 2)], fun e => fin (100 * (e "z_l" : ℝ) + 50)⟩ : DA (Fl ℝ))
    ⟨[("z_i", 3)], fun e => fin (100 * (e "z_i" : ℝ))⟩ ⟨[("y", 1)], fun _ => fin 130⟩ (fin 0) none = .ok r ∧
    r.get (fun d => if d = "z_l" then 1 else 0) = fin 30 := by
  have g : DzGrid (⟨[("z_l", 2)], fun e => fin (100 * (e "z_l" : ℝ) + 50)⟩ : DA (Fl ℝ))
      ⟨[("z_i", 3)], fun e => fin (100 * (e "z_i" : ℝ))⟩ "z_l" "z_i" 2 (fun k => 100 * (k : ℝ) + 50)
      (fun k => 100 * (k : ℝ)) :=
    { ldims := rfl, lget := fun _ => rfl, lnonneg := fun _ _ => by positivity, idims := rfl, iget := fun _ => rfl,
      inonneg := by simp, imono := fun k _ => by push_cast; linarith }
  have hb : Bathy (⟨[("y", 1)], fun _ => fin 130⟩ : DA (Fl ℝ)) :=
    { wf := fun _ _ _ => rfl, nodup := by simp [DA.dimNames], vals := fun _ _ => Or.inr ⟨130, by norm_num, rfl⟩ }
  obtain ⟨r, h1, h2⟩ := C126_model g hb (by simp [DA.dimNames]) 0 none
  refine ⟨r, h1, (h2 _ ?_).trans ?_⟩
  · intro p hp
    simp only [List.mem_singleton] at hp
    subst hp
    simp
  · norm_num [dzCell, dzFloor]

/-- Double precision satisfies the hypotheses. -/
example : Monotone (nearest 53) ∧ nearest 53 0 = 0 ∧ nearest 53 1 = 1 ∧ Rounds ((2 : ℝ)⁻¹ ^ 53) 0 (nearest 53) :=
  ⟨nearest_monotone (by norm_num), nearest_zero 53, by simpa using nearest_int (p := 53) (m := 1) (by norm_num),
    C91_nearest 53⟩

/-- A cell from 10 m to 20 m over a sea floor at 12.5 m with a top boundary of 5 m. -/
example : (dzCell (⟨10⟩ : Rd (nearest 53)) ⟨20⟩ ⟨5⟩ (dzFloor ⟨12.5⟩ ((none : Option ℝ).map Rd.mk))).val
    = nearest 53 2.5 := by
  rw [C126_rounded (nearest_monotone (by norm_num))]
  congr 1
  norm_num [dzCell, dzFloor]

/-- The fraction of that cell lies between 0 and 1. -/
example : (dzFraction (⟨10⟩ : Rd (nearest 53)) ⟨20⟩ ⟨5⟩ ⟨12.5⟩).val ≤ 1 := by
  refine (C126_fraction (nearest_monotone (by norm_num)) (nearest_zero 53)
    (by simpa using nearest_int (p := 53) (m := 1) (by norm_num)) (by norm_num) ?_).2.1
  show nearest 53 (20 - 10) ≠ 0
  have := nearest_int (p := 53) (m := 10) (by norm_num)
  norm_num at this ⊢
  rw [this]
  norm_num

/-- Layers of 10 m and 20 m over a sea floor at 25 m: the two thicknesses add up to 25 m exactly. -/
example : ((SumTree.node (.leaf 1) (.leaf 0)).sum
    (fun k => dzCell (⟨((![0, 10, 30] : Fin 3 → ℤ) (Fin.ofNat 3 k) : ℤ)⟩ : Rd (nearest 53))
      ⟨((![0, 10, 30] : Fin 3 → ℤ) (Fin.ofNat 3 (k + 1)) : ℤ)⟩ ⟨0⟩ ⟨(25 : ℤ)⟩)).val = 25 := by
  have := (C126_whole (p := 53) (by norm_num) (n := 2)
    (ifc := fun k => (![0, 10, 30] : Fin 3 → ℤ) (Fin.ofNat 3 k))
    (by intro k hk; interval_cases k <;> simp [Fin.ofNat]) (by simp [Fin.ofNat]) (by simp [Fin.ofNat]) (depth := 25)
    (by norm_num) (order := .node (.leaf 1) (.leaf 0)) (List.Perm.swap 0 1 [])).2
  rw [this]
  simp [Fin.ofNat]
  norm_num

/-- The same column in any rounding with relative error `u`. -/
example {u : ℝ} (hu : 0 ≤ u) (hm : Monotone ρ) (hr : Rounds u 0 ρ) :
    |((SumTree.node (.leaf 0) (.leaf 1)).sum
      (fun k : ℕ => dzCell (⟨(fun k : ℕ => 10 * (k : ℝ)) k⟩ : Rd ρ) ⟨(fun k : ℕ => 10 * (k : ℝ)) (k + 1)⟩ ⟨0⟩
        ⟨25 / 2⟩)).val - 25 / 2| ≤ ((1 + u) ^ 2 - 1) * (25 / 2) := by
  have h := C126_column (ifc := fun k : ℕ => 10 * (k : ℝ)) hm hu hr (n := 2) (fun k _ => by push_cast; linarith)
    (by simp) (depth := 25 / 2) (by norm_num) (order := .node (.leaf 0) (.leaf 1)) (List.Perm.refl _)
  have e : min (10 * ((2 : ℕ) : ℝ)) (25 / 2) = 25 / 2 := by norm_num
  simp only [e] at h
  exact h

end Momlevel.Props
