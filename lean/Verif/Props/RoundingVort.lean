import Verif.Model.RoundingVort
import Verif.Props.RoundingWave
import Verif.Props.Vorticity

/-! # C132: vorticity in floating point -/

set_option linter.unusedSectionVars false

namespace Momlevel.Props
open Momlevel Momlevel.Fl Momlevel.Spec

variable {ρ : ℝ → ℝ} {u : ℝ}

/-- A rounded sum of numbers that carry errors. -/
theorem add_error (hr : Rounds u 0 ρ) (hu : 0 ≤ u) {a a' b b' A B g : ℝ} (hA : |a| ≤ A) (hB : |b| ≤ B)
    (ha : |a' - a| ≤ (g - 1) * A) (hb : |b' - b| ≤ (g - 1) * B) :
    |ρ (a' + b') - (a + b)| ≤ ((1 + u) * g - 1) * (A + B) := by
  have h1 := hr (a' + b')
  rw [max_eq_left (abs_nonneg _)] at h1
  have h2 : |(a' + b') - (a + b)| ≤ (g - 1) * (A + B) := by
    have := abs_add_le (a' - a) (b' - b)
    rw [show a' + b' - (a + b) = (a' - a) + (b' - b) by ring]
    linarith
  have h3 : |a' + b'| ≤ g * (A + B) := by
    have := abs_sub_abs_le_abs_sub (a' + b') (a + b)
    have := abs_add_le a b
    linarith
  have h4 := abs_sub_le (ρ (a' + b')) (a' + b') (a + b)
  have h5 := mul_le_mul_of_nonneg_left h3 hu
  linarith

theorem sub_error (hr : Rounds u 0 ρ) (hu : 0 ≤ u) {a a' b b' A B g : ℝ} (hA : |a| ≤ A) (hB : |b| ≤ B)
    (ha : |a' - a| ≤ (g - 1) * A) (hb : |b' - b| ≤ (g - 1) * B) :
    |ρ (a' - b') - (a - b)| ≤ ((1 + u) * g - 1) * (A + B) := by
  have := add_error hr hu (b := -b) (b' := -b') (B := B) hA (by rwa [abs_neg]) ha (by rw [← neg_sub', abs_neg]; exact hb)
  simpa only [sub_eq_add_neg] using this

/-- A rounded quotient. -/
theorem div_error (hr : Rounds u 0 ρ) (hu : 0 ≤ u) {g S S' M W : ℝ} (hW : W ≠ 0) (hM : |S| ≤ M)
    (h : |S' - S| ≤ (g - 1) * M) : |ρ (S' / W) - S / W| ≤ ((1 + u) * g - 1) * (M / |W|) := by
  rcases lt_or_gt_of_ne hW with hn | hp
  · have := quotient_error hr hu (S := -S) (S' := -S') (M := M) (g := g) (neg_pos.2 hn) (by rwa [abs_neg])
      (by rw [← neg_sub', abs_neg]; exact h)
    rwa [neg_div_neg_eq, neg_div_neg_eq, ← abs_of_neg hn] at this
  · have := quotient_error hr hu hp hM h
    rwa [abs_of_pos hp]

/-- One product of velocity and length, extended by zero. -/
theorem edge_error (hr : Rounds u 0 ρ) (n : ℕ) (f g : ℕ → ℝ) (k : ℤ) :
    |(pad (⟨0⟩ : Rd ρ) n (fun k => ⟨f k⟩ * ⟨g k⟩) k).val - pad 0 n (fun k => f k * g k) k|
      ≤ ((1 + u) - 1) * |pad 0 n (fun k => f k * g k) k| := by
  unfold pad
  split
  · have := hr (f k.toNat * g k.toNat)
    rw [max_eq_left (abs_nonneg _)] at this
    rw [add_sub_cancel_left]
    exact this
  · simp

/-- Relative vorticity: the error is at most `(1+u)⁴ - 1` times the sum of the magnitudes of the four edge
contributions over the area of the cell. -/
theorem C132_vorticity (hr : Rounds u 0 ρ) (hu : 0 ≤ u) (dset : DS (Fl ℝ))
    (nu nv ndx ndy na xc yc xq yq : String) (s : Bool)
    {uo dx v dy area : DA (Fl ℝ)} {nx ny : Nat} {e : Env} {U DX V DY A : Nat → Nat → ℝ}
    (lu : dset.vars.lookup nu = some uo) (ldx : dset.vars.lookup ndx = some dx)
    (lv : dset.vars.lookup nv = some v) (ldy : dset.vars.lookup ndy = some dy)
    (la : dset.vars.lookup na = some area)
    (g : CGrid uo dx v dy area xc yc xq yq s nx ny e U DX V DY A) :
    ∃ r, calcRelVort dset (some (vortMap nu nv ndx ndy na)) (some (coordDict xc yc xq yq)) s = .ok r ∧
      ∀ j i : Nat,
        let j' : ℤ := j - shift s
        let i' : ℤ := i - shift s
        let P : ℤ → ℝ := pad 0 ny (fun k => U k i * DX k i)
        let Q : ℤ → ℝ := pad 0 nx (fun k => V j k * DY j k)
        let P' : ℤ → Rd ρ := pad ⟨0⟩ ny (fun k => ⟨U k i⟩ * ⟨DX k i⟩)
        let Q' : ℤ → Rd ρ := pad ⟨0⟩ nx (fun k => ⟨V j k⟩ * ⟨DY j k⟩)
        ∃ Z, r.get (Function.update (Function.update e yq j) xq i) = fin Z ∧
          Z = vortPoint (P j') (P (j' + 1)) (Q i') (Q (i' + 1)) (A j i) ∧
          |(vortPoint (P' j') (P' (j' + 1)) (Q' i') (Q' (i' + 1)) ⟨A j i⟩).val - Z|
            ≤ ((1 + u) ^ 4 - 1) * ((|P j'| + |P (j' + 1)| + |Q i'| + |Q (i' + 1)|) / |A j i|) := by
  obtain ⟨r, h1, h2⟩ := C18_circulation dset nu nv ndx ndy na xc yc xq yq s lu ldx lv ldy la g
  refine ⟨r, h1, fun j i => ?_⟩
  intro j' i' P Q P' Q'
  have hv := h2 j i
  have e1 : (P j' - P (j' + 1) + Q (i' + 1) - Q i') / A j i
      = vortPoint (P j') (P (j' + 1)) (Q i') (Q (i' + 1)) (A j i) := by
    unfold vortPoint; ring
  refine ⟨_, hv.trans (congrArg fin e1), rfl, ?_⟩
  have p0 := edge_error hr ny (fun k => U k i) (fun k => DX k i) j'
  have p1 := edge_error hr ny (fun k => U k i) (fun k => DX k i) (j' + 1)
  have q0 := edge_error hr nx (fun k => V j k) (fun k => DY j k) i'
  have q1 := edge_error hr nx (fun k => V j k) (fun k => DY j k) (i' + 1)
  have a := sub_error hr hu le_rfl le_rfl p1 p0
  have b := sub_error hr hu le_rfl le_rfl q1 q0
  have a' : |-ρ ((P' (j' + 1)).val - (P' j').val) - -(P (j' + 1) - P j')|
      ≤ ((1 + u) * (1 + u) - 1) * (|P (j' + 1)| + |P j'|) := by
    rw [← neg_sub', abs_neg]; exact a
  have c := add_error hr hu (a := -(P (j' + 1) - P j')) (by rw [abs_neg]; exact abs_sub _ _) (abs_sub _ _) a' b
  have d := div_error hr hu (g.hA j i) ((abs_add_le _ _).trans (add_le_add
    (by rw [abs_neg]; exact abs_sub _ _) (abs_sub _ _))) c
  have e2 : ((1 + u) ^ 4 - 1) * ((|P j'| + |P (j' + 1)| + |Q i'| + |Q (i' + 1)|) / |A j i|)
      = ((1 + u) * ((1 + u) * ((1 + u) * (1 + u))) - 1)
        * ((|P (j' + 1)| + |P j'| + (|Q (i' + 1)| + |Q i'|)) / |A j i|) := by ring
  rw [e2]
  exact d

/-- Potential vorticity: the relative error is at most `(1+u)³ - 1`; no cancellation between the two parts of
the absolute vorticity makes it larger. -/
theorem C132_pv (hr : Rounds u 0 ρ) (hu : 0 ≤ u) (zeta f n2 : DA (Fl ℝ)) (g : ℝ) (hg : g ≠ 0)
    (cd : Option (List (String × String))) (s : Bool) :
    ∃ r, calcPv zeta f n2 (fin g) cd s "m" false = .ok r ∧
      ∀ e a b c, zeta.get e = fin a → f.get e = fin b → n2.get e = fin c →
        ∃ q, r.get e = fin q ∧ |(pvPoint (⟨a⟩ : Rd ρ) ⟨b⟩ ⟨c⟩ ⟨g⟩).val - q| ≤ ((1 + u) ^ 3 - 1) * |q| := by
  obtain ⟨r, h1, -, h2⟩ := C17_no_interp zeta f n2 g hg cd s
  refine ⟨r, h1, fun e a b c ha hb hc => ⟨_, h2 e a b c ha hb hc, ?_⟩⟩
  have k1 := hr (a + b)
  have k2 := hr (c / g)
  have k3 := hr (ρ (a + b) * ρ (c / g))
  rw [max_eq_left (abs_nonneg _)] at k1 k2 k3
  rw [mul_div_assoc]
  show |ρ (ρ (a + b) * ρ (c / g)) - (a + b) * (c / g)| ≤ _
  set x := a + b
  set y := c / g
  have m1 : |ρ x| ≤ (1 + u) * |x| := by have := abs_sub_abs_le_abs_sub (ρ x) x; linarith
  have m2 : |ρ x * ρ y - x * y| ≤ ((1 + u) ^ 2 - 1) * |x * y| := by
    have : ρ x * ρ y - x * y = ρ x * (ρ y - y) + (ρ x - x) * y := by ring
    rw [this, abs_mul x y]
    refine (abs_add_le _ _).trans ?_
    rw [abs_mul, abs_mul]
    have n1 := mul_le_mul m1 k2 (abs_nonneg _) (by positivity)
    have n2 := mul_le_mul_of_nonneg_right k1 (abs_nonneg y)
    nlinarith
  have m3 : |ρ x * ρ y| ≤ (1 + u) ^ 2 * |x * y| := by
    have := abs_sub_abs_le_abs_sub (ρ x * ρ y) (x * y); linarith
  have m4 := abs_sub_le (ρ (ρ x * ρ y)) (ρ x * ρ y) (x * y)
  have m5 := mul_le_mul_of_nonneg_left m3 hu
  nlinarith

/-- In double precision the sign of the potential vorticity is the right one. -/
theorem C132_pv_sign {x' x : ℝ} (h : |x' - x| ≤ ((1 + 2⁻¹ ^ 53) ^ 3 - 1) * |x|) :
    (0 < x' ↔ 0 < x) ∧ (x' < 0 ↔ x < 0) := by
  have hk : ((1 + (2⁻¹ : ℝ) ^ 53) ^ 3 - 1) ≤ 1 / 2 := by norm_num
  have h' := h.trans (mul_le_mul_of_nonneg_right hk (abs_nonneg _))
  have := abs_le.1 h'
  rcases lt_trichotomy x 0 with hx | rfl | hx
  · rw [abs_of_neg hx] at this
    constructor <;> constructor <;> intro _ <;> linarith
  · simp at this
    have : x' = 0 := by linarith [this.1, this.2]
    simp [this]
  · rw [abs_of_pos hx] at this
    constructor <;> constructor <;> intro _ <;> linarith

/-- Non-vacuity: a grid, and a point with both parts of the absolute vorticity. -/
example : let mk : List String → ℝ → DA (Fl ℝ) := fun ds c =>
      ⟨ds.map (fun d => (d, 2)), fun e => fin (c + (ds.map (fun d => (e d : ℝ))).sum)⟩
    CGrid (mk ["yh", "xq"] 1) (mk ["yh", "xq"] 2) (mk ["yq", "xh"] 3) (mk ["yq", "xh"] 4)
      (mk ["yq", "xq"] 5) "xh" "yh" "xq" "yq" false 2 2 (fun _ => 0)
      (fun j i => 1 + (j + i)) (fun j i => 2 + (j + i)) (fun j i => 3 + (j + i))
      (fun j i => 4 + (j + i)) (fun j i => 5 + (j + i)) := by
  intro mk
  constructor
  case hA =>
    intro j i h
    have : (0 : ℝ) ≤ (j : ℝ) + i := by positivity
    linarith
  any_goals (intro e' _; simp [mk])
  any_goals (simp [mk, DA.dimNames])
  · rfl
  · rfl

example : ∃ r, calcPv (DA.scalar (fin (-1e-5 : ℝ))) (DA.scalar (fin 1e-4)) (DA.scalar (fin 1e-5)) (fin 9.8) none
      false "m" false = .ok r ∧ ∃ q, r.get (fun _ => 0) = fin q ∧
        |(pvPoint (⟨-1e-5⟩ : Rd (nearest 53)) ⟨1e-4⟩ ⟨1e-5⟩ ⟨9.8⟩).val - q| ≤ ((1 + 2⁻¹ ^ 53) ^ 3 - 1) * |q| := by
  obtain ⟨r, h1, h2⟩ := C132_pv (C91_nearest 53) (by positivity) (DA.scalar (fin (-1e-5 : ℝ)))
    (DA.scalar (fin 1e-4)) (DA.scalar (fin 1e-5)) 9.8 (by norm_num) none false
  exact ⟨r, h1, h2 _ _ _ _ rfl rfl rfl⟩

end Momlevel.Props
