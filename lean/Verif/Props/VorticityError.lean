import Verif.Props.VorticityFlows
import Verif.Lemmas.MidpointRule

/-! # C157: accuracy of the relative vorticity of a smooth flow

On a Cartesian grid of any spacing whose corners lie half way between the centres the discrete
vorticity differs from the true one by at most the third derivatives times the squared spacings
over 24, and by exactly that for cubic flows. -/

set_option linter.unusedSectionVars false

namespace Momlevel.Props
open Fl

/-- The middle between the centres on either side of corner `k`. -/
noncomputable def between (s : Bool) (X : ℤ → ℝ) (k : Nat) : ℝ := (X (k - Spec.shift s) + X (k - Spec.shift s + 1)) / 2

/-- The distance of the centres on either side of corner `k`. -/
def gap (s : Bool) (X : ℤ → ℝ) (k : Nat) : ℝ := X (k - Spec.shift s + 1) - X (k - Spec.shift s)

section
variable (dset : DS (Fl ℝ)) (nu nv ndx ndy na xc yc xq yq : String) (s : Bool)
    {u dx v dy area : DA (Fl ℝ)} {nx ny : Nat} {e : Env} {U DX V DY A : Nat → Nat → ℝ}

theorem vort_quotients
    (lu : dset.vars.lookup nu = some u) (ldx : dset.vars.lookup ndx = some dx)
    (lv : dset.vars.lookup nv = some v) (ldy : dset.vars.lookup ndy = some dy)
    (la : dset.vars.lookup na = some area)
    (g : CGrid u dx v dy area xc yc xq yq s nx ny e U DX V DY A)
    (X Y : ℤ → ℝ) (hX : ∀ k, X k < X (k + 1)) (hY : ∀ k, Y k < Y (k + 1))
    (hDX : ∀ j i : Nat, DX j i = gap s X i) (hDY : ∀ j i : Nat, DY j i = gap s Y j)
    (hA : ∀ j i : Nat, A j i = gap s X i * gap s Y j) (uf vf : ℝ → ℝ → ℝ)
    (hU : ∀ j i : Nat, U j i = uf (between s X i) (Y j)) (hV : ∀ j i : Nat, V j i = vf (X i) (between s Y j)) :
    ∃ r, calcRelVort dset (some (vortMap nu nv ndx ndy na)) (some (coordDict xc yc xq yq)) s = .ok r ∧
      ∀ j i : Nat, InnerCorner s ny nx j i →
        r.get (Function.update (Function.update e yq j) xq i) = fin
          ((vf (X (i - Spec.shift s + 1)) (between s Y j) - vf (X (i - Spec.shift s)) (between s Y j)) / gap s X i
          - (uf (between s X i) (Y (j - Spec.shift s + 1)) - uf (between s X i) (Y (j - Spec.shift s))) / gap s Y j) := by
  obtain ⟨r, hr, h⟩ := C18_circulation dset nu nv ndx ndy na xc yc xq yq s lu ldx lv ldy la g
  refine ⟨r, hr, fun j i hin => ?_⟩
  obtain ⟨⟨p, q⟩, p', q'⟩ := hin
  have gx : gap s X i ≠ 0 := (sub_pos.2 (hX _)).ne'
  have gy : gap s Y j ≠ 0 := (sub_pos.2 (hY _)).ne'
  rw [h j i]
  rw [pad_in p (by omega), pad_in (by omega) q, pad_in p' (by omega), pad_in (by omega) q']
  simp only [hU, hV, hDX, hDY, hA, Int.toNat_of_nonneg p, Int.toNat_of_nonneg p',
    Int.toNat_of_nonneg (show 0 ≤ (j : ℤ) - Spec.shift s + 1 by omega),
    Int.toNat_of_nonneg (show 0 ≤ (i : ℤ) - Spec.shift s + 1 by omega)]
  congr 1
  field_simp
  ring

theorem centre_quotient_error {F g g1 g2 : ℝ → ℝ} {a b M : ℝ} (hab : a < b) (h : Smooth F g g1 g2 a b M) :
    |(F b - F a) / (b - a) - g ((a + b) / 2)| ≤ M * (b - a) ^ 2 / 24 := by
  have h0 : 0 < b - a := sub_pos.2 hab
  have := midpoint_error hab.le h
  rw [abs_sub_comm] at this
  rw [show (F b - F a) / (b - a) - g ((a + b) / 2) = ((F b - F a) - (b - a) * g ((a + b) / 2)) / (b - a) by
    field_simp, abs_div, abs_of_pos h0, div_le_iff₀ h0]
  refine this.trans (le_of_eq (by ring))

/-- C157 (error): at a corner with centres on both sides, where `∂v/∂x = v1` and `∂u/∂y = u1`. -/
theorem C157_error
    (lu : dset.vars.lookup nu = some u) (ldx : dset.vars.lookup ndx = some dx)
    (lv : dset.vars.lookup nv = some v) (ldy : dset.vars.lookup ndy = some dy)
    (la : dset.vars.lookup na = some area)
    (g : CGrid u dx v dy area xc yc xq yq s nx ny e U DX V DY A)
    (X Y : ℤ → ℝ) (hX : ∀ k, X k < X (k + 1)) (hY : ∀ k, Y k < Y (k + 1))
    (hDX : ∀ j i : Nat, DX j i = gap s X i) (hDY : ∀ j i : Nat, DY j i = gap s Y j)
    (hA : ∀ j i : Nat, A j i = gap s X i * gap s Y j) (uf vf : ℝ → ℝ → ℝ)
    (hU : ∀ j i : Nat, U j i = uf (between s X i) (Y j)) (hV : ∀ j i : Nat, V j i = vf (X i) (between s Y j)) :
    ∃ r, calcRelVort dset (some (vortMap nu nv ndx ndy na)) (some (coordDict xc yc xq yq)) s = .ok r ∧
      ∀ j i : Nat, InnerCorner s ny nx j i → ∀ u1 u2 u3 v1 v2 v3 Mu Mv,
        Smooth (fun x => vf x (between s Y j)) v1 v2 v3 (X (i - Spec.shift s)) (X (i - Spec.shift s + 1)) Mv →
        Smooth (fun y => uf (between s X i) y) u1 u2 u3 (Y (j - Spec.shift s)) (Y (j - Spec.shift s + 1)) Mu →
        ∃ ζ, r.get (Function.update (Function.update e yq j) xq i) = fin ζ ∧
          |ζ - (v1 (between s X i) - u1 (between s Y j))| ≤ (Mv * gap s X i ^ 2 + Mu * gap s Y j ^ 2) / 24 := by
  obtain ⟨r, hr, h⟩ := vort_quotients dset nu nv ndx ndy na xc yc xq yq s lu ldx lv ldy la g X Y hX hY hDX hDY hA uf vf hU hV
  refine ⟨r, hr, fun j i hin u1 u2 u3 v1 v2 v3 Mu Mv sv su => ⟨_, h j i hin, ?_⟩⟩
  have e1 := centre_quotient_error (hX _) sv
  have e2 := centre_quotient_error (hY _) su
  have e3 := (abs_sub _ _).trans (add_le_add e1 e2)
  refine le_trans (le_of_eq ?_) (e3.trans (le_of_eq ?_))
  · congr 1; unfold gap between; ring
  · unfold gap; ring

/-- C157 (sharp): for `u = p(x) - c y³` and `v = q(y) + b x³` the discrete vorticity exceeds the true one,
`3 b x² + 3 c y²`, by exactly `b Δx²/4 + c Δy²/4`. -/
theorem C157_cubic
    (lu : dset.vars.lookup nu = some u) (ldx : dset.vars.lookup ndx = some dx)
    (lv : dset.vars.lookup nv = some v) (ldy : dset.vars.lookup ndy = some dy)
    (la : dset.vars.lookup na = some area)
    (g : CGrid u dx v dy area xc yc xq yq s nx ny e U DX V DY A)
    (X Y : ℤ → ℝ) (hX : ∀ k, X k < X (k + 1)) (hY : ∀ k, Y k < Y (k + 1))
    (hDX : ∀ j i : Nat, DX j i = gap s X i) (hDY : ∀ j i : Nat, DY j i = gap s Y j)
    (hA : ∀ j i : Nat, A j i = gap s X i * gap s Y j) (p q : ℝ → ℝ) (b c : ℝ)
    (hU : ∀ j i : Nat, U j i = p (between s X i) - c * Y j ^ 3)
    (hV : ∀ j i : Nat, V j i = q (between s Y j) + b * X i ^ 3) :
    ∃ r, calcRelVort dset (some (vortMap nu nv ndx ndy na)) (some (coordDict xc yc xq yq)) s = .ok r ∧
      ∀ j i : Nat, InnerCorner s ny nx j i →
        r.get (Function.update (Function.update e yq j) xq i) = fin
          (3 * b * between s X i ^ 2 + 3 * c * between s Y j ^ 2 + (b * gap s X i ^ 2 + c * gap s Y j ^ 2) / 4) := by
  obtain ⟨r, hr, h⟩ := vort_quotients dset nu nv ndx ndy na xc yc xq yq s lu ldx lv ldy la g X Y hX hY hDX hDY hA
    (fun x y => p x - c * y ^ 3) (fun x y => q y + b * x ^ 3) hU hV
  refine ⟨r, hr, fun j i hin => ?_⟩
  rw [h j i hin]
  congr 1
  have gx : X (i - Spec.shift s + 1) - X (i - Spec.shift s) ≠ 0 := (sub_pos.2 (hX _)).ne'
  have gy : Y (j - Spec.shift s + 1) - Y (j - Spec.shift s) ≠ 0 := (sub_pos.2 (hY _)).ne'
  unfold gap between
  field_simp
  ring

end

/-! ## Example: `v = x³` on centres one metre apart -/

noncomputable section

def cubeDS : DS (Fl ℝ) :=
  ⟨[("u", ⟨[("yh", 3), ("xq", 3)], fun _ => fin 0⟩),
    ("dx", ⟨[("yh", 3), ("xq", 3)], fun _ => fin 1⟩),
    ("v", ⟨[("yq", 3), ("xh", 3)], fun e => fin ((e "xh" : ℝ) ^ 3)⟩),
    ("dy", ⟨[("yq", 3), ("xh", 3)], fun _ => fin 1⟩),
    ("area", ⟨[("yq", 3), ("xq", 3)], fun _ => fin 1⟩)], []⟩

theorem cubeDS_grid :
    CGrid (⟨[("yh", 3), ("xq", 3)], fun _ => fin 0⟩ : DA (Fl ℝ)) ⟨[("yh", 3), ("xq", 3)], fun _ => fin 1⟩
      ⟨[("yq", 3), ("xh", 3)], fun e => fin ((e "xh" : ℝ) ^ 3)⟩ ⟨[("yq", 3), ("xh", 3)], fun _ => fin 1⟩
      ⟨[("yq", 3), ("xq", 3)], fun _ => fin 1⟩ "xh" "yh" "xq" "yq" false 3 3 (fun _ => 0)
      (fun _ _ => 0) (fun _ _ => 1) (fun _ i => (i : ℝ) ^ 3) (fun _ _ => 1) (fun _ _ => 1) := by
  constructor
  case hA => intro j i; exact one_ne_zero
  any_goals (intro e' _; rfl)
  any_goals (simp [DA.dimNames])
  · rfl
  · rfl

/-- At the corner half way between the centres 1 and 2 the true vorticity is 27/4, the discrete one 7. -/
example : ∃ r, calcRelVort cubeDS (some (vortMap "u" "v" "dx" "dy" "area")) (some (coordDict "xh" "yh" "xq" "yq")) false
      = .ok r ∧ r.get (Function.update (Function.update (fun _ => 0) "yq" 0) "xq" 1) = fin (27 / 4 + 1 / 4) := by
  obtain ⟨r, hr, h⟩ := C157_cubic cubeDS "u" "v" "dx" "dy" "area" "xh" "yh" "xq" "yq" false rfl rfl rfl rfl rfl cubeDS_grid
    (fun k => k) (fun k => k) (fun k => by push_cast; linarith) (fun k => by push_cast; linarith)
    (fun j i => by simp [gap]) (fun j i => by simp [gap]) (fun j i => by simp [gap]) (fun _ => 0) (fun _ => 0) 1 0
    (fun j i => by simp) (fun j i => by simp)
  refine ⟨r, hr, ?_⟩
  rw [h 0 1 (by unfold InnerCorner Spec.shift; simp)]
  congr 1
  simp [gap, between, Spec.shift]
  norm_num

/-- The bound of `C157_error` is attained there. -/
example : ∃ r ζ, calcRelVort cubeDS (some (vortMap "u" "v" "dx" "dy" "area")) (some (coordDict "xh" "yh" "xq" "yq")) false
      = .ok r ∧ r.get (Function.update (Function.update (fun _ => 0) "yq" 0) "xq" 1) = fin ζ ∧ |ζ - 27 / 4| ≤ 1 / 4 := by
  obtain ⟨r, hr, h⟩ := C157_error cubeDS "u" "v" "dx" "dy" "area" "xh" "yh" "xq" "yq" false rfl rfl rfl rfl rfl cubeDS_grid
    (fun k => k) (fun k => k) (fun k => by push_cast; linarith) (fun k => by push_cast; linarith)
    (fun j i => by simp [gap]) (fun j i => by simp [gap]) (fun j i => by simp [gap]) (fun _ _ => 0) (fun x _ => x ^ 3)
    (fun j i => by simp) (fun j i => by simp)
  obtain ⟨ζ, h1, h2⟩ := h 0 1 (by unfold InnerCorner Spec.shift; simp) (fun _ => 0) (fun _ => 0) (fun _ => 0)
    (fun x => 3 * x ^ 2) (fun x => 6 * x) (fun _ => 6) 0 6
    { d1 := fun t _ _ => ((hasDerivAt_id t).pow 3).congr_deriv (by simp)
      d2 := fun t _ _ => (((hasDerivAt_id t).pow 2).const_mul 3).congr_deriv (by simp; ring)
      d3 := fun t _ _ => ((hasDerivAt_id t).const_mul 6).congr_deriv (by simp)
      bound := fun t _ _ => by rw [abs_of_pos (by norm_num)] }
    { d1 := fun t _ _ => hasDerivAt_const t _
      d2 := fun t _ _ => hasDerivAt_const t _
      d3 := fun t _ _ => hasDerivAt_const t _
      bound := fun t _ _ => by simp }
  refine ⟨r, ζ, hr, h1, ?_⟩
  simp only [gap, between, Spec.shift] at h2
  norm_num at h2
  convert h2 using 2

end

end Momlevel.Props
