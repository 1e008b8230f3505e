import Verif.Props.Vorticity

/-! # C140: vorticity of flows whose vorticity is known

Flows with a velocity potential, and flows that are a sum of a shear and a uniform motion on a
Cartesian grid of uneven spacing. Away from the outer rows the discrete vorticity is exact; in the
last row the edge outside the grid carries nothing, so that even a uniform flow has vorticity. -/

set_option linter.unusedSectionVars false

namespace Momlevel.Props
open Fl

variable {K : Type} [Field K] [LinearOrder K] [IsStrictOrderedRing K]

/-- The corner with numbers `j`, `i` has a centre on either side in both directions. -/
def InnerCorner (s : Bool) (ny nx j i : Nat) : Prop :=
  (0 ≤ (j : ℤ) - Spec.shift s ∧ (j : ℤ) - Spec.shift s + 1 < ny) ∧
    (0 ≤ (i : ℤ) - Spec.shift s ∧ (i : ℤ) - Spec.shift s + 1 < nx)

theorem pad_in {V : Type} {z : V} {n : Nat} {f : Nat → V} {k : ℤ} (h0 : 0 ≤ k) (h1 : k < n) :
    Spec.pad z n f k = f k.toNat := if_pos ⟨h0, h1⟩

/-- A flow with a potential `φ` (given at the centres) has no vorticity at the inner corners. -/
theorem C140_potential (dset : DS (Fl K)) (nu nv ndx ndy na xc yc xq yq : String) (s : Bool)
    {u dx v dy area : DA (Fl K)} {nx ny : Nat} {e : Env} {U DX V DY A : Nat → Nat → K}
    (lu : dset.vars.lookup nu = some u) (ldx : dset.vars.lookup ndx = some dx)
    (lv : dset.vars.lookup nv = some v) (ldy : dset.vars.lookup ndy = some dy)
    (la : dset.vars.lookup na = some area)
    (g : CGrid u dx v dy area xc yc xq yq s nx ny e U DX V DY A) (φ : ℤ → ℤ → K)
    (hU : ∀ j i : Nat, U j i * DX j i = φ j (i - Spec.shift s + 1) - φ j (i - Spec.shift s))
    (hV : ∀ j i : Nat, V j i * DY j i = φ (j - Spec.shift s + 1) i - φ (j - Spec.shift s) i) :
    ∃ r, calcRelVort dset (some (vortMap nu nv ndx ndy na)) (some (coordDict xc yc xq yq)) s = .ok r ∧
      ∀ j i : Nat, InnerCorner s ny nx j i →
        r.get (Function.update (Function.update e yq j) xq i) = fin 0 := by
  obtain ⟨r, hr, h⟩ := C18_circulation dset nu nv ndx ndy na xc yc xq yq s lu ldx lv ldy la g
  refine ⟨r, hr, fun j i hin => ?_⟩
  obtain ⟨⟨a, b⟩, c, d⟩ := hin
  rw [h j i]
  rw [pad_in a (by omega), pad_in (by omega) b, pad_in c (by omega), pad_in (by omega) d]
  simp only [hU, hV, Int.toNat_of_nonneg a, Int.toNat_of_nonneg c,
    Int.toNat_of_nonneg (show 0 ≤ (j : ℤ) - Spec.shift s + 1 by omega),
    Int.toNat_of_nonneg (show 0 ≤ (i : ℤ) - Spec.shift s + 1 by omega)]
  congr 1
  rw [div_eq_zero_iff]
  left
  ring

/-- On a Cartesian grid with centres at `X`, `Y` (any spacing), the eastward velocity changing by `c`
per unit of `y` and the northward one by `b` per unit of `x`: the vorticity is `b - c` at every
inner corner, however `u` varies with `x` and `v` with `y`. -/
theorem C140_linear (dset : DS (Fl K)) (nu nv ndx ndy na xc yc xq yq : String) (s : Bool)
    {u dx v dy area : DA (Fl K)} {nx ny : Nat} {e : Env} {U DX V DY A : Nat → Nat → K}
    (lu : dset.vars.lookup nu = some u) (ldx : dset.vars.lookup ndx = some dx)
    (lv : dset.vars.lookup nv = some v) (ldy : dset.vars.lookup ndy = some dy)
    (la : dset.vars.lookup na = some area)
    (g : CGrid u dx v dy area xc yc xq yq s nx ny e U DX V DY A)
    (X Y : ℤ → K) (F G : Nat → K) (b c : K)
    (hDX : ∀ j i : Nat, DX j i = X (i - Spec.shift s + 1) - X (i - Spec.shift s))
    (hDY : ∀ j i : Nat, DY j i = Y (j - Spec.shift s + 1) - Y (j - Spec.shift s))
    (hA : ∀ j i : Nat, A j i = (X (i - Spec.shift s + 1) - X (i - Spec.shift s))
      * (Y (j - Spec.shift s + 1) - Y (j - Spec.shift s)))
    (hU : ∀ j i : Nat, U j i = F i + c * Y j) (hV : ∀ j i : Nat, V j i = G j + b * X i) :
    ∃ r, calcRelVort dset (some (vortMap nu nv ndx ndy na)) (some (coordDict xc yc xq yq)) s = .ok r ∧
      ∀ j i : Nat, InnerCorner s ny nx j i →
        r.get (Function.update (Function.update e yq j) xq i) = fin (b - c) := by
  obtain ⟨r, hr, h⟩ := C18_circulation dset nu nv ndx ndy na xc yc xq yq s lu ldx lv ldy la g
  refine ⟨r, hr, fun j i hin => ?_⟩
  obtain ⟨⟨p, q⟩, p', q'⟩ := hin
  have ha := g.hA j i
  rw [h j i]
  rw [pad_in p (by omega), pad_in (by omega) q, pad_in p' (by omega), pad_in (by omega) q']
  rw [hA] at ha ⊢
  simp only [hU, hV, hDX, hDY, Int.toNat_of_nonneg p, Int.toNat_of_nonneg p',
    Int.toNat_of_nonneg (show 0 ≤ (j : ℤ) - Spec.shift s + 1 by omega),
    Int.toNat_of_nonneg (show 0 ≤ (i : ℤ) - Spec.shift s + 1 by omega)]
  congr 1
  rw [div_eq_iff ha]
  ring

/-- Solid-body rotation at the rate `Ω` has vorticity `2 Ω`. -/
theorem C140_rotation (dset : DS (Fl K)) (nu nv ndx ndy na xc yc xq yq : String) (s : Bool)
    {u dx v dy area : DA (Fl K)} {nx ny : Nat} {e : Env} {U DX V DY A : Nat → Nat → K}
    (lu : dset.vars.lookup nu = some u) (ldx : dset.vars.lookup ndx = some dx)
    (lv : dset.vars.lookup nv = some v) (ldy : dset.vars.lookup ndy = some dy)
    (la : dset.vars.lookup na = some area)
    (g : CGrid u dx v dy area xc yc xq yq s nx ny e U DX V DY A)
    (X Y : ℤ → K) (x0 y0 Ω : K)
    (hDX : ∀ j i : Nat, DX j i = X (i - Spec.shift s + 1) - X (i - Spec.shift s))
    (hDY : ∀ j i : Nat, DY j i = Y (j - Spec.shift s + 1) - Y (j - Spec.shift s))
    (hA : ∀ j i : Nat, A j i = (X (i - Spec.shift s + 1) - X (i - Spec.shift s))
      * (Y (j - Spec.shift s + 1) - Y (j - Spec.shift s)))
    (hU : ∀ j i : Nat, U j i = -Ω * (Y j - y0)) (hV : ∀ j i : Nat, V j i = Ω * (X i - x0)) :
    ∃ r, calcRelVort dset (some (vortMap nu nv ndx ndy na)) (some (coordDict xc yc xq yq)) s = .ok r ∧
      ∀ j i : Nat, InnerCorner s ny nx j i →
        r.get (Function.update (Function.update e yq j) xq i) = fin (2 * Ω) := by
  obtain ⟨r, hr, h⟩ := C140_linear dset nu nv ndx ndy na xc yc xq yq s lu ldx lv ldy la g X Y
    (fun _ => Ω * y0) (fun _ => -Ω * x0) Ω (-Ω) hDX hDY hA
    (fun j i => by rw [hU]; ring) (fun j i => by rw [hV]; ring)
  refine ⟨r, hr, fun j i hin => ?_⟩
  rw [h j i hin]
  congr 1
  ring

/-- In the last row of corners north of all centres (`symmetric = False`) the edge beyond the grid
carries nothing: an eastward velocity that depends on `x` only, with `v = 0`, has the vorticity
`u Δx / area` there although its velocity is the same in every row. -/
theorem C140_last_row (dset : DS (Fl K)) (nu nv ndx ndy na xc yc xq yq : String)
    {u dx v dy area : DA (Fl K)} {nx ny : Nat} {e : Env} {U DX V DY A : Nat → Nat → K}
    (lu : dset.vars.lookup nu = some u) (ldx : dset.vars.lookup ndx = some dx)
    (lv : dset.vars.lookup nv = some v) (ldy : dset.vars.lookup ndy = some dy)
    (la : dset.vars.lookup na = some area)
    (g : CGrid u dx v dy area xc yc xq yq false nx (ny + 1) e U DX V DY A)
    (F : Nat → K) (hU : ∀ j i : Nat, U j i = F i) (hV : ∀ j i : Nat, V j i = 0) :
    ∃ r, calcRelVort dset (some (vortMap nu nv ndx ndy na)) (some (coordDict xc yc xq yq)) false = .ok r ∧
      (∀ i : Nat, r.get (Function.update (Function.update e yq ny) xq i)
        = fin (F i * DX ny i / A ny i)) ∧
      ∀ i : Nat, F i ≠ 0 → DX ny i ≠ 0 →
        r.get (Function.update (Function.update e yq ny) xq i) ≠ fin 0 := by
  obtain ⟨r, hr, h⟩ := C18_circulation dset nu nv ndx ndy na xc yc xq yq false lu ldx lv ldy la g
  have key : ∀ i : Nat, r.get (Function.update (Function.update e yq ny) xq i)
      = fin (F i * DX ny i / A ny i) := by
    intro i
    rw [h ny i]
    simp only [hV, zero_mul, hU]
    have z : ∀ k : ℤ, Spec.pad (0 : K) nx (fun _ => 0) k = 0 := fun k => by
      unfold Spec.pad; split <;> rfl
    rw [z, z, pad_in (by simp [Spec.shift]) (by simp [Spec.shift])]
    have : Spec.pad (0 : K) (ny + 1) (fun k => F i * DX k i) ((ny : ℤ) - Spec.shift false + 1) = 0 :=
      if_neg (by simp [Spec.shift])
    rw [this]
    simp [Spec.shift]
  refine ⟨r, hr, key, fun i hF hd => ?_⟩
  rw [key i]
  intro hz
  injection hz with hz
  rcases div_eq_zero_iff.1 hz with hz | hz
  · exact mul_ne_zero hF hd hz
  · exact g.hA _ _ hz

/-! ## Examples -/

/-- Centres at `0, 1, 3, 7, …` metres in both directions. -/
def gapX (k : ℤ) : ℚ := 2 ^ k.toNat - 1

/-- Three by three centres and corners (`symmetric = False`), velocities `U`, `V`. -/
def flowDS (U V : Nat → Nat → ℚ) : DS (Fl ℚ) :=
  let d : Nat → ℚ := fun k => gapX (k + 1) - gapX k
  ⟨[("u", ⟨[("yh", 3), ("xq", 3)], fun e => fin (U (e "yh") (e "xq"))⟩),
    ("dx", ⟨[("yh", 3), ("xq", 3)], fun e => fin (d (e "xq"))⟩),
    ("v", ⟨[("yq", 3), ("xh", 3)], fun e => fin (V (e "yq") (e "xh"))⟩),
    ("dy", ⟨[("yq", 3), ("xh", 3)], fun e => fin (d (e "yq"))⟩),
    ("area", ⟨[("yq", 3), ("xq", 3)], fun e => fin (d (e "xq") * d (e "yq"))⟩)], []⟩

theorem gapX_step (k : Nat) : gapX (k + 1) - gapX k = 2 ^ k := by
  unfold gapX
  rw [show ((k : ℤ) + 1).toNat = k + 1 by omega, Int.toNat_natCast, pow_succ]
  ring

theorem flowDS_grid (U V : Nat → Nat → ℚ) :
    CGrid (⟨[("yh", 3), ("xq", 3)], fun e => fin (U (e "yh") (e "xq"))⟩ : DA (Fl ℚ))
      ⟨[("yh", 3), ("xq", 3)], fun e => fin (gapX (e "xq" + 1) - gapX (e "xq"))⟩
      ⟨[("yq", 3), ("xh", 3)], fun e => fin (V (e "yq") (e "xh"))⟩
      ⟨[("yq", 3), ("xh", 3)], fun e => fin (gapX (e "yq" + 1) - gapX (e "yq"))⟩
      ⟨[("yq", 3), ("xq", 3)], fun e => fin ((gapX (e "xq" + 1) - gapX (e "xq"))
        * (gapX (e "yq" + 1) - gapX (e "yq")))⟩
      "xh" "yh" "xq" "yq" false 3 3 (fun _ => 0) U
      (fun _ i => gapX (i + 1) - gapX i) V (fun j _ => gapX (j + 1) - gapX j)
      (fun j i => (gapX (i + 1) - gapX i) * (gapX (j + 1) - gapX j)) := by
  constructor
  case hA =>
    intro j i
    rw [gapX_step, gapX_step]
    positivity
  any_goals (intro e' _; rfl)
  any_goals (simp [DA.dimNames])
  · rfl
  · rfl

/-- Rotation at the rate 3 about the point (1, 2): the vorticity is 6 at the four inner corners. -/
example : ∃ r, calcRelVort (flowDS (fun j _ => -3 * (gapX j - 2)) (fun _ i => 3 * (gapX i - 1)))
      (some (vortMap "u" "v" "dx" "dy" "area")) (some (coordDict "xh" "yh" "xq" "yq")) false = .ok r ∧
      ∀ j i : Nat, j < 2 → i < 2 →
        r.get (Function.update (Function.update (fun _ => 0) "yq" j) "xq" i) = fin 6 := by
  obtain ⟨r, hr, h⟩ := C140_rotation (flowDS (fun j _ => -3 * (gapX j - 2)) (fun _ i => 3 * (gapX i - 1)))
    "u" "v" "dx" "dy" "area" "xh" "yh" "xq" "yq" false rfl rfl rfl rfl rfl
    (flowDS_grid (fun j _ => -3 * (gapX j - 2)) (fun _ i => 3 * (gapX i - 1))) gapX gapX 1 2 3 (fun j i => by simp [Spec.shift])
    (fun j i => by simp [Spec.shift]) (fun j i => by simp [Spec.shift]) (fun _ _ => rfl) (fun _ _ => rfl)
  refine ⟨r, hr, fun j i hj hi => ?_⟩
  rw [h j i (by unfold InnerCorner Spec.shift; simp; omega)]
  norm_num

/-- A shear `u = x + 2 y`, `v = 5 x`: `C140_linear` gives `5 - 2` at the inner corners. -/
example : ∃ r, calcRelVort (flowDS (fun j i => i + 2 * gapX j) (fun _ i => 0 + 5 * gapX i))
      (some (vortMap "u" "v" "dx" "dy" "area")) (some (coordDict "xh" "yh" "xq" "yq")) false = .ok r ∧
      r.get (Function.update (Function.update (fun _ => 0) "yq" 1) "xq" 0) = fin (5 - 2) := by
  obtain ⟨r, hr, h⟩ := C140_linear (flowDS (fun j i => i + 2 * gapX j) (fun _ i => 0 + 5 * gapX i))
    "u" "v" "dx" "dy" "area" "xh" "yh" "xq" "yq" false rfl rfl rfl rfl rfl
    (flowDS_grid (fun j i => i + 2 * gapX j) (fun _ i => 0 + 5 * gapX i)) gapX gapX (fun i => i) (fun _ => 0) 5 2 (fun j i => by simp [Spec.shift])
    (fun j i => by simp [Spec.shift]) (fun j i => by simp [Spec.shift]) (fun _ _ => rfl) (fun _ _ => rfl)
  exact ⟨r, hr, h 1 0 (by unfold InnerCorner Spec.shift; simp)⟩

/-- The potential `φ = j² i + 4 i`: no vorticity at the inner corners. -/
example : ∃ r, calcRelVort (flowDS (fun j i => ((j : ℚ) ^ 2 + 4) / 2 ^ i) (fun j i => (2 * (j : ℚ) + 1) * i / 2 ^ j))
      (some (vortMap "u" "v" "dx" "dy" "area")) (some (coordDict "xh" "yh" "xq" "yq")) false = .ok r ∧
      r.get (Function.update (Function.update (fun _ => 0) "yq" 1) "xq" 1) = fin 0 := by
  obtain ⟨r, hr, h⟩ := C140_potential
    (flowDS (fun j i => ((j : ℚ) ^ 2 + 4) / 2 ^ i) (fun j i => (2 * (j : ℚ) + 1) * i / 2 ^ j))
    "u" "v" "dx" "dy" "area" "xh" "yh" "xq" "yq" false rfl rfl rfl rfl rfl
    (flowDS_grid (fun j i => ((j : ℚ) ^ 2 + 4) / 2 ^ i) (fun j i => (2 * (j : ℚ) + 1) * i / 2 ^ j)) (fun j i => (j : ℚ) ^ 2 * i + 4 * i)
    (fun j i => by
      rw [gapX_step]
      have : (2 : ℚ) ^ i ≠ 0 := by positivity
      simp [Spec.shift, this]; ring)
    (fun j i => by
      rw [gapX_step]
      have : (2 : ℚ) ^ j ≠ 0 := by positivity
      simp [Spec.shift, this]; ring)
  exact ⟨r, hr, h 1 1 (by unfold InnerCorner Spec.shift; simp)⟩

/-- Uniform eastward flow: in the last row its vorticity is not zero. -/
example : ∃ r, calcRelVort (flowDS (fun _ _ => 1) (fun _ _ => 0))
      (some (vortMap "u" "v" "dx" "dy" "area")) (some (coordDict "xh" "yh" "xq" "yq")) false = .ok r ∧
      r.get (Function.update (Function.update (fun _ => 0) "yq" 2) "xq" 0) ≠ fin 0 := by
  obtain ⟨r, hr, -, h⟩ := C140_last_row (flowDS (fun _ _ => 1) (fun _ _ => 0))
    "u" "v" "dx" "dy" "area" "xh" "yh" "xq" "yq" rfl rfl rfl rfl rfl
    (ny := 2) (flowDS_grid (fun _ _ => 1) (fun _ _ => 0)) (fun _ => 1) (fun _ _ => rfl) (fun _ _ => rfl)
  exact ⟨r, hr, h 0 one_ne_zero (by rw [gapX_step]; positivity)⟩

end Momlevel.Props
