import Verif.Props.WrightSize
import Verif.Lemmas.MidpointRule

set_option linter.unusedSectionVars false

/-! # C156: how well the local steric height approximates the integral over depth -/

namespace Momlevel.Props
open Momlevel Momlevel.Fl Momlevel.Eos

section

variable {d r ref : DS (Fl ℝ)} {cn : DictArg} {rhozero : Fl ℝ} {patm : DA (Fl ℝ)} {eos variant domain : String}
  {strict : Bool} {tc zc zb zid : String} {n : Nat} {lev ifc : Nat → ℝ} {depth th so vol : DA (Fl ℝ)} {ρ0 : ℝ}

/-- Cells above the sea floor are counted whole, the cell of the sea floor down to it, and none below. -/
theorem column_sum {m : Nat} {D : ℝ} (hm : m < n) (hi : ∀ k < n, ifc k ≤ ifc (k + 1)) (h1 : ifc m ≤ D)
    (h2 : D ≤ ifc (m + 1)) (dry : Nat → Prop) [DecidablePred dry] (hw : ∀ k ≤ m, ¬ dry k) (g : Nat → ℝ) :
    ∑ k ∈ Finset.range n, (if dry k then 0 else thickness ifc D k * g k)
      = ∑ k ∈ Finset.range m, (ifc (k + 1) - ifc k) * g k + (D - ifc m) * g m := by
  have mono : ∀ i j, i ≤ j → j ≤ n → ifc i ≤ ifc j := fun i j hij => by
    induction j, hij using Nat.le_induction with
    | base => intro _; exact le_rfl
    | succ j _ ih => intro hj; exact (ih (by omega)).trans (hi j (by omega))
  have above : ∀ k < m, thickness ifc D k = ifc (k + 1) - ifc k := fun k hk => by
    have a1 := mono 0 k (by omega) (by omega)
    have a2 := mono (k + 1) m (by omega) (by omega)
    have a3 := hi k (by omega)
    unfold thickness Spec.overlap
    rw [min_eq_left (a2.trans h1), max_eq_left a1, max_eq_right (by linarith)]
  have at_m : thickness ifc D m = D - ifc m := by
    have a1 := mono 0 m (by omega) (by omega)
    unfold thickness Spec.overlap
    rw [min_eq_right h2, max_eq_left a1, max_eq_right (by linarith)]
  have below : ∀ k, m < k → k < n → thickness ifc D k = 0 := fun k h3 h4 => by
    have a1 := mono 0 k (by omega) (by omega)
    have a2 := mono (m + 1) k (by omega) (by omega)
    have a3 := hi k (by omega)
    unfold thickness Spec.overlap
    rw [min_eq_right (by linarith), max_eq_left a1, max_eq_left (by linarith)]
  rw [← Finset.sum_subset (Finset.range_mono (show m + 1 ≤ n by omega)), Finset.sum_range_succ]
  · congr 1
    · exact Finset.sum_congr rfl (fun k hk => by
        have := Finset.mem_range.1 hk
        rw [if_neg (hw k (by omega)), above k this])
    · rw [if_neg (hw m le_rfl), at_m]
  · intro k hk hk'
    have h3 := Finset.mem_range.1 hk
    have h4 : ¬ k < m + 1 := fun h => hk' (Finset.mem_range.2 h)
    rw [below k (by omega) h3, zero_mul, ite_self]

/-- The column at `e`: bottom at `D` in cell `m`, all cells down to there wet, and the densities the variant uses,
present and reference, are those of the profiles `R` and `R0` at the levels. -/
structure Column (vol th so : DA (Fl ℝ)) (f : EosFn (Fl ℝ)) (P : Env → Nat → Fl ℝ) (variant tc zc : String) (n : Nat)
    (lev ifc : Nat → ℝ) (depth : DA (Fl ℝ)) (e : Env) (m : Nat) (D : ℝ) (R R0 : ℝ → ℝ) : Prop where
  inb : depth.InBounds e
  floor : depth.get e = fin D
  cell : m < n
  above : ifc m ≤ D
  below : D ≤ ifc (m + 1)
  wet : ∀ k ≤ m, vol.get (cell0 tc zc e k) ≠ nan
  now : ∀ k < n, vol.get (cell0 tc zc e k) ≠ nan →
    f (th.get (if variant = "halosteric" then cell0 tc zc e k else Function.update e zc k))
      (so.get (if variant = "thermosteric" then cell0 tc zc e k else Function.update e zc k)) (P e k) = fin (R (lev k))
  ref : ∀ k < n, vol.get (cell0 tc zc e k) ≠ nan →
    f (th.get (cell0 tc zc e k)) (so.get (cell0 tc zc e k)) (P e k) = fin (R0 (lev k))

theorem column_value
    (h : steric d .none cn none rhozero patm eos variant domain strict = .ok (r, ref))
    (hd : domain ≠ "global") (hc : defaultCoords cn = .ok (tc, zc, zb))
    (G : OceanGrid d zc zb zid n lev ifc depth) (hρ : rhozero = fin ρ0)
    (hth : d.getVar "thetao" = .ok th) (hso : d.getVar "so" = .ok so)
    (hvol : d.getVar "volcello" = .ok vol) {f : EosFn (Fl ℝ)} (hf : eosFuncFromStr eos "density" = .ok f)
    (P : Env → Nat → Fl ℝ) (hP : ∀ e, ∀ k < n, P e k = fin (lev k * 10 ^ 4) + patm.get (Function.update e zc k)) :
    ∃ a, r.getVar variant = .ok a ∧ ρ0 ≠ 0 ∧ ∀ e m D R R0,
      Column vol th so f P variant tc zc n lev ifc depth e m D R R0 →
        a.get e = fin (-(1 / ρ0) * (∑ k ∈ Finset.range m, (ifc (k + 1) - ifc k) * (R (lev k) - R0 (lev k))
          + (D - ifc m) * (R (lev m) - R0 (lev m)))) := by
  obtain ⟨a, a1, a2, a3⟩ := local_value h hd hc G hρ hth hso hvol hf P hP
  obtain ⟨z, zi, -, -, g3⟩ := G.grid
  refine ⟨a, a1, a2, fun e m D R R0 C => ?_⟩
  have A := a3 e C.inb (fun k => R (lev k)) (fun k => R0 (lev k)) C.now C.ref
  rw [if_neg (C.wet 0 (by omega)), C.floor, val0_fin,
    column_sum C.cell g3.imono C.above C.below (fun k => vol.get (cell0 tc zc e k) = nan) C.wet
      (fun k => R (lev k) - R0 (lev k))] at A
  exact A

/-- C156 (error): with levels in the middle of their cells and a smooth profile of the density anomaly, the local height
differs from minus the integral of the anomaly over ρ0 by at most `M/24` times the sum of the cubed thicknesses of the
full cells plus `M1/2` times the wet part of the bottom cell times its full thickness, over ρ0. -/
theorem C156_error
    (h : steric d .none cn none rhozero patm eos variant domain strict = .ok (r, ref))
    (hd : domain ≠ "global") (hc : defaultCoords cn = .ok (tc, zc, zb))
    (G : OceanGrid d zc zb zid n lev ifc depth) (hρ : rhozero = fin ρ0) (h0 : 0 < ρ0)
    (hmid : ∀ k < n, lev k = (ifc k + ifc (k + 1)) / 2)
    (hth : d.getVar "thetao" = .ok th) (hso : d.getVar "so" = .ok so)
    (hvol : d.getVar "volcello" = .ok vol) {f : EosFn (Fl ℝ)} (hf : eosFuncFromStr eos "density" = .ok f)
    (P : Env → Nat → Fl ℝ) (hP : ∀ e, ∀ k < n, P e k = fin (lev k * 10 ^ 4) + patm.get (Function.update e zc k)) :
    ∃ a, r.getVar variant = .ok a ∧ ∀ e m D R R0,
      Column vol th so f P variant tc zc n lev ifc depth e m D R R0 → ∀ F g1 g2 M M1,
        Smooth F (fun z => R z - R0 z) g1 g2 (ifc 0) (ifc (m + 1)) M →
        (∀ s, ifc m ≤ s → s ≤ ifc (m + 1) → |g1 s| ≤ M1) →
        ∃ v, a.get e = fin v ∧ |v + (F D - F (ifc 0)) / ρ0|
          ≤ (M / 24 * ∑ k ∈ Finset.range m, (ifc (k + 1) - ifc k) ^ 3
            + M1 / 2 * ((D - ifc m) * (ifc (m + 1) - ifc m))) / ρ0 := by
  obtain ⟨a, a1, -, a3⟩ := column_value h hd hc G hρ hth hso hvol hf P hP
  obtain ⟨z, zi, -, -, g3⟩ := G.grid
  refine ⟨a, a1, fun e m D R R0 C F g1 g2 M M1 hF hM1 => ⟨_, a3 e m D R R0 C, ?_⟩⟩
  have hm := C.cell
  have lo : ∀ j ≤ m, ifc 0 ≤ ifc j := fun j => by
    induction j with
    | zero => intro _; exact le_rfl
    | succ j ih => intro hj; exact (ih (by omega)).trans (g3.imono j (by omega))
  have e1 := midpoint_sum (x := ifc) (c := lev) (m := m) (fun k hk => g3.imono k (by omega))
    (fun k hk => hmid k (by omega)) (hF.mono le_rfl (g3.imono m hm))
  have e2 := offcentre_error C.above C.below (hmid m hm)
    (fun s q1 q2 => hF.d1 s ((lo m le_rfl).trans q1) q2) (fun s q1 q2 => hF.d2 s ((lo m le_rfl).trans q1) q2) hM1
  have e3 := abs_add_le _ _ |>.trans (add_le_add e1 e2)
  rw [le_div_iff₀ h0, ← abs_of_pos h0, ← abs_mul, abs_of_pos h0]
  refine le_trans (le_of_eq ?_) e3
  rw [← abs_neg]
  congr 1
  field_simp
  ring

/-- C156 (second order): if the sea floor is an interface, no cell is thicker than `H` and the anomaly has a second
derivative of at most `M`, the error is at most `M H²/24` times the depth over ρ0. -/
theorem C156_second_order
    (h : steric d .none cn none rhozero patm eos variant domain strict = .ok (r, ref))
    (hd : domain ≠ "global") (hc : defaultCoords cn = .ok (tc, zc, zb))
    (G : OceanGrid d zc zb zid n lev ifc depth) (hρ : rhozero = fin ρ0) (h0 : 0 < ρ0)
    (hmid : ∀ k < n, lev k = (ifc k + ifc (k + 1)) / 2)
    (hth : d.getVar "thetao" = .ok th) (hso : d.getVar "so" = .ok so)
    (hvol : d.getVar "volcello" = .ok vol) {f : EosFn (Fl ℝ)} (hf : eosFuncFromStr eos "density" = .ok f)
    (P : Env → Nat → Fl ℝ) (hP : ∀ e, ∀ k < n, P e k = fin (lev k * 10 ^ 4) + patm.get (Function.update e zc k)) :
    ∃ a, r.getVar variant = .ok a ∧ ∀ e m D R R0,
      Column vol th so f P variant tc zc n lev ifc depth e m D R R0 → D = ifc (m + 1) → ∀ F g1 g2 M H,
        Smooth F (fun z => R z - R0 z) g1 g2 (ifc 0) D M → (∀ k ≤ m, ifc (k + 1) - ifc k ≤ H) →
        ∃ v, a.get e = fin v ∧ |v + (F D - F (ifc 0)) / ρ0| ≤ M * H ^ 2 / 24 * (D - ifc 0) / ρ0 := by
  obtain ⟨a, a1, -, a3⟩ := column_value h hd hc G hρ hth hso hvol hf P hP
  obtain ⟨z, zi, -, -, g3⟩ := G.grid
  refine ⟨a, a1, fun e m D R R0 C hD F g1 g2 M H hF hH => ⟨_, a3 e m D R R0 C, ?_⟩⟩
  have hm := C.cell
  subst hD
  have lo : ∀ j ≤ m + 1, ifc 0 ≤ ifc j := fun j => by
    induction j with
    | zero => intro _; exact le_rfl
    | succ j ih => intro hj; exact (ih (by omega)).trans (g3.imono j (by omega))
  have e1 := midpoint_sum (x := ifc) (c := lev) (m := m + 1) (fun k hk => g3.imono k (by omega))
    (fun k hk => hmid k (by omega)) hF
  have hM : 0 ≤ M := (abs_nonneg _).trans (hF.bound (ifc 0) le_rfl (lo _ le_rfl))
  have e2 : ∑ k ∈ Finset.range (m + 1), (ifc (k + 1) - ifc k) ^ 3 ≤ H ^ 2 * (ifc (m + 1) - ifc 0) := by
    rw [← Finset.sum_range_sub ifc (m + 1), Finset.mul_sum]
    refine Finset.sum_le_sum (fun k hk => ?_)
    have hk := Finset.mem_range.1 hk
    have q1 : 0 ≤ ifc (k + 1) - ifc k := sub_nonneg.2 (g3.imono k (by omega))
    have q2 := hH k (by omega)
    nlinarith [mul_le_mul q2 q2 q1 (q1.trans q2)]
  have e3 := e1.trans (mul_le_mul_of_nonneg_left e2 (by positivity))
  rw [le_div_iff₀ h0, ← abs_of_pos h0, ← abs_mul, abs_of_pos h0]
  refine le_trans (le_of_eq ?_) (e3.trans (le_of_eq (by ring)))
  rw [← abs_neg, Finset.sum_range_succ]
  congr 1
  field_simp
  ring

/-- C156 (linear): for an anomaly `b0 + b1 z` the full cells are exact and the bottom cell, whose density is taken at the
middle of the full cell, is off by `b1` times its wet part times its dry part over `2 ρ0`. -/
theorem C156_linear
    (h : steric d .none cn none rhozero patm eos variant domain strict = .ok (r, ref))
    (hd : domain ≠ "global") (hc : defaultCoords cn = .ok (tc, zc, zb))
    (G : OceanGrid d zc zb zid n lev ifc depth) (hρ : rhozero = fin ρ0)
    (hmid : ∀ k < n, lev k = (ifc k + ifc (k + 1)) / 2)
    (hth : d.getVar "thetao" = .ok th) (hso : d.getVar "so" = .ok so)
    (hvol : d.getVar "volcello" = .ok vol) {f : EosFn (Fl ℝ)} (hf : eosFuncFromStr eos "density" = .ok f)
    (P : Env → Nat → Fl ℝ) (hP : ∀ e, ∀ k < n, P e k = fin (lev k * 10 ^ 4) + patm.get (Function.update e zc k)) :
    ∃ a, r.getVar variant = .ok a ∧ ∀ e m D R R0,
      Column vol th so f P variant tc zc n lev ifc depth e m D R R0 → ∀ b0 b1, (∀ z, R z - R0 z = b0 + b1 * z) →
        a.get e = fin (-(b0 * (D - ifc 0) + b1 * (D ^ 2 - ifc 0 ^ 2) / 2) / ρ0
          - b1 * (D - ifc m) * (ifc (m + 1) - D) / (2 * ρ0)) := by
  obtain ⟨a, a1, hne, a3⟩ := column_value h hd hc G hρ hth hso hvol hf P hP
  refine ⟨a, a1, fun e m D R R0 C b0 b1 hl => ?_⟩
  rw [a3 e m D R R0 C]
  have full : ∀ j ≤ n, ∑ k ∈ Finset.range j, (ifc (k + 1) - ifc k) * (R (lev k) - R0 (lev k))
      = b0 * (ifc j - ifc 0) + b1 * (ifc j ^ 2 - ifc 0 ^ 2) / 2 := fun j => by
    induction j with
    | zero => intro _; simp
    | succ j ih =>
      intro hj
      rw [Finset.sum_range_succ, ih (by omega), hl, hmid j (by omega)]
      ring
  rw [full m C.cell.le, hl, hmid m C.cell]
  congr 1
  field_simp
  ring

end

/-! ## An ocean with a given profile of the warming -/

noncomputable section

/-- The ocean `exD` warmed by `p z` at depth `z`, with the sea floor at `H`. -/
def profT (p : ℝ → ℝ) : DA (Fl ℝ) := ⟨exDims, fun e => fin (10 + (e "time" : ℝ) * p (500 + 1000 * (e "z_l" : ℝ)))⟩
def profDepth (H : ℝ) : DA (Fl ℝ) := ⟨[("yh", 2), ("xh", 2)], fun e => if e "xh" = 0 then fin H else nan⟩
def profD (p : ℝ → ℝ) (H : ℝ) : DS (Fl ℝ) := ⟨[("thetao", profT p), ("so", exS), ("volcello", exV), ("areacello", exA),
  ("deptho", profDepth H), ("z_l", exZ), ("z_i", exZi)], ["z_l", "z_i"]⟩

theorem profGrid (p : ℝ → ℝ) {H : ℝ} (h : 0 ≤ H) : OceanGrid (profD p H) "z_l" "z_i" "z_i" 2
    (fun k => 500 + 1000 * (k : ℝ)) (fun k => 1000 * (k : ℝ)) (profDepth H) where
  grid := exGrid.grid
  hdepth := rfl
  bathy := by
    refine ⟨?_, by simp [profDepth, DA.dimNames], ?_⟩
    · intro e e' h
      have := h "xh" (by simp [profDepth, DA.dimNames])
      simp only [profDepth, this]
    · intro e _
      by_cases h : e "xh" = 0
      · right; exact ⟨H, by assumption, by simp [profDepth, h]⟩
      · left; simp [profDepth, h]
  hz := by simp [profDepth, DA.dimNames]
  coord := by simp [profD, DS.names]

theorem profGood (p : ℝ → ℝ) {H : ℝ} (h : 0 ≤ H) : GoodData (profD p H) "time" "z_l" "z_i" "z_i" "yh" "xh" 2 2 2 2
    (fun k => 500 + 1000 * (k : ℝ)) (fun k => 1000 * (k : ℝ)) (profT p) exS exV exA (profDepth H) exZi
    (DA.scalar (fin 101325)) where
  names := by decide
  hnt := by norm_num
  hn := by norm_num
  hny := by norm_num
  hnx := by norm_num
  hth := rfl
  hso := rfl
  hvol := rfl
  harea := rfl
  hzb := rfl
  thd := rfl
  sod := rfl
  vold := rfl
  aread := rfl
  depthd := rfl
  grid := profGrid p h
  alone := by simp [profD, exZ, exZi, DA.dimNames]
  patmd := by simp

theorem profRun (p : ℝ → ℝ) {H : ℝ} (h : 0 ≤ H) :
    ∃ x, steric (profD p H) .none .none none (fin 1035) (DA.scalar (fin 101325)) "linear" "steric" "local" true = .ok x :=
  C30_success (profGood p h) rfl (by simp) (Or.inr linear_case) (by simp) (fun _ => exArea)

/-- The column at the second time level meets the hypotheses, with the linear equation of state. -/
theorem profColumn (p : ℝ → ℝ) {H : ℝ} {m : Nat} (hm : m < 2) (h1 : 1000 * (m : ℝ) ≤ H) (h2 : H ≤ 1000 * ((m : ℝ) + 1))
    {e : Env} (he : (profDepth H).InBounds e) (hx : e "xh" = 0) (ht : e "time" = 1) :
    Column exV (profT p) exS Linear.density (fun _ k => fin ((500 + 1000 * (k : ℝ)) * 10 ^ 4 + 101325)) "steric" "time"
      "z_l" 2 (fun k => 500 + 1000 * (k : ℝ)) (fun k => 1000 * (k : ℝ)) (profDepth H) e m H
      (fun z => linRho (10 + p z) 35) (fun _ => linRho 10 34) where
  inb := he
  floor := by simp [profDepth, hx]
  cell := hm
  above := h1
  below := by push_cast; exact h2
  wet := fun k _ => by simp [exV, hx]
  now := fun k _ _ => by
    rw [if_neg (by decide), if_neg (by decide)]
    simp only [profT, exS, Function.update_self]
    rw [linear_float]
    simp [ht]
    norm_num
  ref := fun k _ _ => by
    simp only [profT, exS, Function.update_self]
    rw [linear_float]
    simp

/-- A warming that falls off linearly over a bottom cell half filled: the height is two thirds of the integral. -/
example : ∃ r ref a, steric (profD (fun z => 5 - z / 1000) 1500) .none .none none (fin 1035) (DA.scalar (fin 101325)) "linear"
      "steric" "local" true = .ok (r, ref) ∧ r.getVar "steric" = .ok a ∧
    ∀ e, (profDepth 1500).InBounds e → e "xh" = 0 → e "time" = 1 → a.get e = fin (75 / 1035 - 25 / 1035) := by
  obtain ⟨⟨r, ref⟩, h⟩ := profRun (fun z => 5 - z / 1000) (show (0 : ℝ) ≤ 1500 by norm_num)
  obtain ⟨a, a1, a2⟩ := C156_linear h (by decide) exC (profGrid _ (by norm_num)) rfl (fun k _ => by push_cast; ring) rfl rfl
    rfl (linear_eos linear_case) (fun _ k => fin ((500 + 1000 * (k : ℝ)) * 10 ^ 4 + 101325)) (fun e k _ => by simp)
  refine ⟨r, ref, a, h, a1, fun e he hx ht => ?_⟩
  rw [a2 e 1 1500 _ _ (profColumn _ (by norm_num) (by norm_num) (by norm_num) he hx ht) (-0.2) 0.0002 (fun z => by
    unfold linRho; ring)]
  congr 1
  norm_num

theorem profSmooth (lo hi : ℝ) : Smooth (fun z => -0.2 * z + 2e-7 / 3 * z ^ 3)
    (fun z => linRho (10 + (5 - z ^ 2 / 10 ^ 6)) 35 - linRho 10 34) (fun z => 4e-7 * z) (fun _ => 4e-7) lo hi 4e-7 where
  d1 := fun s _ _ => by
    have e1 := (hasDerivAt_id s).const_mul (-0.2 : ℝ)
    have e2 := ((hasDerivAt_id s).pow 3).const_mul (2e-7 / 3 : ℝ)
    refine (e1.add e2).congr_deriv ?_
    simp only [linRho, id]; push_cast; ring
  d2 := fun s _ _ => by
    have e2 := (((hasDerivAt_id s).pow 2).const_mul (2e-7 : ℝ)).const_add (-0.2)
    refine (e2.congr_deriv ?_).congr_of_eventuallyEq (Filter.Eventually.of_forall (fun z => ?_))
    · simp only [id]; push_cast; ring
    · simp only [linRho, Pi.pow_apply, id]; ring
  d3 := fun s _ _ => by
    refine ((hasDerivAt_id s).const_mul (4e-7 : ℝ)).congr_deriv (by ring)
  bound := fun s _ _ => by rw [abs_of_pos (by norm_num)]

/-- A warming that falls off quadratically, over full cells: within 3.3 cm … -/
example : ∃ r ref a, steric (profD (fun z => 5 - z ^ 2 / 10 ^ 6) 2000) .none .none none (fin 1035) (DA.scalar (fin 101325))
      "linear" "steric" "local" true = .ok (r, ref) ∧ r.getVar "steric" = .ok a ∧
    ∀ e, (profDepth 2000).InBounds e → e "xh" = 0 → e "time" = 1 →
      ∃ v, a.get e = fin v ∧ |v + (-400 + 1600 / 3) / 1035| ≤ 0.033 := by
  obtain ⟨⟨r, ref⟩, h⟩ := profRun (fun z => 5 - z ^ 2 / 10 ^ 6) (show (0 : ℝ) ≤ 2000 by norm_num)
  obtain ⟨a, a1, a2⟩ := C156_second_order h (by decide) exC (profGrid _ (by norm_num)) rfl (by norm_num)
    (fun k _ => by push_cast; ring) rfl rfl rfl (linear_eos linear_case)
    (fun _ k => fin ((500 + 1000 * (k : ℝ)) * 10 ^ 4 + 101325)) (fun e k _ => by simp)
  refine ⟨r, ref, a, h, a1, fun e he hx ht => ?_⟩
  obtain ⟨v, v1, v2⟩ := a2 e 1 2000 _ _ (profColumn _ (by norm_num) (by norm_num) (by norm_num) he hx ht) (by norm_num)
    _ _ _ _ 1000 (profSmooth _ _) (fun k _ => by push_cast; linarith)
  refine ⟨v, v1, le_trans (le_of_eq ?_) (v2.trans (by norm_num))⟩
  congr 2
  norm_num

/-- … and with a bottom cell half filled. -/
example : ∃ r ref a, steric (profD (fun z => 5 - z ^ 2 / 10 ^ 6) 1500) .none .none none (fin 1035) (DA.scalar (fin 101325))
      "linear" "steric" "local" true = .ok (r, ref) ∧ r.getVar "steric" = .ok a ∧
    ∀ e, (profDepth 1500).InBounds e → e "xh" = 0 → e "time" = 1 →
      ∃ v, a.get e = fin v ∧ |v + (-300 + 225) / 1035| ≤ 0.21 := by
  obtain ⟨⟨r, ref⟩, h⟩ := profRun (fun z => 5 - z ^ 2 / 10 ^ 6) (show (0 : ℝ) ≤ 1500 by norm_num)
  obtain ⟨a, a1, a2⟩ := C156_error h (by decide) exC (profGrid _ (by norm_num)) rfl (by norm_num)
    (fun k _ => by push_cast; ring) rfl rfl rfl (linear_eos linear_case)
    (fun _ k => fin ((500 + 1000 * (k : ℝ)) * 10 ^ 4 + 101325)) (fun e k _ => by simp)
  refine ⟨r, ref, a, h, a1, fun e he hx ht => ?_⟩
  obtain ⟨v, v1, v2⟩ := a2 e 1 1500 _ _ (profColumn _ (by norm_num) (by norm_num) (by norm_num) he hx ht)
    _ _ _ _ (8e-4) (profSmooth _ _) (fun s h1 h2 => by
      push_cast at h1 h2
      rw [abs_of_nonneg (by linarith)]; linarith)
  refine ⟨v, v1, le_trans (le_of_eq ?_) (v2.trans (by norm_num))⟩
  congr 2
  norm_num

end

end Momlevel.Props
