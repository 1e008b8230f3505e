import Verif.Props.RoundingVort
import Verif.Props.RoundingN2
import Verif.Props.StericQuadrature
import Verif.Props.VorticityError
import Verif.Props.WaveError
import Verif.Props.N2Error
import Verif.Props.ExamplesSteric

set_option linter.unusedSectionVars false

/-! # C161: values computed in double precision and the continuous ocean they stand for -/

namespace Momlevel.Props
open Momlevel Momlevel.Fl Momlevel.Eos Momlevel.Spec

/-- C161 (steric height): the height of a column computed in double precision with Wright's equation of state differs
from `-(1/ρ0) ∫ (R - R0) dz` by at most the error of the quadrature and `10⁻⁹` m. -/
theorem C161_height {d r ref : DS (Fl ℝ)} {cn : DictArg} {eos variant domain : String}
    {strict : Bool} {tc zc zb zid : String} {n : Nat} {lev ifc : Nat → ℝ} {depth th so vol : DA (Fl ℝ)} {ρ0 pa : ℝ}
    (h : steric d .none cn none (fin ρ0) (DA.scalar (fin pa)) eos variant domain strict = .ok (r, ref))
    (heos : CaseVariant eos "wright") (hd : domain ≠ "global") (hc : defaultCoords cn = .ok (tc, zc, zb))
    (G : OceanGrid d zc zb zid n lev ifc depth) (hmid : ∀ k < n, lev k = (ifc k + ifc (k + 1)) / 2)
    (hp : 0 ≤ pa ∧ pa ≤ 10 ^ 6) (hr : 900 ≤ ρ0 ∧ ρ0 ≤ 1100)
    (hth : d.getVar "thetao" = .ok th) (hso : d.getVar "so" = .ok so) (hvol : d.getVar "volcello" = .ok vol)
    {e : Env} {m : Nat} {D : ℝ} {R R0 : ℝ → ℝ}
    (C : Column vol th so Wright.density (fun _ k => fin (lev k * 10 ^ 4 + pa)) variant tc zc n lev ifc depth e m D R R0)
    {F g1 g2 : ℝ → ℝ} {M M1 : ℝ} (hF : Smooth F (fun z => R z - R0 z) g1 g2 (ifc 0) (ifc (m + 1)) M)
    (hg : ∀ s, ifc m ≤ s → s ≤ ifc (m + 1) → |g1 s| ≤ M1)
    (col : ℕ → ColCell ℝ) (order : SumTree ℕ)
    (ho : order.leaves.Perm ((List.range n).filter (fun k => vol.get (cell0 tc zc e k) ≠ nan)))
    (hcol : ∀ k < n, vol.get (cell0 tc zc e k) ≠ nan →
      (col k).dz = thickness ifc D k ∧ (col k).z = lev k ∧
      th.get (if variant = "halosteric" then cell0 tc zc e k else cell zc e k) = fin (col k).T ∧
      so.get (if variant = "thermosteric" then cell0 tc zc e k else cell zc e k) = fin (col k).S ∧
      th.get (cell0 tc zc e k) = fin (col k).Tref ∧ so.get (cell0 tc zc e k) = fin (col k).Sref ∧
      Spec.Wright.Ocean (col k).T (col k).S (lev k * 10 ^ 4 + pa) ∧
      Spec.Wright.Ocean (col k).Tref (col k).Sref (lev k * 10 ^ 4 + pa))
    (hcell : ∀ k ∈ order.leaves, OceanCell (col k)) (hdep : order.depth ≤ 100)
    (hD : ∀ k ∈ order.leaves, |colDelta Wright.density pa (col k)| ≤ 100)
    (hH : (order.leaves.map (fun k => (col k).dz)).sum ≤ 11000) :
    |(colHeight Wright.density ⟨pa⟩ ⟨ρ0⟩ (fun k => (col k).toRd (nearest 53)) order).val + (F D - F (ifc 0)) / ρ0|
      ≤ (M / 24 * ∑ k ∈ Finset.range m, (ifc (k + 1) - ifc k) ^ 3
          + M1 / 2 * ((D - ifc m) * (ifc (m + 1) - ifc m))) / ρ0 + 1 / 10 ^ 9 := by
  obtain ⟨a, a1, a2⟩ := C156_error h hd hc G rfl (by linarith [hr.1]) hmid hth hso hvol (wright_eos heos)
    (fun _ k => fin (lev k * 10 ^ 4 + pa)) (fun _ k _ => by simp)
  obtain ⟨v, v1, v2⟩ := a2 e m D R R0 C F g1 g2 M M1 hF hg
  obtain ⟨b, b1, b2⟩ := C92_steric h heos hd hc G rfl rfl hth hso hvol
  rw [a1] at b1
  cases b1
  have hv := b2 e C.inb (C.wet 0 (Nat.zero_le m)) col order ho (fun k hk hw => by
    rw [C.floor]; exact hcol k hk hw)
  rw [v1] at hv
  injection hv with hv
  have hx := (C92_precision hp hr col order hcell hdep hD hH).1
  rw [← hv] at hx
  have key := abs_add_le ((colHeight Wright.density ⟨pa⟩ ⟨ρ0⟩ (fun k => (col k).toRd (nearest 53)) order).val - v)
    (v + (F D - F (ifc 0)) / ρ0)
  rw [← add_assoc, sub_add_cancel] at key
  linarith

/-- C161 (wave speed): the speed computed in double precision with up to 75 levels differs from `c = (1/π) ∫ N dz` by at
most `10⁻¹⁴ |c|` and slightly more than the error of the quadrature. -/
theorem C161_wave {n2 dz : DA (Fl ℝ)} {n : Nat} {rest : List (String × Nat)} (g : StratInput n2 n rest) (hn : n ≠ 0)
    (hn75 : n ≤ 75) {e : Env} {m : Nat} {N D x c : Nat → ℝ} {F B b1 b2 : ℝ → ℝ} {M : ℝ} (hp : IsPoint n2 e)
    (hc : StableColumn n2 dz e n m N D) (hx : ∀ k < m, x k ≤ x (k + 1)) (hm : ∀ k < m, c k = (x k + x (k + 1)) / 2)
    (hD : ∀ k < m, D k = x (k + 1) - x k) (hB : ∀ k < m, 0 ≤ B (c k) ∧ N k = B (c k) ^ 2)
    (hF : Smooth F B b1 b2 (x 0) (x m) M) :
    ∃ r adj, calcWaveSpeed n2 dz = .ok r ∧ adjustNegativeN2 n2 = .ok adj ∧
      ∀ order : SumTree ℕ, order.leaves.Perm (List.range n) →
        |waveRd (nearest 53) (column adj "z_l" e) (column dz "z_l" e) order - (F (x m) - F (x 0)) / Real.pi|
          ≤ (1 + 1e-14) * (M / (24 * Real.pi) * ∑ k ∈ Finset.range m, (x (k + 1) - x k) ^ 3)
            + 1e-14 * |(F (x m) - F (x 0)) / Real.pi| := by
  obtain ⟨r, h1, h2⟩ := C158_error (dz := dz) g hn
  obtain ⟨v, v1, v2⟩ := h2 e m N D x c F B b1 b2 M hp hc hx hm hD hB hF
  obtain ⟨r', adj, k1, k2, k3⟩ := C131_double (dz := dz) g.dims hn hn75 g.nodup (fun e he => by
    rcases g.ordinary e he with h | ⟨y, h⟩
    · rw [h]; exact FN_nan
    · rw [h]; exact FN_fin y)
  rw [h1] at k1
  cases k1
  have hin : (n2.isel "z_l" 0).InBounds e := by
    intro p hp'
    simp only [DA.isel, List.mem_filter] at hp'
    exact hp p hp'.1 (by simpa using hp'.2)
  obtain ⟨w, w1, w2⟩ := k3 e hin (fun k hk hne => by
      by_cases hkm : k < m
      · refine Or.inr ⟨D k, ?_, hc.thick k hkm⟩
        rw [hD k hkm]; linarith [hx k hkm]
      · exact absurd (hc.below k (by omega) hk) hne)
    (by rw [hc.strat 0 hc.wet]; simp)
  rw [v1] at w1
  cases w1
  refine ⟨r, adj, h1, k2, fun order ho => ?_⟩
  have e1 := (w2 order ho).1
  have e2 := abs_sub_le (waveRd (nearest 53) (column adj "z_l" e) (column dz "z_l" e) order) v
    ((F (x m) - F (x 0)) / Real.pi)
  have e3 : v ≤ |(F (x m) - F (x 0)) / Real.pi| + M / (24 * Real.pi) * ∑ k ∈ Finset.range m, (x (k + 1) - x k) ^ 3 := by
    have a1 := le_abs_self (v - (F (x m) - F (x 0)) / Real.pi)
    have a2 := le_abs_self ((F (x m) - F (x 0)) / Real.pi)
    linarith
  have e4 := mul_le_mul_of_nonneg_left e3 (show (0 : ℝ) ≤ 1e-14 by norm_num)
  linarith

/-- C161 (buoyancy frequency): `calc_n2` with Wright's equation and default gravity and pressure, in double precision
with levels at least 1 m apart. -/
theorem C161_n2 {th so : DA (Fl ℝ)} {e : Env} {n : Nat} {x : Nat → ℝ} {T T1 T2 T3 S S1 S2 S3 : ℝ → ℝ} {MT MS : ℝ}
    (c : TSColumn th so (fun k => fin (x k)) "z_l" e n x (fun k => T (x k)) (fun k => S (x k)))
    (hx : ∀ k, k + 1 < n → 1 ≤ x (k + 1) - x k) (hz : 0 ≤ x (e "z_l") ∧ x (e "z_l") ≤ 9900)
    (hT : Smooth T T1 T2 T3 (x 0) (x (n - 1)) MT) (hS : Smooth S S1 S2 S3 (x 0) (x (n - 1)) MS)
    (bT : ∀ k < n, -2 ≤ T (x k) ∧ T (x k) ≤ 40) (bS : ∀ k < n, 0 ≤ S (x k) ∧ S (x k) ≤ 42)
    (dT : |T1 (x (e "z_l"))| + MT / 6 * spacing n x (e "z_l") ≤ 10)
    (dS : |S1 (x (e "z_l"))| + MS / 6 * spacing n x (e "z_l") ≤ 10) :
    |(n2Column Wright.alpha Wright.beta Rd.same (⟨-9.8⟩ : Rd (nearest 53)) ⟨101325⟩ n (fun k => ⟨x k⟩)
          (fun k => ⟨T (x k)⟩) (fun k => ⟨S (x k)⟩) (e "z_l")).val
        - -9.8 * (Wright.alpha (T (x (e "z_l"))) (S (x (e "z_l"))) (x (e "z_l") * 10 ^ 4 + 101325) * T1 (x (e "z_l"))
          - Wright.beta (T (x (e "z_l"))) (S (x (e "z_l"))) (x (e "z_l") * 10 ^ 4 + 101325) * S1 (x (e "z_l")))|
      ≤ (0.00081 * MT + 0.0014 * MS) * spacing n x (e "z_l") + 2.4e-14 := by
  have hx' : ∀ i j, i < j → j < n → x i < x j := by
    intro i j hij
    induction j, hij using Nat.le_induction with
    | base => intro h; linarith [hx i h]
    | succ j _ ih => intro h; linarith [hx j h, ih (by omega)]
  have a1 := abs_sub_abs_le_abs_sub (derivAt n x (fun k => T (x k)) (e "z_l")) (T1 (x (e "z_l")))
  have a2 := abs_sub_abs_le_abs_sub (derivAt n x (fun k => S (x k)) (e "z_l")) (S1 (x (e "z_l")))
  have b1 := derivAt_error c.hn hx' c.he hT
  have b2 := derivAt_error c.hn hx' c.he hS
  obtain ⟨r, y, h1, h2, h3⟩ := C155_wright c hx' hT hS (by
    obtain ⟨t1, t2⟩ := bT _ c.he
    obtain ⟨s1, s2⟩ := bS _ c.he
    unfold Spec.Wright.Ocean
    refine ⟨t1, t2, s1, s2, ?_, ?_⟩ <;> linarith [hz.1, hz.2])
  obtain ⟨r', N, k1, k2, k3, -⟩ := C133_double c (g := -9.8) (pa := 101325) (by norm_num [abs_of_neg]) hx hz
    ⟨by norm_num, by norm_num⟩ bT bS (by linarith) (by linarith)
  rw [C19_defaults] at h1
  have n98 : (-9.8 : ℝ) = -(49 / 5) := by norm_num
  rw [n98] at k1
  rw [h1] at k1
  cases k1
  rw [h2] at k2
  cases k2
  have e1 := abs_sub_le (n2Column Wright.alpha Wright.beta Rd.same (⟨-9.8⟩ : Rd (nearest 53)) ⟨101325⟩ n (fun k => ⟨x k⟩)
    (fun k => ⟨T (x k)⟩) (fun k => ⟨S (x k)⟩) (e "z_l")).val y
    (-9.8 * (Wright.alpha (T (x (e "z_l"))) (S (x (e "z_l"))) (x (e "z_l") * 10 ^ 4 + 101325) * T1 (x (e "z_l"))
          - Wright.beta (T (x (e "z_l"))) (S (x (e "z_l"))) (x (e "z_l") * 10 ^ 4 + 101325) * S1 (x (e "z_l"))))
  linarith

/-- C161 (vorticity): at a corner with centres on both sides, with rounding errors up to `u` per operation. -/
theorem C161_vorticity {u0 : ℝ} {ρ : ℝ → ℝ} (hr : Rounds u0 0 ρ) (hu : 0 ≤ u0) (dset : DS (Fl ℝ))
    (nu nv ndx ndy na xc yc xq yq : String) (s : Bool)
    {u dx v dy area : DA (Fl ℝ)} {nx ny : Nat} {e : Env} {U DX V DY A : Nat → Nat → ℝ}
    (lu : dset.vars.lookup nu = some u) (ldx : dset.vars.lookup ndx = some dx)
    (lv : dset.vars.lookup nv = some v) (ldy : dset.vars.lookup ndy = some dy)
    (la : dset.vars.lookup na = some area)
    (g : CGrid u dx v dy area xc yc xq yq s nx ny e U DX V DY A)
    (X Y : ℤ → ℝ) (hX : ∀ k, X k < X (k + 1)) (hY : ∀ k, Y k < Y (k + 1))
    (hDX : ∀ j i : Nat, DX j i = gap s X i) (hDY : ∀ j i : Nat, DY j i = gap s Y j)
    (hA : ∀ j i : Nat, A j i = gap s X i * gap s Y j) (uf vf : ℝ → ℝ → ℝ)
    (hU : ∀ j i : Nat, U j i = uf (between s X i) (Y j)) (hV : ∀ j i : Nat, V j i = vf (X i) (between s Y j))
    {j i : Nat} (hin : InnerCorner s ny nx j i) {u1 u2 u3 v1 v2 v3 : ℝ → ℝ} {Mu Mv W : ℝ}
    (sv : Smooth (fun x => vf x (between s Y j)) v1 v2 v3 (X (i - Spec.shift s)) (X (i - Spec.shift s + 1)) Mv)
    (su : Smooth (fun y => uf (between s X i) y) u1 u2 u3 (Y (j - Spec.shift s)) (Y (j - Spec.shift s + 1)) Mu)
    (W0 : 0 ≤ W) (hWu : ∀ k < ny, |U k i| ≤ W) (hWv : ∀ k < nx, |V j k| ≤ W) :
    |(vortPoint (pad ⟨0⟩ ny (fun k => ⟨U k i⟩ * ⟨DX k i⟩) (j - shift s))
          (pad ⟨0⟩ ny (fun k => ⟨U k i⟩ * ⟨DX k i⟩) (j - shift s + 1))
          (pad ⟨0⟩ nx (fun k => ⟨V j k⟩ * ⟨DY j k⟩) (i - shift s))
          (pad ⟨0⟩ nx (fun k => ⟨V j k⟩ * ⟨DY j k⟩) (i - shift s + 1)) (⟨A j i⟩ : Rd ρ)).val
        - (v1 (between s X i) - u1 (between s Y j))|
      ≤ (Mv * gap s X i ^ 2 + Mu * gap s Y j ^ 2) / 24
        + ((1 + u0) ^ 4 - 1) * (2 * W * (1 / gap s X i + 1 / gap s Y j)) := by
  obtain ⟨r, h1, h2⟩ := C157_error dset nu nv ndx ndy na xc yc xq yq s lu ldx lv ldy la g X Y hX hY hDX hDY hA uf vf hU hV
  obtain ⟨ζ, z1, z2⟩ := h2 j i hin u1 u2 u3 v1 v2 v3 Mu Mv sv su
  obtain ⟨r', k1, k2⟩ := C132_vorticity hr hu dset nu nv ndx ndy na xc yc xq yq s lu ldx lv ldy la g
  rw [h1] at k1
  cases k1
  obtain ⟨Z, q1, -, q3⟩ := k2 j i
  rw [z1] at q1
  cases q1
  have gx : 0 < gap s X i := by unfold gap; linarith [hX (i - Spec.shift s)]
  have gy : 0 < gap s Y j := by unfold gap; linarith [hY (j - Spec.shift s)]
  have pu : ∀ k : ℤ, |pad 0 ny (fun k => U k i * DX k i) k| ≤ W * gap s X i := by
    intro k
    unfold pad
    split
    · rename_i hk
      show |U k.toNat i * DX k.toNat i| ≤ _
      rw [hDX, abs_mul, abs_of_pos gx]
      exact mul_le_mul_of_nonneg_right (hWu _ (by omega)) gx.le
    · rw [abs_zero]; positivity
  have pv : ∀ k : ℤ, |pad 0 nx (fun k => V j k * DY j k) k| ≤ W * gap s Y j := by
    intro k
    unfold pad
    split
    · rename_i hk
      show |V j k.toNat * DY j k.toNat| ≤ _
      rw [hDY, abs_mul, abs_of_pos gy]
      exact mul_le_mul_of_nonneg_right (hWv _ (by omega)) gy.le
    · rw [abs_zero]; positivity
  have hb : (|pad 0 ny (fun k => U k i * DX k i) (j - shift s)| + |pad 0 ny (fun k => U k i * DX k i) (j - shift s + 1)|
      + |pad 0 nx (fun k => V j k * DY j k) (i - shift s)| + |pad 0 nx (fun k => V j k * DY j k) (i - shift s + 1)|)
        / |A j i| ≤ 2 * W * (1 / gap s X i + 1 / gap s Y j) := by
    rw [hA, abs_of_pos (mul_pos gx gy), div_le_iff₀ (mul_pos gx gy)]
    have e1 : 2 * W * (1 / gap s X i + 1 / gap s Y j) * (gap s X i * gap s Y j)
        = 2 * (W * gap s X i) + 2 * (W * gap s Y j) := by field_simp; ring
    rw [e1]
    linarith [pu (j - shift s), pu (j - shift s + 1), pv (i - shift s), pv (i - shift s + 1)]
  have hu4 : 0 ≤ (1 + u0) ^ 4 - 1 := by
    have : (1 : ℝ) ≤ (1 + u0) ^ 4 := one_le_pow₀ (by linarith)
    linarith
  have q4 := q3.trans (mul_le_mul_of_nonneg_left hb hu4)
  exact (abs_sub_le _ ζ _).trans (by linarith)

noncomputable section

/-- The density anomaly of the example at level `k`. -/
def exAnomaly (k : ℕ) : ℝ :=
  Spec.Wright.rho 15 35 ((500 + 1000 * (k : ℝ)) * 10 ^ 4 + 101325)
    - Spec.Wright.rho 10 34 ((500 + 1000 * (k : ℝ)) * 10 ^ 4 + 101325)

/-- The line through the values of `f` at the two levels. -/
def throughTwo (f : ℕ → ℝ) (z : ℝ) : ℝ := f 0 + (f 1 - f 0) / 1000 * (z - 500)

theorem throughTwo_level (f : ℕ → ℝ) {k : ℕ} (hk : k < 2) : throughTwo f (500 + 1000 * (k : ℝ)) = f k := by
  unfold throughTwo
  interval_cases k <;> push_cast <;> ring

theorem exAnomaly_small {k : ℕ} (hk : k < 2) : |exAnomaly k| ≤ 100 := by
  unfold exAnomaly Spec.Wright.rho
  interval_cases k <;> rw [abs_le] <;> constructor <;> norm_num [Spec.Wright.denom, Spec.Wright.p0,
    Spec.Wright.al0, Spec.Wright.lam]

/-- The column of `exD`, whose density anomaly is taken to be linear in depth: full cells, so only rounding remains. -/
example (e : Env) (hb : exDepth.InBounds e) (he : e "xh" = 0) (ht : e "time" = 1) :
    |(colHeight Wright.density ⟨101325⟩ ⟨1035⟩ (fun k => (⟨1000, 500 + 1000 * (k : ℝ), 15, 35, 10, 34⟩ : ColCell ℝ).toRd
        (nearest 53)) (.node (.leaf 1) (.leaf 0))).val
      + (throughTwo exAnomaly 1000 * 2000) / 1035| ≤ |exAnomaly 1 - exAnomaly 0| / 1000 / 2 * 10 ^ 6 / 1035 + 1 / 10 ^ 9 := by
  obtain ⟨⟨r, ref⟩, h⟩ := exRun "steric" "local" "Wright" (by simp) (Or.inl wright_case)
  have hv : ∀ k, exV.get (cell0 "time" "z_l" e k) ≠ nan := by
    intro k
    simp [exV, cell0, Function.update_of_ne, he]
  have hT : ∀ k, exT.get (Function.update e "z_l" k) = fin 15 := fun k => by
    simp [exT, Function.update_of_ne, ht]; norm_num
  have hS : ∀ k, exS.get (Function.update e "z_l" k) = fin 35 := fun k => by
    simp [exS, Function.update_of_ne, ht]; norm_num
  have hT0 : ∀ k, exT.get (cell0 "time" "z_l" e k) = fin 10 := fun k => by simp [exT, cell0]
  have hS0 : ∀ k, exS.get (cell0 "time" "z_l" e k) = fin 34 := fun k => by simp [exS, cell0]
  have hfl : exDepth.get e = fin 2000 := by simp [exDepth, he]
  have C : Column exV exT exS Wright.density (fun _ k => fin ((500 + 1000 * (k : ℝ)) * 10 ^ 4 + 101325)) "steric" "time"
      "z_l" 2 (fun k => 500 + 1000 * (k : ℝ)) (fun k => 1000 * (k : ℝ)) exDepth e 1 2000
      (throughTwo (fun k => Spec.Wright.rho 15 35 ((500 + 1000 * (k : ℝ)) * 10 ^ 4 + 101325)))
      (throughTwo (fun k => Spec.Wright.rho 10 34 ((500 + 1000 * (k : ℝ)) * 10 ^ 4 + 101325))) :=
    { inb := hb
      floor := hfl
      cell := by norm_num
      above := by norm_num
      below := by norm_num
      wet := fun k _ => hv k
      now := fun k hk _ => by
        rw [throughTwo_level _ hk, if_neg (by decide), if_neg (by decide), hT, hS]
        exact wright_float (exOcean (by norm_num) (by norm_num) (by norm_num) (by norm_num) hk)
      ref := fun k hk _ => by
        rw [throughTwo_level _ hk, hT0, hS0]
        exact wright_float (exOcean (by norm_num) (by norm_num) (by norm_num) (by norm_num) hk) }
  have hF : Smooth (fun z => exAnomaly 0 * z + (exAnomaly 1 - exAnomaly 0) / 1000 * (z ^ 2 / 2 - 500 * z))
      (fun z => throughTwo (fun k => Spec.Wright.rho 15 35 ((500 + 1000 * (k : ℝ)) * 10 ^ 4 + 101325)) z
        - throughTwo (fun k => Spec.Wright.rho 10 34 ((500 + 1000 * (k : ℝ)) * 10 ^ 4 + 101325)) z)
      (fun _ => (exAnomaly 1 - exAnomaly 0) / 1000) (fun _ => 0) (1000 * ((0 : ℕ) : ℝ)) (1000 * ((1 + 1 : ℕ) : ℝ)) 0 :=
    { d1 := fun t _ _ => (((hasDerivAt_id t).const_mul (exAnomaly 0)).add (((((hasDerivAt_id t).pow 2).div_const 2).sub
        ((hasDerivAt_id t).const_mul 500)).const_mul ((exAnomaly 1 - exAnomaly 0) / 1000))).congr_deriv (by
          simp only [throughTwo, exAnomaly, id]; push_cast; ring)
      d2 := fun t _ _ => by
        have e1 := ((hasDerivAt_id t).sub_const (500 : ℝ)).const_mul ((exAnomaly 1 - exAnomaly 0) / 1000)
        refine ((e1.const_add (exAnomaly 0)).congr_deriv (by ring)).congr_of_eventuallyEq
          (Filter.Eventually.of_forall (fun z => ?_))
        simp only [throughTwo, exAnomaly, id]
        ring
      d3 := fun t _ _ => hasDerivAt_const t _
      bound := fun t _ _ => by simp }
  have key := C161_height h wright_case (by decide) exC exGrid (fun k _ => by push_cast; ring) ⟨by norm_num, by norm_num⟩
    ⟨by norm_num, by norm_num⟩ rfl rfl rfl C hF (M1 := |exAnomaly 1 - exAnomaly 0| / 1000)
    (fun s _ _ => by rw [abs_div, abs_of_pos (by norm_num : (0 : ℝ) < 1000)])
    (fun k => ⟨1000, 500 + 1000 * (k : ℝ), 15, 35, 10, 34⟩) (.node (.leaf 1) (.leaf 0))
    (by
      rw [List.filter_eq_self.2 (fun k _ => by simpa using hv k)]
      exact List.Perm.swap _ _ _)
    (fun k hk _ => by
      refine ⟨?_, rfl, ?_, ?_, hT0 k, hS0 k, exOcean (by norm_num) (by norm_num) (by norm_num) (by norm_num) hk,
        exOcean (by norm_num) (by norm_num) (by norm_num) (by norm_num) hk⟩
      · unfold thickness Spec.overlap
        interval_cases k <;> norm_num
      · rw [if_neg (by decide)]; exact hT k
      · rw [if_neg (by decide)]; exact hS k)
    (fun k hk => by
      have hk2 : k = 1 ∨ k = 0 := by simpa [SumTree.leaves] using hk
      rcases hk2 with rfl | rfl <;> constructor <;> norm_num)
    (by simp [SumTree.depth])
    (fun k hk => by
      have hk2 : k = 1 ∨ k = 0 := by simpa [SumTree.leaves] using hk
      have := exAnomaly_small (k := k) (by omega)
      unfold exAnomaly at this
      unfold colDelta colPressure
      simp only [Wright.density_eq]
      convert this using 3 <;> norm_num)
    (by simp [SumTree.leaves]; norm_num)
  refine (le_of_eq ?_).trans (key.trans (le_of_eq ?_))
  · congr 3
    simp only [throughTwo]
    push_cast
    ring
  · push_cast
    ring

/-- The two layers of `decayN2`. -/
example : ∃ r adj, calcWaveSpeed decayN2 (DA.scalar (fin 100)) = .ok r ∧ adjustNegativeN2 decayN2 = .ok adj ∧
    |waveRd (nearest 53) (column adj "z_l" (fun _ => 0)) (column (DA.scalar (fin 100)) "z_l" (fun _ => 0))
      (.node (.leaf 1) (.leaf 0)) - 1 / Real.pi| ≤ 1e-14 * |1 / Real.pi| := by
  have g : StratInput decayN2 2 [] := ⟨rfl, by simp [decayN2, DA.dimNames], fun e _ => by
    simp only [decayN2]; split <;> exact Or.inr ⟨_, rfl⟩⟩
  have hp : IsPoint decayN2 (fun _ => 0) := by
    intro p hp h
    simp only [decayN2, List.mem_singleton] at hp
    subst hp
    exact absurd rfl h
  have hc : StableColumn decayN2 (DA.scalar (fin 100)) (fun _ => 0) 2 2
      (fun k => if k = 0 then 0.0075 ^ 2 else 0.0025 ^ 2) (fun _ => 100) := by
    refine ⟨by norm_num, le_rfl, fun k hk => ?_, fun k hk => ?_, fun k hk => rfl, fun k h1 h2 => by omega⟩
    · by_cases h : k = 0 <;> simp [decayN2, h]
    · by_cases h : k = 0 <;> simp [h] <;> norm_num
  obtain ⟨r, adj, h1, h2, h3⟩ := C161_wave (dz := DA.scalar (fin 100)) g (by norm_num) (by norm_num)
    (x := fun k => 100 * k) (c := fun k => 50 + 100 * k) (F := fun z => z / 100 - z ^ 2 / 40000)
    (B := fun z => 1 / 100 - z / 20000) (b1 := fun _ => -1 / 20000) (b2 := fun _ => 0) (M := 0) hp hc
    (fun k _ => by push_cast; linarith) (fun k _ => by push_cast; ring) (fun k _ => by push_cast; ring)
    (fun k hk => by
      have : k = 0 ∨ k = 1 := by omega
      rcases this with rfl | rfl <;> norm_num)
    { d1 := fun t _ _ => (((hasDerivAt_id t).div_const 100).sub (((hasDerivAt_id t).pow 2).div_const 40000)).congr_deriv
        (by simp; ring)
      d2 := fun t _ _ => (((hasDerivAt_id t).div_const 20000).const_sub (1 / 100)).congr_deriv (by ring)
      d3 := fun t _ _ => hasDerivAt_const t _
      bound := fun t _ _ => by simp }
  refine ⟨r, adj, h1, h2, ?_⟩
  have e1 := h3 (.node (.leaf 1) (.leaf 0)) (List.Perm.swap _ _ _)
  have e2 : ((100 * ((2 : ℕ) : ℝ)) / 100 - (100 * ((2 : ℕ) : ℝ)) ^ 2 / 40000
      - ((100 * ((0 : ℕ) : ℝ)) / 100 - (100 * ((0 : ℕ) : ℝ)) ^ 2 / 40000)) = 1 := by norm_num
  simp only [e2] at e1
  simpa using e1

/-- A cubic profile of temperature, at 40 m. -/
example : |(n2Column Wright.alpha Wright.beta Rd.same (⟨-9.8⟩ : Rd (nearest 53)) ⟨101325⟩ 4 (fun k => ⟨(k : ℝ) ^ 2 * 10⟩)
      (fun k => ⟨20 + (-(1 / 50)) * ((k : ℝ) ^ 2 * 10) + 0 * ((k : ℝ) ^ 2 * 10) ^ 2 + 1 / 10 ^ 6 * ((k : ℝ) ^ 2 * 10) ^ 3⟩)
      (fun k => ⟨35 + 1 / 100 * ((k : ℝ) ^ 2 * 10) + 0 * ((k : ℝ) ^ 2 * 10) ^ 2 + 0 * ((k : ℝ) ^ 2 * 10) ^ 3⟩) 2).val
    - -9.8 * (Wright.alpha 19.264 35.4 501325 * (-0.0152) - Wright.beta 19.264 35.4 501325 * 0.01)| ≤ 0.0000073 := by
  have hx : ∀ i j : ℕ, i < j → j < 4 → (i : ℝ) ^ 2 * 10 < (j : ℝ) ^ 2 * 10 := by
    intro i j h _
    have : (i : ℝ) < j := by exact_mod_cast h
    have h0 : (0 : ℝ) ≤ i := Nat.cast_nonneg i
    nlinarith
  have c : TSColumn cubTh cubSo (fun k => fin ((k : ℝ) ^ 2 * 10)) "z_l" (fun _ => 2) 4 (fun k => (k : ℝ) ^ 2 * 10)
      (fun k => (fun s : ℝ => 20 + (-(1 / 50)) * s + 0 * s ^ 2 + 1 / 10 ^ 6 * s ^ 3) ((k : ℝ) ^ 2 * 10))
      (fun k => (fun s : ℝ => 35 + 1 / 100 * s + 0 * s ^ 2 + 0 * s ^ 3) ((k : ℝ) ^ 2 * 10)) :=
    ⟨by norm_num, injOn_of_lt hx, rfl, by simp [cubTh, DA.dimNames], by simp [cubSo, DA.dimNames], rfl, rfl,
      fun k _ => by simp [cubTh], fun k _ => by simp [cubSo], by norm_num⟩
  have key := C161_n2 c (fun k _ => by push_cast; nlinarith [Nat.cast_nonneg (α := ℝ) k]) (by norm_num)
    (cubic_smooth _ _ _ _ _ _) (cubic_smooth _ _ _ _ _ _)
    (fun k hk => by interval_cases k <;> norm_num) (fun k hk => by interval_cases k <;> norm_num)
    (by norm_num [spacing, abs_of_neg, abs_of_pos]) (by norm_num [spacing])
  refine (le_of_eq ?_).trans (key.trans ?_)
  · norm_num
  · norm_num [spacing]

/-- The flow `v = x³` in double precision, half way between the centres 1 and 2. -/
example : |(vortPoint (pad ⟨0⟩ 3 (fun _ => ⟨0⟩ * ⟨1⟩) ((0 : ℕ) - shift false))
      (pad ⟨0⟩ 3 (fun _ => ⟨0⟩ * ⟨1⟩) ((0 : ℕ) - shift false + 1))
      (pad ⟨0⟩ 3 (fun k => ⟨(k : ℝ) ^ 3⟩ * ⟨1⟩) ((1 : ℕ) - shift false))
      (pad ⟨0⟩ 3 (fun k => ⟨(k : ℝ) ^ 3⟩ * ⟨1⟩) ((1 : ℕ) - shift false + 1)) (⟨1⟩ : Rd (nearest 53))).val - 27 / 4|
      ≤ 1 / 4 + ((1 + 2⁻¹ ^ 53) ^ 4 - 1) * 32 := by
  have key := C161_vorticity (C91_nearest 53) (by positivity) cubeDS "u" "v" "dx" "dy" "area" "xh" "yh" "xq" "yq" false
    rfl rfl rfl rfl rfl cubeDS_grid
    (fun k => k) (fun k => k) (fun k => by push_cast; linarith) (fun k => by push_cast; linarith)
    (fun j i => by simp [gap]) (fun j i => by simp [gap]) (fun j i => by simp [gap]) (fun _ _ => 0) (fun x _ => x ^ 3)
    (fun j i => by simp) (fun j i => by simp) (j := 0) (i := 1) (by unfold InnerCorner Spec.shift; simp)
    (u1 := fun _ => 0) (u2 := fun _ => 0) (u3 := fun _ => 0)
    (v1 := fun x => 3 * x ^ 2) (v2 := fun x => 6 * x) (v3 := fun _ => 6) (Mu := 0) (Mv := 6) (W := 8)
    { d1 := fun t _ _ => ((hasDerivAt_id t).pow 3).congr_deriv (by simp)
      d2 := fun t _ _ => (((hasDerivAt_id t).pow 2).const_mul 3).congr_deriv (by simp; ring)
      d3 := fun t _ _ => ((hasDerivAt_id t).const_mul 6).congr_deriv (by simp)
      bound := fun t _ _ => by rw [abs_of_pos (by norm_num)] }
    { d1 := fun t _ _ => hasDerivAt_const t _
      d2 := fun t _ _ => hasDerivAt_const t _
      d3 := fun t _ _ => hasDerivAt_const t _
      bound := fun t _ _ => by simp }
    (by norm_num) (fun k _ => by simp) (fun k hk => by interval_cases k <;> norm_num)
  refine (le_of_eq ?_).trans (key.trans (le_of_eq ?_))
  · congr 2
    simp [between, Spec.shift]
    norm_num
  · simp [gap, Spec.shift]
    norm_num

end

end Momlevel.Props
