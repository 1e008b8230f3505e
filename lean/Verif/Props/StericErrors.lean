import Verif.Props.WrightSize

/-! # C164: errors in temperature and salinity -/

set_option linter.unusedSectionVars false

namespace Momlevel.Props
open Momlevel Momlevel.Fl Momlevel.Eos

section
variable {d d' r r' ref ref' : DS (Fl ℝ)} {cn : DictArg} {rhozero : Fl ℝ} {patm : DA (Fl ℝ)}
    {eos domain : String} {strict : Bool} {tc zc zb zid : String} {n : Nat} {lev ifc : Nat → ℝ}
    {depth th so vol th' so' vol' : DA (Fl ℝ)} {ρ0 pa : ℝ}

theorem wet_diff {n : Nat} {t x x' y : Nat → ℝ} {wet : Nat → Prop} [DecidablePred wet] {ρ0 : ℝ} (h0 : 0 < ρ0)
    (ht : ∀ k, 0 ≤ t k) (hx : ∀ k < n, wet k → |x' k - x k| ≤ y k) :
    |-(1 / ρ0) * ∑ k ∈ Finset.range n, (if wet k then t k * x' k else 0) -
        -(1 / ρ0) * ∑ k ∈ Finset.range n, (if wet k then t k * x k else 0)|
      ≤ 1 / ρ0 * ∑ k ∈ Finset.range n, (if wet k then t k * y k else 0) := by
  have := wet_abs (x := fun k => x' k - x k) (y := y) (c := 1) h0 ht (fun k hk hw => by
    rw [one_mul]; exact hx k hk hw)
  rw [← mul_sub, ← Finset.sum_sub_distrib]
  convert this using 4 with k
  split <;> ring

/-- C164 (steric): two data sets on the same grid with reference volumes in the same cells. -/
theorem C164_steric
    (h : steric d .none cn none rhozero patm eos "steric" domain strict = .ok (r, ref))
    (h' : steric d' .none cn none rhozero patm eos "steric" domain strict = .ok (r', ref'))
    (heos : CaseVariant eos "wright")
    (hd : domain ≠ "global") (hc : defaultCoords cn = .ok (tc, zc, zb))
    (G : OceanGrid d zc zb zid n lev ifc depth) (G' : OceanGrid d' zc zb zid n lev ifc depth)
    (hρ : rhozero = fin ρ0) (h0 : 0 < ρ0) (hpa : patm = DA.scalar (fin pa))
    (hth : d.getVar "thetao" = .ok th) (hso : d.getVar "so" = .ok so) (hvol : d.getVar "volcello" = .ok vol)
    (hth' : d'.getVar "thetao" = .ok th') (hso' : d'.getVar "so" = .ok so') (hvol' : d'.getVar "volcello" = .ok vol') :
    ∃ a a', r.getVar "steric" = .ok a ∧ r'.getVar "steric" = .ok a' ∧
      ∀ e, depth.InBounds e → vol.get (cell0 tc zc e 0) ≠ nan → vol'.get (cell0 tc zc e 0) ≠ nan →
        (∀ k < n, vol'.get (cell0 tc zc e k) = nan ↔ vol.get (cell0 tc zc e k) = nan) →
        ∀ T S T0 S0 T' S' T0' S0' : Nat → ℝ,
        (∀ k < n, vol.get (cell0 tc zc e k) ≠ nan →
          th.get (cell zc e k) = fin (T k) ∧ so.get (cell zc e k) = fin (S k) ∧
          th.get (cell0 tc zc e k) = fin (T0 k) ∧ so.get (cell0 tc zc e k) = fin (S0 k) ∧
          Spec.Wright.Ocean (T0 k) (S0 k) (lev k * 10 ^ 4 + pa) ∧ Spec.Wright.Ocean (T k) (S k) (lev k * 10 ^ 4 + pa)) →
        (∀ k < n, vol.get (cell0 tc zc e k) ≠ nan →
          th'.get (cell zc e k) = fin (T' k) ∧ so'.get (cell zc e k) = fin (S' k) ∧
          th'.get (cell0 tc zc e k) = fin (T0' k) ∧ so'.get (cell0 tc zc e k) = fin (S0' k) ∧
          Spec.Wright.Ocean (T0' k) (S0' k) (lev k * 10 ^ 4 + pa) ∧ Spec.Wright.Ocean (T' k) (S' k) (lev k * 10 ^ 4 + pa)) →
        ∃ v v', a.get e = fin v ∧ a'.get e = fin v' ∧
          |v' - v| ≤ 1 / ρ0 * ∑ k ∈ Finset.range n, (if ¬ vol.get (cell0 tc zc e k) = nan then
            thickness ifc (val0 (depth.get e)) k * (0.48 * (|T' k - T k| + |T0' k - T0 k|) +
              0.82 * (|S' k - S k| + |S0' k - S0 k|)) else 0) := by
  subst hpa
  have hP : ∀ e : Env, ∀ k < n, (fin (lev k * 10 ^ 4 + pa) : Fl ℝ)
      = fin (lev k * 10 ^ 4) + (DA.scalar (fin pa)).get (cell zc e k) := fun e k _ => by simp
  obtain ⟨a, a1, -, a2⟩ := local_value h hd hc G hρ hth hso hvol (wright_eos heos)
    (fun _ k => fin (lev k * 10 ^ 4 + pa)) hP
  obtain ⟨b, b1, -, b2⟩ := local_value h' hd hc G' hρ hth' hso' hvol' (wright_eos heos)
    (fun _ k => fin (lev k * 10 ^ 4 + pa)) hP
  refine ⟨a, b, a1, b1, fun e he hv hv' hvv T S T0 S0 T' S' T0' S0' hT hT' => ?_⟩
  have A := a2 e he (fun k => Spec.Wright.rho (T k) (S k) (lev k * 10 ^ 4 + pa))
    (fun k => Spec.Wright.rho (T0 k) (S0 k) (lev k * 10 ^ 4 + pa))
    (fun k hk hw => by
      obtain ⟨q1, q2, -, -, -, q6⟩ := hT k hk hw
      rw [if_neg (by decide), if_neg (by decide), q1, q2]; exact wright_float q6)
    (fun k hk hw => by
      obtain ⟨-, -, q3, q4, q5, -⟩ := hT k hk hw
      rw [q3, q4]; exact wright_float q5)
  have B := b2 e he (fun k => Spec.Wright.rho (T' k) (S' k) (lev k * 10 ^ 4 + pa))
    (fun k => Spec.Wright.rho (T0' k) (S0' k) (lev k * 10 ^ 4 + pa))
    (fun k hk hw => by
      obtain ⟨q1, q2, -, -, -, q6⟩ := hT' k hk ((hvv k hk).not.1 hw)
      rw [if_neg (by decide), if_neg (by decide), q1, q2]; exact wright_float q6)
    (fun k hk hw => by
      obtain ⟨-, -, q3, q4, q5, -⟩ := hT' k hk ((hvv k hk).not.1 hw)
      rw [q3, q4]; exact wright_float q5)
  rw [if_neg hv] at A
  rw [if_neg hv', Finset.sum_congr rfl (fun k hk => if_congr (hvv k (Finset.mem_range.1 hk)) rfl rfl)] at B
  simp only [← ite_not (vol.get _ = nan)] at A B
  refine ⟨_, _, A, B, wet_diff h0 (thickness_nonneg _ _) (fun k hk hw => ?_)⟩
  obtain ⟨-, -, -, -, q5, q6⟩ := hT k hk hw
  obtain ⟨-, -, -, -, p5, p6⟩ := hT' k hk hw
  have one : ∀ {x y x' y' p : ℝ}, Spec.Wright.Ocean x y p → Spec.Wright.Ocean x' y' p →
      |Spec.Wright.rho x' y' p - Spec.Wright.rho x y p| ≤ 0.48 * |x' - x| + 0.82 * |y' - y| := fun u w => by
    have m : Spec.Wright.Ocean _ _ _ := ⟨w.1, w.2.1, u.2.2⟩
    exact (abs_sub_le _ _ _).trans ((add_le_add (Wright.abs_diff_S m w) (Wright.abs_diff_T u m)).trans_eq (add_comm _ _))
  have := one q6 p6
  have := one q5 p5
  rw [sub_sub_sub_comm]
  exact (abs_sub _ _).trans (by linarith)

/-- C164 (thermosteric): errors in salinity enter only multiplied with the change of temperature. -/
theorem C164_thermosteric
    (h : thermosteric d .none cn none rhozero patm eos domain strict = .ok (r, ref))
    (h' : thermosteric d' .none cn none rhozero patm eos domain strict = .ok (r', ref'))
    (heos : CaseVariant eos "wright")
    (hd : domain ≠ "global") (hc : defaultCoords cn = .ok (tc, zc, zb))
    (G : OceanGrid d zc zb zid n lev ifc depth) (G' : OceanGrid d' zc zb zid n lev ifc depth)
    (hρ : rhozero = fin ρ0) (h0 : 0 < ρ0) (hpa : patm = DA.scalar (fin pa))
    (hth : d.getVar "thetao" = .ok th) (hso : d.getVar "so" = .ok so) (hvol : d.getVar "volcello" = .ok vol)
    (hth' : d'.getVar "thetao" = .ok th') (hso' : d'.getVar "so" = .ok so') (hvol' : d'.getVar "volcello" = .ok vol') :
    ∃ a a', r.getVar "thermosteric" = .ok a ∧ r'.getVar "thermosteric" = .ok a' ∧
      ∀ e, depth.InBounds e → vol.get (cell0 tc zc e 0) ≠ nan → vol'.get (cell0 tc zc e 0) ≠ nan →
        (∀ k < n, vol'.get (cell0 tc zc e k) = nan ↔ vol.get (cell0 tc zc e k) = nan) →
        ∀ T T0 S0 T' T0' S0' : Nat → ℝ,
        (∀ k < n, vol.get (cell0 tc zc e k) ≠ nan →
          th.get (cell zc e k) = fin (T k) ∧ th.get (cell0 tc zc e k) = fin (T0 k) ∧
          so.get (cell0 tc zc e k) = fin (S0 k) ∧
          Spec.Wright.Ocean (T0 k) (S0 k) (lev k * 10 ^ 4 + pa) ∧ Spec.Wright.Ocean (T k) (S0 k) (lev k * 10 ^ 4 + pa)) →
        (∀ k < n, vol.get (cell0 tc zc e k) ≠ nan →
          th'.get (cell zc e k) = fin (T' k) ∧ th'.get (cell0 tc zc e k) = fin (T0' k) ∧
          so'.get (cell0 tc zc e k) = fin (S0' k) ∧
          Spec.Wright.Ocean (T0' k) (S0' k) (lev k * 10 ^ 4 + pa) ∧ Spec.Wright.Ocean (T' k) (S0' k) (lev k * 10 ^ 4 + pa)) →
        ∃ v v', a.get e = fin v ∧ a'.get e = fin v' ∧
          |v' - v| ≤ 1 / ρ0 * ∑ k ∈ Finset.range n, (if ¬ vol.get (cell0 tc zc e k) = nan then
            thickness ifc (val0 (depth.get e)) k * (0.48 * (|T' k - T k| + |T0' k - T0 k|) +
              0.0045 * (|T k - T0 k| * |S0' k - S0 k|)) else 0) := by
  subst hpa
  have hP : ∀ e : Env, ∀ k < n, (fin (lev k * 10 ^ 4 + pa) : Fl ℝ)
      = fin (lev k * 10 ^ 4) + (DA.scalar (fin pa)).get (cell zc e k) := fun e k _ => by simp
  obtain ⟨a, a1, -, a2⟩ := local_value h hd hc G hρ hth hso hvol (wright_eos heos)
    (fun _ k => fin (lev k * 10 ^ 4 + pa)) hP
  obtain ⟨b, b1, -, b2⟩ := local_value h' hd hc G' hρ hth' hso' hvol' (wright_eos heos)
    (fun _ k => fin (lev k * 10 ^ 4 + pa)) hP
  refine ⟨a, b, a1, b1, fun e he hv hv' hvv T T0 S0 T' T0' S0' hT hT' => ?_⟩
  have A := a2 e he (fun k => Spec.Wright.rho (T k) (S0 k) (lev k * 10 ^ 4 + pa))
    (fun k => Spec.Wright.rho (T0 k) (S0 k) (lev k * 10 ^ 4 + pa))
    (fun k hk hw => by
      obtain ⟨q1, -, q3, -, q6⟩ := hT k hk hw
      rw [if_neg (by decide), if_pos rfl, q1, q3]; exact wright_float q6)
    (fun k hk hw => by
      obtain ⟨-, q2, q3, q5, -⟩ := hT k hk hw
      rw [q2, q3]; exact wright_float q5)
  have B := b2 e he (fun k => Spec.Wright.rho (T' k) (S0' k) (lev k * 10 ^ 4 + pa))
    (fun k => Spec.Wright.rho (T0' k) (S0' k) (lev k * 10 ^ 4 + pa))
    (fun k hk hw => by
      obtain ⟨q1, -, q3, -, q6⟩ := hT' k hk ((hvv k hk).not.1 hw)
      rw [if_neg (by decide), if_pos rfl, q1, q3]; exact wright_float q6)
    (fun k hk hw => by
      obtain ⟨-, q2, q3, q5, -⟩ := hT' k hk ((hvv k hk).not.1 hw)
      rw [q2, q3]; exact wright_float q5)
  rw [if_neg hv] at A
  rw [if_neg hv', Finset.sum_congr rfl (fun k hk => if_congr (hvv k (Finset.mem_range.1 hk)) rfl rfl)] at B
  simp only [← ite_not (vol.get _ = nan)] at A B
  refine ⟨_, _, A, B, wet_diff h0 (thickness_nonneg _ _) (fun k hk hw => ?_)⟩
  obtain ⟨-, -, -, q5, q6⟩ := hT k hk hw
  obtain ⟨-, -, -, p5, p6⟩ := hT' k hk hw
  have m1 := (Wright.mixed_bounds q5 (⟨q6.1, q6.2.1, p5.2.2⟩ : Spec.Wright.Ocean (T k) (S0' k) _)).1
  have m2 := Wright.abs_diff_T (⟨q6.1, q6.2.1, p5.2.2⟩ : Spec.Wright.Ocean (T k) (S0' k) _) p6
  have m3 := Wright.abs_diff_T (⟨q5.1, q5.2.1, p5.2.2⟩ : Spec.Wright.Ocean (T0 k) (S0' k) _) p5
  unfold Wright.mixed at m1
  rw [abs_le] at m1 m2 m3 ⊢
  constructor <;> linarith [m1.1, m1.2, m2.1, m2.2, m3.1, m3.2]

/-- C164 (halosteric): errors in temperature enter only multiplied with the change of salinity. -/
theorem C164_halosteric
    (h : halosteric d .none cn none rhozero patm eos domain strict = .ok (r, ref))
    (h' : halosteric d' .none cn none rhozero patm eos domain strict = .ok (r', ref'))
    (heos : CaseVariant eos "wright")
    (hd : domain ≠ "global") (hc : defaultCoords cn = .ok (tc, zc, zb))
    (G : OceanGrid d zc zb zid n lev ifc depth) (G' : OceanGrid d' zc zb zid n lev ifc depth)
    (hρ : rhozero = fin ρ0) (h0 : 0 < ρ0) (hpa : patm = DA.scalar (fin pa))
    (hth : d.getVar "thetao" = .ok th) (hso : d.getVar "so" = .ok so) (hvol : d.getVar "volcello" = .ok vol)
    (hth' : d'.getVar "thetao" = .ok th') (hso' : d'.getVar "so" = .ok so') (hvol' : d'.getVar "volcello" = .ok vol') :
    ∃ a a', r.getVar "halosteric" = .ok a ∧ r'.getVar "halosteric" = .ok a' ∧
      ∀ e, depth.InBounds e → vol.get (cell0 tc zc e 0) ≠ nan → vol'.get (cell0 tc zc e 0) ≠ nan →
        (∀ k < n, vol'.get (cell0 tc zc e k) = nan ↔ vol.get (cell0 tc zc e k) = nan) →
        ∀ S T0 S0 S' T0' S0' : Nat → ℝ,
        (∀ k < n, vol.get (cell0 tc zc e k) ≠ nan →
          so.get (cell zc e k) = fin (S k) ∧ th.get (cell0 tc zc e k) = fin (T0 k) ∧
          so.get (cell0 tc zc e k) = fin (S0 k) ∧
          Spec.Wright.Ocean (T0 k) (S0 k) (lev k * 10 ^ 4 + pa) ∧ Spec.Wright.Ocean (T0 k) (S k) (lev k * 10 ^ 4 + pa)) →
        (∀ k < n, vol.get (cell0 tc zc e k) ≠ nan →
          so'.get (cell zc e k) = fin (S' k) ∧ th'.get (cell0 tc zc e k) = fin (T0' k) ∧
          so'.get (cell0 tc zc e k) = fin (S0' k) ∧
          Spec.Wright.Ocean (T0' k) (S0' k) (lev k * 10 ^ 4 + pa) ∧ Spec.Wright.Ocean (T0' k) (S' k) (lev k * 10 ^ 4 + pa)) →
        ∃ v v', a.get e = fin v ∧ a'.get e = fin v' ∧
          |v' - v| ≤ 1 / ρ0 * ∑ k ∈ Finset.range n, (if ¬ vol.get (cell0 tc zc e k) = nan then
            thickness ifc (val0 (depth.get e)) k * (0.82 * (|S' k - S k| + |S0' k - S0 k|) +
              0.0045 * (|T0' k - T0 k| * |S k - S0 k|)) else 0) := by
  subst hpa
  have hP : ∀ e : Env, ∀ k < n, (fin (lev k * 10 ^ 4 + pa) : Fl ℝ)
      = fin (lev k * 10 ^ 4) + (DA.scalar (fin pa)).get (cell zc e k) := fun e k _ => by simp
  obtain ⟨a, a1, -, a2⟩ := local_value h hd hc G hρ hth hso hvol (wright_eos heos)
    (fun _ k => fin (lev k * 10 ^ 4 + pa)) hP
  obtain ⟨b, b1, -, b2⟩ := local_value h' hd hc G' hρ hth' hso' hvol' (wright_eos heos)
    (fun _ k => fin (lev k * 10 ^ 4 + pa)) hP
  refine ⟨a, b, a1, b1, fun e he hv hv' hvv S T0 S0 S' T0' S0' hT hT' => ?_⟩
  have A := a2 e he (fun k => Spec.Wright.rho (T0 k) (S k) (lev k * 10 ^ 4 + pa))
    (fun k => Spec.Wright.rho (T0 k) (S0 k) (lev k * 10 ^ 4 + pa))
    (fun k hk hw => by
      obtain ⟨q1, q2, -, -, q6⟩ := hT k hk hw
      rw [if_pos rfl, if_neg (by decide), q1, q2]; exact wright_float q6)
    (fun k hk hw => by
      obtain ⟨-, q2, q3, q5, -⟩ := hT k hk hw
      rw [q2, q3]; exact wright_float q5)
  have B := b2 e he (fun k => Spec.Wright.rho (T0' k) (S' k) (lev k * 10 ^ 4 + pa))
    (fun k => Spec.Wright.rho (T0' k) (S0' k) (lev k * 10 ^ 4 + pa))
    (fun k hk hw => by
      obtain ⟨q1, q2, -, -, q6⟩ := hT' k hk ((hvv k hk).not.1 hw)
      rw [if_pos rfl, if_neg (by decide), q1, q2]; exact wright_float q6)
    (fun k hk hw => by
      obtain ⟨-, q2, q3, q5, -⟩ := hT' k hk ((hvv k hk).not.1 hw)
      rw [q2, q3]; exact wright_float q5)
  rw [if_neg hv] at A
  rw [if_neg hv', Finset.sum_congr rfl (fun k hk => if_congr (hvv k (Finset.mem_range.1 hk)) rfl rfl)] at B
  simp only [← ite_not (vol.get _ = nan)] at A B
  refine ⟨_, _, A, B, wet_diff h0 (thickness_nonneg _ _) (fun k hk hw => ?_)⟩
  obtain ⟨-, -, -, q5, q6⟩ := hT k hk hw
  obtain ⟨-, -, -, p5, p6⟩ := hT' k hk hw
  have m1 := (Wright.mixed_bounds q5 (⟨p5.1, p5.2.1, q6.2.2⟩ : Spec.Wright.Ocean (T0' k) (S k) _)).1
  have m2 := Wright.abs_diff_S (⟨p5.1, p5.2.1, q6.2.2⟩ : Spec.Wright.Ocean (T0' k) (S k) _) p6
  have m3 := Wright.abs_diff_S (⟨p5.1, p5.2.1, q5.2.2⟩ : Spec.Wright.Ocean (T0' k) (S0 k) _) p5
  unfold Wright.mixed at m1
  rw [abs_le] at m1 m2 m3 ⊢
  constructor <;> linarith [m1.1, m1.2, m2.1, m2.2, m3.1, m3.2]

/-- Errors of at most `εT` and `εS` in all cells, in a column of wet thickness `H`. -/
theorem uniform_error {n : Nat} {t y : Nat → ℝ} {wet : Nat → Prop} [DecidablePred wet] {ρ0 c H : ℝ} (h0 : 0 < ρ0)
    (ht : ∀ k, 0 ≤ t k) (hx : ∀ k < n, wet k → y k ≤ c) (hH : ∑ k ∈ Finset.range n, (if wet k then t k else 0) = H) :
    1 / ρ0 * ∑ k ∈ Finset.range n, (if wet k then t k * y k else 0) ≤ c * H / ρ0 := by
  have : ∑ k ∈ Finset.range n, (if wet k then t k * y k else 0) ≤ ∑ k ∈ Finset.range n, c * (if wet k then t k else 0) := by
    refine Finset.sum_le_sum (fun k hk => ?_)
    by_cases hw : wet k
    · rw [if_pos hw, if_pos hw, mul_comm c]
      exact mul_le_mul_of_nonneg_left (hx k (Finset.mem_range.1 hk) hw) (ht k)
    · simp [hw]
  rw [← Finset.mul_sum, hH] at this
  calc _ ≤ 1 / ρ0 * (c * H) := mul_le_mul_of_nonneg_left this (by positivity)
    _ = _ := by ring

/-- C164 (size): temperatures to `εT` degrees and salinities to `εS` give the steric height of a column of `H` metres of
water to `(0.96 εT + 1.64 εS) H / ρ0`. -/
theorem C164_size
    (h : steric d .none cn none rhozero patm eos "steric" domain strict = .ok (r, ref))
    (h' : steric d' .none cn none rhozero patm eos "steric" domain strict = .ok (r', ref'))
    (heos : CaseVariant eos "wright")
    (hd : domain ≠ "global") (hc : defaultCoords cn = .ok (tc, zc, zb))
    (G : OceanGrid d zc zb zid n lev ifc depth) (G' : OceanGrid d' zc zb zid n lev ifc depth)
    (hρ : rhozero = fin ρ0) (h0 : 0 < ρ0) (hpa : patm = DA.scalar (fin pa))
    (hth : d.getVar "thetao" = .ok th) (hso : d.getVar "so" = .ok so) (hvol : d.getVar "volcello" = .ok vol)
    (hth' : d'.getVar "thetao" = .ok th') (hso' : d'.getVar "so" = .ok so') (hvol' : d'.getVar "volcello" = .ok vol') :
    ∃ a a', r.getVar "steric" = .ok a ∧ r'.getVar "steric" = .ok a' ∧
      ∀ e, depth.InBounds e → vol.get (cell0 tc zc e 0) ≠ nan → vol'.get (cell0 tc zc e 0) ≠ nan →
        (∀ k < n, vol'.get (cell0 tc zc e k) = nan ↔ vol.get (cell0 tc zc e k) = nan) →
        ∀ (T S T' S' : Env → ℝ) (εT εS H : ℝ),
        (∀ k < n, vol.get (cell0 tc zc e k) ≠ nan → ∀ c ∈ [cell zc e k, cell0 tc zc e k],
          th.get c = fin (T c) ∧ so.get c = fin (S c) ∧ th'.get c = fin (T' c) ∧ so'.get c = fin (S' c) ∧
          Spec.Wright.Ocean (T c) (S c) (lev k * 10 ^ 4 + pa) ∧ Spec.Wright.Ocean (T' c) (S' c) (lev k * 10 ^ 4 + pa) ∧
          |T' c - T c| ≤ εT ∧ |S' c - S c| ≤ εS) →
        ∑ k ∈ Finset.range n, (if ¬ vol.get (cell0 tc zc e k) = nan then thickness ifc (val0 (depth.get e)) k else 0) = H →
        ∃ v v', a.get e = fin v ∧ a'.get e = fin v' ∧ |v' - v| ≤ (0.96 * εT + 1.64 * εS) * H / ρ0 := by
  obtain ⟨a, a', a1, a2, a3⟩ := C164_steric h h' heos hd hc G G' hρ h0 hpa hth hso hvol hth' hso' hvol'
  refine ⟨a, a', a1, a2, fun e he hv hv' hvv T S T' S' εT εS H hT hH => ?_⟩
  obtain ⟨v, v', w1, w2, w3⟩ := a3 e he hv hv' hvv (fun k => T (cell zc e k)) (fun k => S (cell zc e k))
    (fun k => T (cell0 tc zc e k)) (fun k => S (cell0 tc zc e k)) (fun k => T' (cell zc e k)) (fun k => S' (cell zc e k))
    (fun k => T' (cell0 tc zc e k)) (fun k => S' (cell0 tc zc e k))
    (fun k hk hw => by
      obtain ⟨p1, p2, -, -, p5, -⟩ := hT k hk hw (cell zc e k) (by simp)
      obtain ⟨q1, q2, -, -, q5, -⟩ := hT k hk hw (cell0 tc zc e k) (by simp)
      exact ⟨p1, p2, q1, q2, q5, p5⟩)
    (fun k hk hw => by
      obtain ⟨-, -, p1, p2, -, p5, -⟩ := hT k hk hw (cell zc e k) (by simp)
      obtain ⟨-, -, q1, q2, -, q5, -⟩ := hT k hk hw (cell0 tc zc e k) (by simp)
      exact ⟨p1, p2, q1, q2, q5, p5⟩)
  refine ⟨v, v', w1, w2, w3.trans (uniform_error h0 (thickness_nonneg _ _) (fun k hk hw => ?_) hH)⟩
  obtain ⟨-, -, -, -, -, -, p1, p2⟩ := hT k hk hw (cell zc e k) (by simp)
  obtain ⟨-, -, -, -, -, -, q1, q2⟩ := hT k hk hw (cell0 tc zc e k) (by simp)
  linarith

end

noncomputable section

/-- The example ocean with errors of 0.002 degrees and 0.01 in salinity at its second time. -/
def errT : DA (Fl ℝ) := ⟨exDims, fun e => fin (10 + 4.998 * (e "time" : ℝ))⟩
def errS : DA (Fl ℝ) := ⟨exDims, fun e => fin (34 + 0.99 * (e "time" : ℝ))⟩
def errD : DS (Fl ℝ) := ⟨[("thetao", errT), ("so", errS), ("volcello", exV), ("areacello", exA),
  ("deptho", exDepth), ("z_l", exZ), ("z_i", exZi)], ["z_l", "z_i"]⟩

theorem errGood : GoodData errD "time" "z_l" "z_i" "z_i" "yh" "xh" 2 2 2 2 (fun k => 500 + 1000 * (k : ℝ))
    (fun k => 1000 * (k : ℝ)) errT errS exV exA exDepth exZi (DA.scalar (fin 101325)) where
  names := by decide
  hnt := by norm_num
  hn := by norm_num
  hny := by norm_num
  hnx := by norm_num
  hth := rfl
  hso := rfl
  hvol := rfl
  harea := rfl
  hzb := rfl
  thd := rfl
  sod := rfl
  vold := rfl
  aread := rfl
  depthd := rfl
  grid := by
    obtain ⟨⟨z, zi, h1, h2, h3⟩, -, b, c, -⟩ := exGrid
    cases h1
    cases h2
    exact ⟨⟨_, _, rfl, rfl, h3⟩, rfl, b, c, by simp [errD, DS.names]⟩
  alone := by simp [errD, exZ, exZi, DA.dimNames]
  patmd := by simp

theorem errRun (variant : String) (hv : variant ∈ ["thermosteric", "halosteric", "steric"]) :
    ∃ x, steric errD .none .none none (fin 1035) (DA.scalar (fin 101325)) "Wright" variant "local" true = .ok x :=
  C30_success errGood rfl hv (Or.inl wright_case) (by simp) (fun _ => exArea)

/-- Example for C164: with these errors the steric height of the 2000 m column is right to 36 mm. -/
example : ∃ r ref r' ref' a a',
    steric exD .none .none none (fin 1035) (DA.scalar (fin 101325)) "Wright" "steric" "local" true = .ok (r, ref) ∧
    steric errD .none .none none (fin 1035) (DA.scalar (fin 101325)) "Wright" "steric" "local" true = .ok (r', ref') ∧
    r.getVar "steric" = .ok a ∧ r'.getVar "steric" = .ok a' ∧
    ∀ e, exDepth.InBounds e → e "xh" = 0 → e "time" < 2 → ∃ v v', a.get e = fin v ∧ a'.get e = fin v' ∧ |v' - v| ≤ 0.036 := by
  obtain ⟨⟨r, ref⟩, h⟩ := exRun "steric" "local" "Wright" (by simp) (Or.inl wright_case)
  obtain ⟨⟨r', ref'⟩, h'⟩ := errRun "steric" (by simp)
  obtain ⟨a, a', a1, a2, a3⟩ := C164_size h h' wright_case (by decide) exC exGrid errGood.grid rfl (by norm_num) rfl
    exGood.hth exGood.hso exGood.hvol errGood.hth errGood.hso errGood.hvol
  refine ⟨r, ref, r', ref', a, a', h, h', a1, a2, fun e he hx ht => ?_⟩
  have wet : ∀ k, exV.get (cell0 "time" "z_l" e k) = fin 1 := fun k => by simp [exV, hx]
  have hd : exDepth.get e = fin 2000 := by simp [exDepth, hx]
  have th0 : thickness (fun k => 1000 * (k : ℝ)) 2000 0 = 1000 := by
    unfold thickness Spec.overlap; norm_num
  have th1 : thickness (fun k => 1000 * (k : ℝ)) 2000 1 = 1000 := by
    unfold thickness Spec.overlap; norm_num
  obtain ⟨v, v', w1, w2, w3⟩ := a3 e he (by rw [wet]; simp) (by rw [wet]; simp) (fun _ _ => Iff.rfl) (fun e => 10 + 5 * (e "time" : ℝ))
    (fun e => 34 + (e "time" : ℝ)) (fun e => 10 + 4.998 * (e "time" : ℝ)) (fun e => 34 + 0.99 * (e "time" : ℝ))
    0.002 0.01 2000 (fun k hk _ c hcc => by
      have hct : c "time" ≤ 1 := by
        simp only [List.mem_cons, List.not_mem_nil, or_false] at hcc
        rcases hcc with rfl | rfl
        · simp; omega
        · simp
      have t0 : (0 : ℝ) ≤ c "time" := Nat.cast_nonneg _
      have t1 : (c "time" : ℝ) ≤ 1 := by exact_mod_cast hct
      refine ⟨rfl, rfl, rfl, rfl, exOcean (by linarith) (by linarith) (by linarith) (by linarith) hk,
        exOcean (by linarith) (by linarith) (by linarith) (by linarith) hk, ?_, ?_⟩ <;>
      · rw [abs_le]; constructor <;> linarith)
    (by
      rw [Finset.sum_range_succ, Finset.sum_range_succ, Finset.sum_range_zero, wet, wet, hd, val0_fin, th0, th1,
        if_pos (by simp)]
      norm_num)
  exact ⟨v, v', w1, w2, w3.trans (by norm_num)⟩

/-- The thermosteric height of the same columns: both data sets have the reference salinity 34, and only the error in
temperature remains. -/
example : ∃ r ref r' ref' a a',
    thermosteric exD .none .none none (fin 1035) (DA.scalar (fin 101325)) "Wright" "local" true = .ok (r, ref) ∧
    thermosteric errD .none .none none (fin 1035) (DA.scalar (fin 101325)) "Wright" "local" true = .ok (r', ref') ∧
    r.getVar "thermosteric" = .ok a ∧ r'.getVar "thermosteric" = .ok a' ∧
    ∀ e, exDepth.InBounds e → e "xh" = 0 → e "time" = 1 → ∃ v v', a.get e = fin v ∧ a'.get e = fin v' ∧ |v' - v| ≤ 0.002 := by
  obtain ⟨⟨r, ref⟩, h⟩ := exRun "thermosteric" "local" "Wright" (by simp) (Or.inl wright_case)
  obtain ⟨⟨r', ref'⟩, h'⟩ := errRun "thermosteric" (by simp)
  obtain ⟨a, a', a1, a2, a3⟩ := C164_thermosteric h h' wright_case (by decide) exC exGrid errGood.grid rfl (by norm_num) rfl
    exGood.hth exGood.hso exGood.hvol errGood.hth errGood.hso errGood.hvol
  refine ⟨r, ref, r', ref', a, a', h, h', a1, a2, fun e he hx ht => ?_⟩
  have wet : ∀ k, exV.get (cell0 "time" "z_l" e k) = fin 1 := fun k => by simp [exV, hx]
  have hd : exDepth.get e = fin 2000 := by simp [exDepth, hx]
  have th0 : thickness (fun k => 1000 * (k : ℝ)) 2000 0 = 1000 := by
    unfold thickness Spec.overlap; norm_num
  have th1 : thickness (fun k => 1000 * (k : ℝ)) 2000 1 = 1000 := by
    unfold thickness Spec.overlap; norm_num
  obtain ⟨v, v', w1, w2, w3⟩ := a3 e he (by rw [wet]; simp) (by rw [wet]; simp) (fun _ _ => Iff.rfl) (fun _ => 15) (fun _ => 10) (fun _ => 34)
    (fun _ => 14.998) (fun _ => 10) (fun _ => 34)
    (fun k hk _ => ⟨by simp [exT, ht]; norm_num, by simp [exT], by simp [exS],
      exOcean (by norm_num) (by norm_num) (by norm_num) (by norm_num) hk,
      exOcean (by norm_num) (by norm_num) (by norm_num) (by norm_num) hk⟩)
    (fun k hk _ => ⟨by simp [errT, ht]; norm_num, by simp [errT], by simp [errS],
      exOcean (by norm_num) (by norm_num) (by norm_num) (by norm_num) hk,
      exOcean (by norm_num) (by norm_num) (by norm_num) (by norm_num) hk⟩)
  rw [Finset.sum_range_succ, Finset.sum_range_succ, Finset.sum_range_zero, wet, wet, hd, val0_fin, th0, th1,
    if_pos (by simp)] at w3
  norm_num [abs_of_pos, abs_of_neg] at w3
  exact ⟨v, v', w1, w2, by norm_num; linarith⟩

/-- The halosteric height: the error in the temperature of the second time has no effect. -/
example : ∃ r ref r' ref' a a',
    halosteric exD .none .none none (fin 1035) (DA.scalar (fin 101325)) "Wright" "local" true = .ok (r, ref) ∧
    halosteric errD .none .none none (fin 1035) (DA.scalar (fin 101325)) "Wright" "local" true = .ok (r', ref') ∧
    r.getVar "halosteric" = .ok a ∧ r'.getVar "halosteric" = .ok a' ∧
    ∀ e, exDepth.InBounds e → e "xh" = 0 → e "time" = 1 → ∃ v v', a.get e = fin v ∧ a'.get e = fin v' ∧ |v' - v| ≤ 0.016 := by
  obtain ⟨⟨r, ref⟩, h⟩ := exRun "halosteric" "local" "Wright" (by simp) (Or.inl wright_case)
  obtain ⟨⟨r', ref'⟩, h'⟩ := errRun "halosteric" (by simp)
  obtain ⟨a, a', a1, a2, a3⟩ := C164_halosteric h h' wright_case (by decide) exC exGrid errGood.grid rfl (by norm_num) rfl
    exGood.hth exGood.hso exGood.hvol errGood.hth errGood.hso errGood.hvol
  refine ⟨r, ref, r', ref', a, a', h, h', a1, a2, fun e he hx ht => ?_⟩
  have wet : ∀ k, exV.get (cell0 "time" "z_l" e k) = fin 1 := fun k => by simp [exV, hx]
  have hd : exDepth.get e = fin 2000 := by simp [exDepth, hx]
  have th0 : thickness (fun k => 1000 * (k : ℝ)) 2000 0 = 1000 := by
    unfold thickness Spec.overlap; norm_num
  have th1 : thickness (fun k => 1000 * (k : ℝ)) 2000 1 = 1000 := by
    unfold thickness Spec.overlap; norm_num
  obtain ⟨v, v', w1, w2, w3⟩ := a3 e he (by rw [wet]; simp) (by rw [wet]; simp) (fun _ _ => Iff.rfl) (fun _ => 35) (fun _ => 10) (fun _ => 34)
    (fun _ => 34.99) (fun _ => 10) (fun _ => 34)
    (fun k hk _ => ⟨by simp [exS, ht]; norm_num, by simp [exT], by simp [exS],
      exOcean (by norm_num) (by norm_num) (by norm_num) (by norm_num) hk,
      exOcean (by norm_num) (by norm_num) (by norm_num) (by norm_num) hk⟩)
    (fun k hk _ => ⟨by simp [errS, ht]; norm_num, by simp [errT], by simp [errS],
      exOcean (by norm_num) (by norm_num) (by norm_num) (by norm_num) hk,
      exOcean (by norm_num) (by norm_num) (by norm_num) (by norm_num) hk⟩)
  rw [Finset.sum_range_succ, Finset.sum_range_succ, Finset.sum_range_zero, wet, wet, hd, val0_fin, th0, th1,
    if_pos (by simp)] at w3
  norm_num [abs_of_pos, abs_of_neg] at w3
  exact ⟨v, v', w1, w2, by norm_num; linarith⟩

end

end Momlevel.Props
