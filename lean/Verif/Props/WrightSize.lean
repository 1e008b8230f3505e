import Verif.Lemmas.WrightDiff
import Verif.Props.ChangeRef

/-! # C106–C108: sizes of the steric heights with Wright's equation of state -/

set_option linter.unusedSectionVars false

namespace Momlevel.Props
open Momlevel Momlevel.Fl Momlevel.Eos

section
variable {d r r1 r2 ref ref1 ref2 : DS (Fl ℝ)} {cn : DictArg} {rhozero : Fl ℝ} {patm : DA (Fl ℝ)}
    {eos domain : String} {strict : Bool} {tc zc zb zid : String} {n : Nat} {lev ifc : Nat → ℝ}
    {depth th so vol : DA (Fl ℝ)} {ρ0 pa : ℝ}

theorem wet_abs {n : Nat} {t x y : Nat → ℝ} {wet : Nat → Prop} [DecidablePred wet] {ρ0 c : ℝ} (h0 : 0 < ρ0)
    (ht : ∀ k, 0 ≤ t k) (hx : ∀ k < n, wet k → |x k| ≤ c * y k) :
    |-(1 / ρ0) * ∑ k ∈ Finset.range n, (if wet k then t k * x k else 0)|
      ≤ c / ρ0 * ∑ k ∈ Finset.range n, (if wet k then t k * y k else 0) := by
  rw [abs_mul, abs_neg, abs_of_nonneg (by positivity : 0 ≤ 1 / ρ0)]
  have : |∑ k ∈ Finset.range n, (if wet k then t k * x k else 0)| ≤
      ∑ k ∈ Finset.range n, c * (if wet k then t k * y k else 0) := by
    refine (Finset.abs_sum_le_sum_abs _ _).trans (Finset.sum_le_sum (fun k hk => ?_))
    by_cases hw : wet k
    · rw [if_pos hw, if_pos hw, abs_mul, abs_of_nonneg (ht k)]
      have := mul_le_mul_of_nonneg_left (hx k (Finset.mem_range.1 hk) hw) (ht k)
      linarith
    · simp [hw]
  rw [← Finset.mul_sum] at this
  calc _ ≤ 1 / ρ0 * (c * ∑ k ∈ Finset.range n, (if wet k then t k * y k else 0)) :=
        mul_le_mul_of_nonneg_left this (by positivity)
    _ = _ := by ring

theorem wet_le {n : Nat} {t x y : Nat → ℝ} {wet : Nat → Prop} [DecidablePred wet] {ρ0 c : ℝ} (h0 : 0 < ρ0)
    (ht : ∀ k, 0 ≤ t k) (hx : ∀ k < n, wet k → c * y k ≤ x k) :
    c / ρ0 * ∑ k ∈ Finset.range n, (if wet k then t k * y k else 0)
      ≤ 1 / ρ0 * ∑ k ∈ Finset.range n, (if wet k then t k * x k else 0) := by
  have : ∑ k ∈ Finset.range n, c * (if wet k then t k * y k else 0) ≤
      ∑ k ∈ Finset.range n, (if wet k then t k * x k else 0) := by
    refine Finset.sum_le_sum (fun k hk => ?_)
    by_cases hw : wet k
    · rw [if_pos hw, if_pos hw]
      have := mul_le_mul_of_nonneg_left (hx k (Finset.mem_range.1 hk) hw) (ht k)
      linarith
    · simp [hw]
  rw [← Finset.mul_sum] at this
  calc _ = 1 / ρ0 * (c * ∑ k ∈ Finset.range n, (if wet k then t k * y k else 0)) := by ring
    _ ≤ _ := mul_le_mul_of_nonneg_left this (by positivity)

/-- C106 (density): between 0.676 and 0.82 kg m⁻³ per unit of salinity, between −0.48 and 0.113 kg m⁻³ per degree, on the whole
oceanographic range. -/
theorem C106_density {T T' S S' p : ℝ} (h : Spec.Wright.Ocean T S p) (h1 : Spec.Wright.Ocean T S' p)
    (h2 : Spec.Wright.Ocean T' S p) :
    (S ≤ S' → 0.676 * (S' - S) ≤ Wright.density T S' p - Wright.density T S p ∧
      Wright.density T S' p - Wright.density T S p ≤ 0.82 * (S' - S)) ∧
    (T ≤ T' → -0.48 * (T' - T) ≤ Wright.density T' S p - Wright.density T S p ∧
      Wright.density T' S p - Wright.density T S p ≤ 0.113 * (T' - T)) := by
  simp only [Wright.density_eq]
  exact ⟨Wright.diff_S h h1, Wright.diff_T h h2⟩

example : Spec.Wright.Ocean 10 34 (2 * 10 ^ 7) ∧ Spec.Wright.Ocean 10 35 (2 * 10 ^ 7) ∧
    Spec.Wright.Ocean 12 34 (2 * 10 ^ 7) := by
  unfold Spec.Wright.Ocean; norm_num

/-- C106 (halosteric): the height is at most 0.82/ρ0 times the sum of thickness times salinity change; if no cell
freshens it is at least 0.676/ρ0 times that sum (downwards). -/
theorem C106_halosteric
    (h : halosteric d .none cn none rhozero patm eos domain strict = .ok (r, ref))
    (heos : CaseVariant eos "wright")
    (hd : domain ≠ "global") (hc : defaultCoords cn = .ok (tc, zc, zb))
    (G : OceanGrid d zc zb zid n lev ifc depth) (hρ : rhozero = fin ρ0) (h0 : 0 < ρ0)
    (hpa : patm = DA.scalar (fin pa))
    (hth : d.getVar "thetao" = .ok th) (hso : d.getVar "so" = .ok so)
    (hvol : d.getVar "volcello" = .ok vol) :
    ∃ a, r.getVar "halosteric" = .ok a ∧
      ∀ e, depth.InBounds e → vol.get (cell0 tc zc e 0) ≠ nan → ∀ S T0 S0 : Nat → ℝ,
        (∀ k < n, vol.get (cell0 tc zc e k) ≠ nan →
          so.get (cell zc e k) = fin (S k) ∧ th.get (cell0 tc zc e k) = fin (T0 k) ∧
          so.get (cell0 tc zc e k) = fin (S0 k) ∧
          Spec.Wright.Ocean (T0 k) (S0 k) (lev k * 10 ^ 4 + pa) ∧
          Spec.Wright.Ocean (T0 k) (S k) (lev k * 10 ^ 4 + pa)) →
        ∃ v, a.get e = fin v ∧
          |v| ≤ 0.82 / ρ0 * ∑ k ∈ Finset.range n, (if ¬ vol.get (cell0 tc zc e k) = nan then
            thickness ifc (val0 (depth.get e)) k * |S k - S0 k| else 0) ∧
          ((∀ k < n, vol.get (cell0 tc zc e k) ≠ nan → S0 k ≤ S k) →
            0.676 / ρ0 * ∑ k ∈ Finset.range n, (if ¬ vol.get (cell0 tc zc e k) = nan then
              thickness ifc (val0 (depth.get e)) k * (S k - S0 k) else 0) ≤ -v) := by
  subst hpa
  obtain ⟨a, a1, -, a2⟩ := local_value h hd hc G hρ hth hso hvol (wright_eos heos)
    (fun _ k => fin (lev k * 10 ^ 4 + pa)) (fun e k _ => by simp)
  refine ⟨a, a1, fun e he hv S T0 S0 hT => ?_⟩
  have A := a2 e he (fun k => Spec.Wright.rho (T0 k) (S k) (lev k * 10 ^ 4 + pa))
    (fun k => Spec.Wright.rho (T0 k) (S0 k) (lev k * 10 ^ 4 + pa))
    (fun k hk hw => by
      obtain ⟨q1, q2, q3, -, q6⟩ := hT k hk hw
      rw [if_pos rfl, if_neg (by decide), q1, q2]; exact wright_float q6)
    (fun k hk hw => by
      obtain ⟨q1, q2, q3, q5, -⟩ := hT k hk hw
      rw [q2, q3]; exact wright_float q5)
  rw [if_neg hv] at A
  simp only [← ite_not (vol.get _ = nan)] at A
  refine ⟨_, A, ?_, fun hs => ?_⟩
  · exact wet_abs h0 (thickness_nonneg _ _) (fun k hk hw => by
      obtain ⟨-, -, -, q5, q6⟩ := hT k hk hw
      exact Wright.abs_diff_S q5 q6)
  · rw [neg_mul, neg_neg]
    exact wet_le h0 (thickness_nonneg _ _) (fun k hk hw => by
      obtain ⟨-, -, -, q5, q6⟩ := hT k hk hw
      exact (Wright.diff_S q5 q6 (hs k hk hw)).1)

/-- C106 (thermosteric): the height is at most 0.48/ρ0 times the sum of thickness times temperature change. -/
theorem C106_thermosteric
    (h : thermosteric d .none cn none rhozero patm eos domain strict = .ok (r, ref))
    (heos : CaseVariant eos "wright")
    (hd : domain ≠ "global") (hc : defaultCoords cn = .ok (tc, zc, zb))
    (G : OceanGrid d zc zb zid n lev ifc depth) (hρ : rhozero = fin ρ0) (h0 : 0 < ρ0)
    (hpa : patm = DA.scalar (fin pa))
    (hth : d.getVar "thetao" = .ok th) (hso : d.getVar "so" = .ok so)
    (hvol : d.getVar "volcello" = .ok vol) :
    ∃ a, r.getVar "thermosteric" = .ok a ∧
      ∀ e, depth.InBounds e → vol.get (cell0 tc zc e 0) ≠ nan → ∀ T T0 S0 : Nat → ℝ,
        (∀ k < n, vol.get (cell0 tc zc e k) ≠ nan →
          th.get (cell zc e k) = fin (T k) ∧ th.get (cell0 tc zc e k) = fin (T0 k) ∧
          so.get (cell0 tc zc e k) = fin (S0 k) ∧
          Spec.Wright.Ocean (T0 k) (S0 k) (lev k * 10 ^ 4 + pa) ∧
          Spec.Wright.Ocean (T k) (S0 k) (lev k * 10 ^ 4 + pa)) →
        ∃ v, a.get e = fin v ∧
          |v| ≤ 0.48 / ρ0 * ∑ k ∈ Finset.range n, (if ¬ vol.get (cell0 tc zc e k) = nan then
            thickness ifc (val0 (depth.get e)) k * |T k - T0 k| else 0) ∧
          ((∀ k < n, vol.get (cell0 tc zc e k) ≠ nan → T0 k ≤ T k) →
            -0.113 / ρ0 * ∑ k ∈ Finset.range n, (if ¬ vol.get (cell0 tc zc e k) = nan then
              thickness ifc (val0 (depth.get e)) k * (T k - T0 k) else 0) ≤ v) := by
  subst hpa
  obtain ⟨a, a1, -, a2⟩ := local_value h hd hc G hρ hth hso hvol (wright_eos heos)
    (fun _ k => fin (lev k * 10 ^ 4 + pa)) (fun e k _ => by simp)
  refine ⟨a, a1, fun e he hv T T0 S0 hT => ?_⟩
  have A := a2 e he (fun k => Spec.Wright.rho (T k) (S0 k) (lev k * 10 ^ 4 + pa))
    (fun k => Spec.Wright.rho (T0 k) (S0 k) (lev k * 10 ^ 4 + pa))
    (fun k hk hw => by
      obtain ⟨q1, q2, q3, -, q6⟩ := hT k hk hw
      rw [if_neg (by decide), if_pos rfl, q1, q3]; exact wright_float q6)
    (fun k hk hw => by
      obtain ⟨q1, q2, q3, q5, -⟩ := hT k hk hw
      rw [q2, q3]; exact wright_float q5)
  rw [if_neg hv] at A
  simp only [← ite_not (vol.get _ = nan)] at A
  refine ⟨_, A, ?_, fun hs => ?_⟩
  · exact wet_abs h0 (thickness_nonneg _ _) (fun k hk hw => by
      obtain ⟨-, -, -, q5, q6⟩ := hT k hk hw
      exact Wright.abs_diff_T q5 q6)
  · have := wet_le (wet := fun k => ¬ vol.get (cell0 tc zc e k) = nan) (n := n) (c := -0.113) (y := fun k => T k - T0 k)
      (x := fun k => -(Spec.Wright.rho (T k) (S0 k) (lev k * 10 ^ 4 + pa) -
        Spec.Wright.rho (T0 k) (S0 k) (lev k * 10 ^ 4 + pa))) h0 (thickness_nonneg ifc (val0 (depth.get e))) (fun k hk hw => by
      obtain ⟨-, -, -, q5, q6⟩ := hT k hk hw
      have := (Wright.diff_T q5 q6 (hs k hk hw)).2
      linarith)
    refine this.trans (le_of_eq ?_)
    rw [neg_mul, ← mul_neg, ← Finset.sum_neg_distrib]
    congr 1
    refine Finset.sum_congr rfl (fun k _ => ?_)
    split <;> ring

/-- C107: with Wright's equation of state the steric height differs from the sum of the thermosteric and halosteric
heights by at most 0.0045/ρ0 times the sum of thickness times |ΔT| times |ΔS|.  If in no cell temperature and
salinity change in opposite directions it is the larger one (strictly, if some cell with positive thickness changes
in both). -/
theorem C107_closure
    (h : steric d .none cn none rhozero patm eos "steric" domain strict = .ok (r, ref))
    (h1 : thermosteric d .none cn none rhozero patm eos domain strict = .ok (r1, ref1))
    (h2 : halosteric d .none cn none rhozero patm eos domain strict = .ok (r2, ref2))
    (heos : CaseVariant eos "wright")
    (hd : domain ≠ "global") (hc : defaultCoords cn = .ok (tc, zc, zb))
    (G : OceanGrid d zc zb zid n lev ifc depth) (hρ : rhozero = fin ρ0) (h0 : 0 < ρ0)
    (hpa : patm = DA.scalar (fin pa))
    (hth : d.getVar "thetao" = .ok th) (hso : d.getVar "so" = .ok so)
    (hvol : d.getVar "volcello" = .ok vol) :
    ∃ a b c, r.getVar "steric" = .ok a ∧ r1.getVar "thermosteric" = .ok b ∧ r2.getVar "halosteric" = .ok c ∧
      ∀ e, depth.InBounds e → vol.get (cell0 tc zc e 0) ≠ nan → ∀ T S T0 S0 : Nat → ℝ,
        (∀ k < n, vol.get (cell0 tc zc e k) ≠ nan →
          th.get (cell zc e k) = fin (T k) ∧ so.get (cell zc e k) = fin (S k) ∧
          th.get (cell0 tc zc e k) = fin (T0 k) ∧ so.get (cell0 tc zc e k) = fin (S0 k) ∧
          Spec.Wright.Ocean (T0 k) (S0 k) (lev k * 10 ^ 4 + pa) ∧
          Spec.Wright.Ocean (T k) (S k) (lev k * 10 ^ 4 + pa)) →
        ∃ v v1 v2, a.get e = fin v ∧ b.get e = fin v1 ∧ c.get e = fin v2 ∧
          |v - (v1 + v2)| ≤ 0.0045 / ρ0 * ∑ k ∈ Finset.range n, (if ¬ vol.get (cell0 tc zc e k) = nan then
            thickness ifc (val0 (depth.get e)) k * (|T k - T0 k| * |S k - S0 k|) else 0) ∧
          ((∀ k < n, vol.get (cell0 tc zc e k) ≠ nan → 0 ≤ (T k - T0 k) * (S k - S0 k)) → v1 + v2 ≤ v ∧
            ((∃ k < n, vol.get (cell0 tc zc e k) ≠ nan ∧ 0 < thickness ifc (val0 (depth.get e)) k ∧
              0 < (T k - T0 k) * (S k - S0 k)) → v1 + v2 < v)) ∧
          ((∀ k < n, vol.get (cell0 tc zc e k) ≠ nan → (T k - T0 k) * (S k - S0 k) ≤ 0) → v ≤ v1 + v2 ∧
            ((∃ k < n, vol.get (cell0 tc zc e k) ≠ nan ∧ 0 < thickness ifc (val0 (depth.get e)) k ∧
              (T k - T0 k) * (S k - S0 k) < 0) → v < v1 + v2)) := by
  subst hpa
  have hP : ∀ e : Env, ∀ k < n, (fin (lev k * 10 ^ 4 + pa) : Fl ℝ)
      = fin (lev k * 10 ^ 4) + (DA.scalar (fin pa)).get (cell zc e k) := fun e k _ => by simp
  obtain ⟨a, a1, -, a2⟩ := local_value h hd hc G hρ hth hso hvol (wright_eos heos)
    (fun _ k => fin (lev k * 10 ^ 4 + pa)) hP
  obtain ⟨b, b1, -, b2⟩ := local_value h1 hd hc G hρ hth hso hvol (wright_eos heos)
    (fun _ k => fin (lev k * 10 ^ 4 + pa)) hP
  obtain ⟨c, c1, -, c2⟩ := local_value h2 hd hc G hρ hth hso hvol (wright_eos heos)
    (fun _ k => fin (lev k * 10 ^ 4 + pa)) hP
  refine ⟨a, b, c, a1, b1, c1, fun e he hv T S T0 S0 hT => ?_⟩
  have ref : ∀ k < n, vol.get (cell0 tc zc e k) ≠ nan →
      Wright.density (th.get (cell0 tc zc e k)) (so.get (cell0 tc zc e k)) (fin (lev k * 10 ^ 4 + pa))
        = fin (Spec.Wright.rho (T0 k) (S0 k) (lev k * 10 ^ 4 + pa)) := fun k hk hw => by
    obtain ⟨-, -, q3, q4, q5, -⟩ := hT k hk hw
    rw [q3, q4]; exact wright_float q5
  have A := a2 e he (fun k => Spec.Wright.rho (T k) (S k) (lev k * 10 ^ 4 + pa)) _
    (fun k hk hw => by
      obtain ⟨q1, q2, -, -, -, q6⟩ := hT k hk hw
      rw [if_neg (by decide), if_neg (by decide), q1, q2]; exact wright_float q6) ref
  have B := b2 e he (fun k => Spec.Wright.rho (T k) (S0 k) (lev k * 10 ^ 4 + pa)) _
    (fun k hk hw => by
      obtain ⟨q1, -, -, q4, q5, q6⟩ := hT k hk hw
      rw [if_neg (by decide), if_pos rfl, q1, q4]; exact wright_float ⟨q6.1, q6.2.1, q5.2.2⟩) ref
  have C := c2 e he (fun k => Spec.Wright.rho (T0 k) (S k) (lev k * 10 ^ 4 + pa)) _
    (fun k hk hw => by
      obtain ⟨-, q2, q3, -, q5, q6⟩ := hT k hk hw
      rw [if_pos rfl, if_neg (by decide), q3, q2]; exact wright_float ⟨q5.1, q5.2.1, q6.2.2⟩) ref
  rw [if_neg hv] at A B C
  simp only [← ite_not (vol.get _ = nan)] at A B C
  refine ⟨_, _, _, A, B, C, ?_⟩
  have diff : -(1 / ρ0) * (∑ k ∈ Finset.range n, if ¬ vol.get (cell0 tc zc e k) = nan then
        thickness ifc (val0 (depth.get e)) k * (Spec.Wright.rho (T k) (S k) (lev k * 10 ^ 4 + pa) -
          Spec.Wright.rho (T0 k) (S0 k) (lev k * 10 ^ 4 + pa)) else 0) -
      (-(1 / ρ0) * (∑ k ∈ Finset.range n, if ¬ vol.get (cell0 tc zc e k) = nan then
        thickness ifc (val0 (depth.get e)) k * (Spec.Wright.rho (T k) (S0 k) (lev k * 10 ^ 4 + pa) -
          Spec.Wright.rho (T0 k) (S0 k) (lev k * 10 ^ 4 + pa)) else 0) +
        -(1 / ρ0) * (∑ k ∈ Finset.range n, if ¬ vol.get (cell0 tc zc e k) = nan then
        thickness ifc (val0 (depth.get e)) k * (Spec.Wright.rho (T0 k) (S k) (lev k * 10 ^ 4 + pa) -
          Spec.Wright.rho (T0 k) (S0 k) (lev k * 10 ^ 4 + pa)) else 0)) =
      -(1 / ρ0) * ∑ k ∈ Finset.range n, (if ¬ vol.get (cell0 tc zc e k) = nan then
        thickness ifc (val0 (depth.get e)) k * (Wright.mixed (T0 k) (T k) (S0 k) (S k) (lev k * 10 ^ 4 + pa)) else 0) := by
    rw [← mul_add, ← mul_sub, ← Finset.sum_add_distrib, ← Finset.sum_sub_distrib]
    congr 1
    refine Finset.sum_congr rfl (fun k _ => ?_)
    split
    · unfold Wright.mixed; ring
    · ring
  have mx : ∀ k < n, vol.get (cell0 tc zc e k) ≠ nan → _ := fun k hk hw => by
    obtain ⟨-, -, -, -, q5, q6⟩ := hT k hk hw
    exact Wright.mixed_bounds q5 q6
  refine ⟨?_, fun hs => ?_, fun hs => ?_⟩
  · rw [diff]
    exact wet_abs h0 (thickness_nonneg _ _) (fun k hk hw => (mx k hk hw).1)
  · have hle : ∀ k < n, ¬ vol.get (cell0 tc zc e k) = nan →
        Wright.mixed (T0 k) (T k) (S0 k) (S k) (lev k * 10 ^ 4 + pa) ≤ 0 := fun k hk hw => by
      rcases (hs k hk hw).lt_or_eq with hlt | heq
      · exact ((mx k hk hw).2.1 hlt).le
      · rcases mul_eq_zero.1 heq.symm with h | h
        · rw [sub_eq_zero.1 h]; unfold Wright.mixed; linarith
        · rw [sub_eq_zero.1 h]; unfold Wright.mixed; linarith
    have cs := column_sum_sign (n := n) (t := thickness ifc (val0 (depth.get e)))
      (x0 := fun _ => 0) (x := fun k => Wright.mixed (T0 k) (T k) (S0 k) (S k) (lev k * 10 ^ 4 + pa))
      (wet := fun k => ¬ vol.get (cell0 tc zc e k) = nan) h0 (thickness_nonneg _ _) hle
    simp only [sub_zero] at cs
    rw [← diff] at cs
    refine ⟨by linarith [cs.1], fun ⟨k, hk, hw, ht, hl⟩ => ?_⟩
    have := cs.2 ⟨k, hk, hw, ht, (mx k hk hw).2.1 hl⟩
    linarith
  · have hge : ∀ k < n, ¬ vol.get (cell0 tc zc e k) = nan →
        0 ≤ Wright.mixed (T0 k) (T k) (S0 k) (S k) (lev k * 10 ^ 4 + pa) := fun k hk hw => by
      rcases (hs k hk hw).lt_or_eq with hlt | heq
      · exact ((mx k hk hw).2.2 hlt).le
      · rcases mul_eq_zero.1 heq with h | h
        · rw [sub_eq_zero.1 h]; unfold Wright.mixed; linarith
        · rw [sub_eq_zero.1 h]; unfold Wright.mixed; linarith
    have cs := column_sum_sign (n := n) (t := thickness ifc (val0 (depth.get e)))
      (x := fun _ => 0) (x0 := fun k => Wright.mixed (T0 k) (T k) (S0 k) (S k) (lev k * 10 ^ 4 + pa))
      (wet := fun k => ¬ vol.get (cell0 tc zc e k) = nan) h0 (thickness_nonneg _ _) hge
    have flip : ∀ c : ℝ, c * ∑ k ∈ Finset.range n, (if ¬ vol.get (cell0 tc zc e k) = nan then
        thickness ifc (val0 (depth.get e)) k * (0 - Wright.mixed (T0 k) (T k) (S0 k) (S k) (lev k * 10 ^ 4 + pa)) else 0)
        = -(c * ∑ k ∈ Finset.range n, (if ¬ vol.get (cell0 tc zc e k) = nan then
        thickness ifc (val0 (depth.get e)) k * Wright.mixed (T0 k) (T k) (S0 k) (S k) (lev k * 10 ^ 4 + pa) else 0)) := by
      intro c
      rw [← mul_neg, ← Finset.sum_neg_distrib]
      congr 1
      refine Finset.sum_congr rfl (fun k _ => ?_)
      split <;> ring
    rw [flip, ← diff] at cs
    refine ⟨by linarith [cs.1], fun ⟨k, hk, hw, ht, hl⟩ => ?_⟩
    have := cs.2 ⟨k, hk, hw, ht, (mx k hk hw).2.2 hl⟩
    linarith

/-- A local run against any reference: the value at a point from the densities `x` (as used by the variant) and `x0`
(of the reference) of the cells that have a reference volume. -/
theorem run_value {reference : RefArg ℝ} {variant : String}
    (h : steric d reference cn none rhozero (DA.scalar (fin pa)) eos variant domain strict = .ok (r, ref))
    (hd : domain ≠ "global") (hc : defaultCoords cn = .ok (tc, zc, zb))
    (G : OceanGrid d zc zb zid n lev ifc depth) (hρ : rhozero = fin ρ0) :
    ∃ a vol rrho th so f, r.getVar variant = .ok a ∧ ref.getVar "volcello" = .ok vol ∧ ref.getVar "rho" = .ok rrho ∧
      stericFields d ref variant = .ok (th, so) ∧ eosFuncFromStr eos "density" = .ok f ∧
      ∀ e, depth.InBounds e → ∀ x x0 : Nat → ℝ,
        (∀ k < n, vol.get (cell zc e k) ≠ nan → rrho.get (cell zc e k) = fin (x0 k) ∧
          f (th.get (cell zc e k)) (so.get (cell zc e k)) (fin (lev k * 10 ^ 4 + pa)) = fin (x k)) →
        vol.get (cell zc e 0) ≠ nan →
        a.get e = fin (-(1 / ρ0) * ∑ k ∈ Finset.range n, (if ¬ vol.get (cell zc e k) = nan then
          thickness ifc (val0 (depth.get e)) k * (x k - x0 k) else 0)) := by
  obtain ⟨a, dr, vol, rrho, th, so, pres, f, k1, k2, k3, k4, k5, k6, k7, k8, k9⟩ := run_local h hd hc G hρ
  refine ⟨a, vol, rrho, th, so, f, k1, k3, k4, k5, k7, fun e he x x0 hx hv => ?_⟩
  obtain ⟨z, zi, g1, g2, g3⟩ := G.grid
  have hpres : ∀ k < n, pres.get (cell zc e k) = fin (lev k * 10 ^ 4 + pa) := by
    intro k hk
    simp only [pressureField, g1, ok_bind, pure_ok] at k6
    rw [← k6]
    simp only [DA.get_add, DA.get_mul, DA.get_scalar, g3.lget, Function.update_self]
    rw [ofSci, fin_mul, fin_add]
    norm_num
  have hdr : ∀ k < n, dr.get (cell zc e k) = if vol.get (cell zc e k) = nan then nan else fin (x k - x0 k) := by
    intro k hk
    rw [k8, hpres k hk]
    by_cases hw : vol.get (cell zc e k) = nan
    · rw [if_pos hw, hw]; rfl
    · obtain ⟨q1, q2⟩ := hx k hk hw
      rw [if_neg hw, sel_wet hw, q1, q2, fin_sub]
  rw [k9 e he (fun k hk => by
    rw [hdr k hk]
    split
    · exact Or.inl rfl
    · exact Or.inr ⟨_, rfl⟩), if_neg hv]
  congr 2
  refine Finset.sum_congr rfl (fun k hk => ?_)
  rw [hdr k (Finset.mem_range.1 hk)]
  by_cases hw : vol.get (cell zc e k) = nan
  · simp [hw]
  · simp [hw]

/-- C108: the thermosteric height of an averaged temperature lies below the average of the thermosteric heights, by
between 0.0015/ρ0 and 0.01/ρ0 times the sum of thickness times the variance of the temperature (Wright's equation of
state, the same reference).  `s`, `w`: the times averaged over and their weights. -/
theorem C108_average {d' : DS (Fl ℝ)} {reference reference' : RefArg ℝ} {r' : DS (Fl ℝ)} {th' rso rrho : DA (Fl ℝ)}
    (h : thermosteric d reference cn none rhozero patm eos domain strict = .ok (r, ref))
    (h' : thermosteric d' reference' cn none rhozero patm eos domain strict = .ok (r', ref))
    (heos : CaseVariant eos "wright")
    (hd : domain ≠ "global") (hc : defaultCoords cn = .ok (tc, zc, zb)) (htz : tc ≠ zc)
    (G : OceanGrid d zc zb zid n lev ifc depth) (G' : OceanGrid d' zc zb zid n lev ifc depth)
    (hρ : rhozero = fin ρ0) (h0 : 0 < ρ0)
    (hpa : patm = DA.scalar (fin pa)) (hdep : tc ∉ depth.dimNames) (tf : TimeFree tc ref)
    (hth : d.getVar "thetao" = .ok th) (hth' : d'.getVar "thetao" = .ok th') (hso : ref.getVar "so" = .ok rso)
    (hvol : ref.getVar "volcello" = .ok vol) (hrho : ref.getVar "rho" = .ok rrho)
    (s : Finset Nat) (w : Nat → ℝ) (hw0 : ∀ i ∈ s, 0 ≤ w i) (hw1 : ∑ i ∈ s, w i = 1) :
    ∃ a a', r.getVar "thermosteric" = .ok a ∧ r'.getVar "thermosteric" = .ok a' ∧
      ∀ e, depth.InBounds e → vol.get (cell zc e 0) ≠ nan → ∀ (T : Nat → Nat → ℝ) (S : Nat → ℝ),
        (∀ k < n, vol.get (cell zc e k) ≠ nan →
          (∀ i ∈ s, th.get (cell zc (Function.update e tc i) k) = fin (T i k) ∧
            Spec.Wright.Ocean (T i k) (S k) (lev k * 10 ^ 4 + pa)) ∧
          th'.get (cell zc e k) = fin (∑ i ∈ s, w i * T i k) ∧ rso.get (cell zc e k) = fin (S k) ∧
          Present rrho (cell zc e k)) →
        ∃ (v : Nat → ℝ) (v' : ℝ), (∀ i ∈ s, a.get (Function.update e tc i) = fin (v i)) ∧ a'.get e = fin v' ∧
          0.0015 / ρ0 * ∑ k ∈ Finset.range n, (if ¬ vol.get (cell zc e k) = nan then
            thickness ifc (val0 (depth.get e)) k * ∑ i ∈ s, w i * (T i k - ∑ j ∈ s, w j * T j k) ^ 2 else 0)
              ≤ (∑ i ∈ s, w i * v i) - v' ∧
          (∑ i ∈ s, w i * v i) - v' ≤ 0.01 / ρ0 * ∑ k ∈ Finset.range n, (if ¬ vol.get (cell zc e k) = nan then
            thickness ifc (val0 (depth.get e)) k * ∑ i ∈ s, w i * (T i k - ∑ j ∈ s, w j * T j k) ^ 2 else 0) := by
  subst hpa
  have fields : ∀ {d0 : DS (Fl ℝ)} {t x y : DA (Fl ℝ)}, d0.getVar "thetao" = .ok t →
      stericFields d0 ref "thermosteric" = .ok (x, y) → x = t ∧ y = rso := by
    intro d0 t x y ht hh
    rw [stericFields, if_pos rfl, ht, hso] at hh
    cases hh
    exact ⟨rfl, rfl⟩
  obtain ⟨a, vol1, rr1, t1, s1, f1, a1, a2, a3, a4, a5, A⟩ := run_value h hd hc G hρ
  obtain ⟨b, vol2, rr2, t2, s2, f2, b1, b2, b3, b4, b5, B⟩ := run_value h' hd hc G' hρ
  cases a2.symm.trans hvol
  cases b2.symm.trans hvol
  cases a3.symm.trans hrho
  cases b3.symm.trans hrho
  cases a5.symm.trans (wright_eos heos)
  cases b5.symm.trans (wright_eos heos)
  obtain ⟨rfl, rfl⟩ := fields hth a4
  obtain ⟨rfl, rfl⟩ := fields hth' b4
  refine ⟨a, b, a1, b1, fun e he hv T S hT => ?_⟩
  have comm : ∀ i k, cell zc (Function.update e tc i) k = Function.update (cell zc e k) tc i :=
    fun i k => Function.update_comm htz i k e
  set P : Nat → ℝ := fun k => lev k * 10 ^ 4 + pa with hPdef
  set R : Nat → ℝ := fun k => val0 (rrho.get (cell zc e k)) with hR
  have hRk : ∀ k < n, vol.get (cell zc e k) ≠ nan → rrho.get (cell zc e k) = fin (R k) := fun k hk hw => by
    obtain ⟨-, -, -, x, hx⟩ := hT k hk hw
    rw [hR]; simp only [hx, val0_fin]
  have wv : ∀ i k, vol.get (cell zc (Function.update e tc i) k) = vol.get (cell zc e k) := fun i k => by
    rw [comm]; exact tf _ _ hvol (by simp) _ _
  have hde : ∀ i, depth.InBounds (Function.update e tc i) := fun i p hp => by
    rw [Function.update_of_ne (show p.1 ≠ tc from fun hh => hdep (by
      rw [← hh]; exact List.mem_map_of_mem hp))]
    exact he p hp
  have hdv : ∀ i, depth.get (Function.update e tc i) = depth.get e := fun i => G.bathy.wf _ _ (fun q hq => by
    rw [Function.update_of_ne (show q ≠ tc from fun hh => hdep (hh ▸ hq))])
  have Ai : ∀ i ∈ s, a.get (Function.update e tc i) = fin (-(1 / ρ0) * ∑ k ∈ Finset.range n,
      (if ¬ vol.get (cell zc e k) = nan then
        thickness ifc (val0 (depth.get e)) k * (Spec.Wright.rho (T i k) (S k) (P k) - R k) else 0)) := by
    intro i hi
    have := A _ (hde i) (fun k => Spec.Wright.rho (T i k) (S k) (P k)) R (fun k hk hw => by
      rw [wv] at hw
      obtain ⟨q1, -, q3, -⟩ := hT k hk hw
      obtain ⟨q4, q5⟩ := q1 i hi
      rw [q4, comm, tf _ _ hrho (by simp), tf _ _ hso (by simp), q3, hRk k hk hw]
      exact ⟨rfl, wright_float q5⟩) (by rw [wv]; exact hv)
    rw [this, hdv]
    simp only [wv]
  have Oc : ∀ k < n, vol.get (cell zc e k) ≠ nan → Spec.Wright.Ocean (∑ i ∈ s, w i * T i k) (S k) (P k) :=
    fun k hk hw => by
    obtain ⟨q1, -⟩ := hT k hk hw
    exact Wright.ocean_mean s w (fun i => T i k) hw0 hw1 (fun i hi => (q1 i hi).2)
  have Bv := B e he (fun k => Spec.Wright.rho (∑ i ∈ s, w i * T i k) (S k) (P k)) R (fun k hk hw => by
    obtain ⟨-, q2, q3, -⟩ := hT k hk hw
    rw [q2, q3]
    exact ⟨hRk k hk hw, wright_float (Oc k hk hw)⟩) hv
  refine ⟨_, _, Ai, Bv, ?_⟩
  have diff : (∑ i ∈ s, w i * (-(1 / ρ0) * ∑ k ∈ Finset.range n, (if ¬ vol.get (cell zc e k) = nan then
        thickness ifc (val0 (depth.get e)) k * (Spec.Wright.rho (T i k) (S k) (P k) - R k) else 0))) -
      -(1 / ρ0) * ∑ k ∈ Finset.range n, (if ¬ vol.get (cell zc e k) = nan then thickness ifc (val0 (depth.get e)) k *
        (Spec.Wright.rho (∑ i ∈ s, w i * T i k) (S k) (P k) - R k) else 0) =
      1 / ρ0 * ∑ k ∈ Finset.range n, (if ¬ vol.get (cell zc e k) = nan then thickness ifc (val0 (depth.get e)) k *
        (Spec.Wright.rho (∑ i ∈ s, w i * T i k) (S k) (P k) - ∑ i ∈ s, w i * Spec.Wright.rho (T i k) (S k) (P k))
          else 0) := by
    have e1 : (∑ i ∈ s, w i * (-(1 / ρ0) * ∑ k ∈ Finset.range n, (if ¬ vol.get (cell zc e k) = nan then
        thickness ifc (val0 (depth.get e)) k * (Spec.Wright.rho (T i k) (S k) (P k) - R k) else 0))) =
        -(1 / ρ0) * ∑ k ∈ Finset.range n, ∑ i ∈ s, w i * (if ¬ vol.get (cell zc e k) = nan then
        thickness ifc (val0 (depth.get e)) k * (Spec.Wright.rho (T i k) (S k) (P k) - R k) else 0) := by
      rw [Finset.sum_comm, Finset.mul_sum]
      refine Finset.sum_congr rfl (fun i _ => ?_)
      rw [← Finset.mul_sum]; ring
    rw [e1, ← mul_sub, ← Finset.sum_sub_distrib, neg_mul, ← mul_neg, ← Finset.sum_neg_distrib]
    congr 1
    refine Finset.sum_congr rfl (fun k _ => ?_)
    by_cases hw : vol.get (cell zc e k) = nan
    · simp [hw]
    · simp only [hw, not_false_eq_true, if_true]
      have : ∑ i ∈ s, w i * (thickness ifc (val0 (depth.get e)) k * (Spec.Wright.rho (T i k) (S k) (P k) - R k)) =
          thickness ifc (val0 (depth.get e)) k *
            ((∑ i ∈ s, w i * Spec.Wright.rho (T i k) (S k) (P k)) - (∑ i ∈ s, w i) * R k) := by
        rw [mul_sub, Finset.mul_sum, Finset.sum_mul, Finset.mul_sum, ← Finset.sum_sub_distrib]
        exact Finset.sum_congr rfl (fun i _ => by ring)
      rw [this, hw1]; ring
  have mt := fun k hk hw => Wright.mean_T s w (fun i => T i k) (S := S k) (p := P k) hw0 hw1
    (fun i hi => ((hT k hk hw).1 i hi).2)
  rw [diff]
  refine ⟨wet_le h0 (thickness_nonneg _ _) (fun k hk hw => (mt k hk hw).1), ?_⟩
  have := wet_le (wet := fun k => ¬ vol.get (cell zc e k) = nan) (n := n) (c := -0.01)
    (y := fun k => ∑ i ∈ s, w i * (T i k - ∑ j ∈ s, w j * T j k) ^ 2)
    (x := fun k => -(Spec.Wright.rho (∑ i ∈ s, w i * T i k) (S k) (P k) -
      ∑ i ∈ s, w i * Spec.Wright.rho (T i k) (S k) (P k))) h0 (thickness_nonneg ifc (val0 (depth.get e)))
    (fun k hk hw => by have := (mt k hk hw).2; simp only at this ⊢; linarith)
  have fl : ∀ x : Nat → ℝ, 1 / ρ0 * ∑ k ∈ Finset.range n, (if ¬ vol.get (cell zc e k) = nan then
      thickness ifc (val0 (depth.get e)) k * (- x k) else 0) = -(1 / ρ0 * ∑ k ∈ Finset.range n,
      (if ¬ vol.get (cell zc e k) = nan then thickness ifc (val0 (depth.get e)) k * x k else 0)) := by
    intro x
    rw [← mul_neg, ← Finset.sum_neg_distrib]
    congr 1
    refine Finset.sum_congr rfl (fun k _ => ?_)
    split <;> ring
  rw [fl] at this
  rw [show (-0.01 : ℝ) / ρ0 = -(0.01 / ρ0) by ring, neg_mul] at this
  linarith

end

/-! ## The example ocean -/

theorem exOcean {T S : ℝ} (h1 : 10 ≤ T) (h2 : T ≤ 15) (h3 : 34 ≤ S) (h4 : S ≤ 35) {k : Nat} (hk : k < 2) :
    Spec.Wright.Ocean T S ((500 + 1000 * (k : ℝ)) * 10 ^ 4 + 101325) := by
  have : (k : ℝ) ≤ 1 := by exact_mod_cast Nat.le_of_lt_succ hk
  have : (0 : ℝ) ≤ k := Nat.cast_nonneg k
  refine ⟨by linarith, by linarith, by linarith, by linarith, ?_, ?_⟩ <;> nlinarith

/-- The example ocean warms from 10 to 15 degrees and becomes saltier from 34 to 35: the halosteric fall is at least
0.676/1035 · 2000 m. -/
example : ∃ r ref a, halosteric exD .none .none none (fin 1035) (DA.scalar (fin 101325)) "Wright" "local" true = .ok (r, ref) ∧
    r.getVar "halosteric" = .ok a ∧ ∀ e, exDepth.InBounds e → e "xh" = 0 → e "time" = 1 →
      ∃ v, a.get e = fin v ∧ 0.676 / 1035 * 2000 ≤ -v ∧ -v ≤ 0.82 / 1035 * 2000 := by
  obtain ⟨⟨r, ref⟩, h⟩ := exRun "halosteric" "local" "Wright" (by simp) (Or.inl wright_case)
  obtain ⟨a, a1, a2⟩ := C106_halosteric h wright_case (by decide) exC exGrid rfl (by norm_num) rfl exGood.hth exGood.hso
    exGood.hvol
  refine ⟨r, ref, a, h, a1, fun e he hx ht => ?_⟩
  have wet : ∀ k, exV.get (cell0 "time" "z_l" e k) = fin 1 := fun k => by simp [exV, hx]
  obtain ⟨v, v1, v2, v3⟩ := a2 e he (by rw [wet]; simp) (fun _ => 35) (fun _ => 10) (fun _ => 34) (fun k hk _ =>
    ⟨by simp [exS, ht]; norm_num, by simp [exT], by simp [exS], exOcean (by norm_num) (by norm_num) (by norm_num) (by norm_num) hk,
      exOcean (by norm_num) (by norm_num) (by norm_num) (by norm_num) hk⟩)
  have v3 := v3 (fun _ _ _ => by norm_num)
  have hd : exDepth.get e = fin 2000 := by simp [exDepth, hx]
  have th0 : thickness (fun k => 1000 * (k : ℝ)) 2000 0 = 1000 := by
    unfold thickness Spec.overlap; norm_num
  have th1 : thickness (fun k => 1000 * (k : ℝ)) 2000 1 = 1000 := by
    unfold thickness Spec.overlap; norm_num
  rw [Finset.sum_range_succ, Finset.sum_range_succ, Finset.sum_range_zero, wet, wet, hd, val0_fin, th0, th1,
    if_pos (by simp)] at v2 v3
  norm_num at v2 v3
  exact ⟨v, v1, by norm_num; linarith, by norm_num; linarith [neg_le_abs v]⟩

/-- The same for the thermosteric height. -/
example : ∃ r ref a, thermosteric exD .none .none none (fin 1035) (DA.scalar (fin 101325)) "Wright" "local" true = .ok (r, ref) ∧
    r.getVar "thermosteric" = .ok a ∧ ∀ e, exDepth.InBounds e → e "xh" = 0 → e "time" = 1 →
      ∃ v, a.get e = fin v ∧ |v| ≤ 0.48 / 1035 * 10000 := by
  obtain ⟨⟨r, ref⟩, h⟩ := exRun "thermosteric" "local" "Wright" (by simp) (Or.inl wright_case)
  obtain ⟨a, a1, a2⟩ := C106_thermosteric h wright_case (by decide) exC exGrid rfl (by norm_num) rfl exGood.hth exGood.hso
    exGood.hvol
  refine ⟨r, ref, a, h, a1, fun e he hx ht => ?_⟩
  have wet : ∀ k, exV.get (cell0 "time" "z_l" e k) = fin 1 := fun k => by simp [exV, hx]
  obtain ⟨v, v1, v2, v3⟩ := a2 e he (by rw [wet]; simp) (fun _ => 15) (fun _ => 10) (fun _ => 34) (fun k hk _ =>
    ⟨by simp [exT, ht]; norm_num, by simp [exT], by simp [exS], exOcean (by norm_num) (by norm_num) (by norm_num) (by norm_num) hk,
      exOcean (by norm_num) (by norm_num) (by norm_num) (by norm_num) hk⟩)
  have hd : exDepth.get e = fin 2000 := by simp [exDepth, hx]
  have th0 : thickness (fun k => 1000 * (k : ℝ)) 2000 0 = 1000 := by
    unfold thickness Spec.overlap; norm_num
  have th1 : thickness (fun k => 1000 * (k : ℝ)) 2000 1 = 1000 := by
    unfold thickness Spec.overlap; norm_num
  rw [Finset.sum_range_succ, Finset.sum_range_succ, Finset.sum_range_zero, wet, wet, hd, val0_fin, th0, th1,
    if_pos (by simp)] at v2
  norm_num at v2
  exact ⟨v, v1, by norm_num; linarith⟩

/-- Example for C107: the parts do not add up to the whole in the example ocean. -/
example : ∃ r ref r1 ref1 r2 ref2 a b c,
    steric exD .none .none none (fin 1035) (DA.scalar (fin 101325)) "Wright" "steric" "local" true = .ok (r, ref) ∧
    thermosteric exD .none .none none (fin 1035) (DA.scalar (fin 101325)) "Wright" "local" true = .ok (r1, ref1) ∧
    halosteric exD .none .none none (fin 1035) (DA.scalar (fin 101325)) "Wright" "local" true = .ok (r2, ref2) ∧
    r.getVar "steric" = .ok a ∧ r1.getVar "thermosteric" = .ok b ∧ r2.getVar "halosteric" = .ok c ∧
    ∀ e, exDepth.InBounds e → e "xh" = 0 → e "time" = 1 →
      ∃ v v1 v2, a.get e = fin v ∧ b.get e = fin v1 ∧ c.get e = fin v2 ∧ v1 + v2 < v := by
  obtain ⟨⟨r, ref⟩, h⟩ := exRun "steric" "local" "Wright" (by simp) (Or.inl wright_case)
  obtain ⟨⟨r1, ref1⟩, h1⟩ := exRun "thermosteric" "local" "Wright" (by simp) (Or.inl wright_case)
  obtain ⟨⟨r2, ref2⟩, h2⟩ := exRun "halosteric" "local" "Wright" (by simp) (Or.inl wright_case)
  obtain ⟨a, b, c, a1, a2, a3, a4⟩ := C107_closure h h1 h2 wright_case (by decide) exC exGrid rfl (by norm_num) rfl
    exGood.hth exGood.hso exGood.hvol
  refine ⟨r, ref, r1, ref1, r2, ref2, a, b, c, h, h1, h2, a1, a2, a3, fun e he hx ht => ?_⟩
  have wet : ∀ k, exV.get (cell0 "time" "z_l" e k) = fin 1 := fun k => by simp [exV, hx]
  obtain ⟨v, v1, v2, w1, w2, w3, -, w5, -⟩ := a4 e he (by rw [wet]; simp) (fun _ => 15) (fun _ => 35) (fun _ => 10)
    (fun _ => 34) (fun k hk _ => ⟨by simp [exT, ht]; norm_num, by simp [exS, ht]; norm_num, by simp [exT], by simp [exS],
      exOcean (by norm_num) (by norm_num) (by norm_num) (by norm_num) hk,
      exOcean (by norm_num) (by norm_num) (by norm_num) (by norm_num) hk⟩)
  have hd : exDepth.get e = fin 2000 := by simp [exDepth, hx]
  refine ⟨v, v1, v2, w1, w2, w3, (w5 (fun _ _ _ => by norm_num)).2 ⟨0, by norm_num, by rw [wet]; simp, ?_, by norm_num⟩⟩
  rw [hd, val0_fin]
  unfold thickness Spec.overlap; norm_num

noncomputable section

/-- The example ocean with temperature 12.5, the mean over its two times. -/
def avgT : DA (Fl ℝ) := ⟨exDims, fun _ => fin 12.5⟩
def avgD : DS (Fl ℝ) := ⟨[("thetao", avgT), ("so", exS), ("volcello", exV), ("areacello", exA),
  ("deptho", exDepth), ("z_l", exZ), ("z_i", exZi)], ["z_l", "z_i"]⟩

theorem avgGood : GoodData avgD "time" "z_l" "z_i" "z_i" "yh" "xh" 2 2 2 2 (fun k => 500 + 1000 * (k : ℝ))
    (fun k => 1000 * (k : ℝ)) avgT exS exV exA exDepth exZi (DA.scalar (fin 101325)) where
  names := by decide
  hnt := by norm_num
  hn := by norm_num
  hny := by norm_num
  hnx := by norm_num
  hth := rfl
  hso := rfl
  hvol := rfl
  harea := rfl
  hzb := rfl
  thd := rfl
  sod := rfl
  vold := rfl
  aread := rfl
  depthd := rfl
  grid := by
    obtain ⟨⟨z, zi, h1, h2, h3⟩, -, b, c, -⟩ := exGrid
    cases h1
    cases h2
    exact ⟨⟨_, _, rfl, rfl, h3⟩, rfl, b, c, by simp [avgD, DS.names]⟩
  alone := by simp [avgD, exZ, exZi, DA.dimNames]
  patmd := by simp

/-- Example for C108: the height of the mean temperature is lower than the mean height by more than 18 mm. -/
example : ∃ ref r r' a a', thermosteric exD (.dataset ref) .none none (fin 1035) (DA.scalar (fin 101325)) "Wright"
      "local" true = .ok (r, ref) ∧ thermosteric avgD (.dataset ref) .none none (fin 1035) (DA.scalar (fin 101325))
      "Wright" "local" true = .ok (r', ref) ∧ r.getVar "thermosteric" = .ok a ∧ r'.getVar "thermosteric" = .ok a' ∧
    ∀ e, exDepth.InBounds e → e "xh" = 0 → ∃ v0 v1 v', a.get (Function.update e "time" 0) = fin v0 ∧
      a.get (Function.update e "time" 1) = fin v1 ∧ a'.get e = fin v' ∧ v' + 0.018 < (v0 + v1) / 2 := by
  obtain ⟨ref, r, rth, rso, rvol, rrho, hs, tf, h, -, p2, p3, p4, q1, q2, q3, q4⟩ := refRun 34 (eos := "Wright")
    (variant := "thermosteric") (domain := "local") (wright_eos wright_case) (Or.inl wright_case) (by simp)
  obtain ⟨ref', _, _, _, _, _, _, _, hs', R, _⟩ :=
    goodRef_of (refGood 34) exT_wf (fun _ _ _ => rfl) exV_wf exC (wright_eos wright_case)
  cases hs.symm.trans hs'
  obtain ⟨r', h'⟩ := C30_supplied (variant := "thermosteric") (domain := "local") (eos := "Wright") (rhozero := fin 1035)
    (strict := true) avgGood R exC (by simp) (Or.inl wright_case) (by simp) (fun _ => exArea) (fun _ => exArea)
  obtain ⟨a, a', k1, k2, key⟩ := C108_average h h' wright_case (by decide) exC (by decide) exGrid avgGood.grid rfl
    (by norm_num) rfl (by simp [exDepth, DA.dimNames]) tf exGood.hth avgGood.hth p2 p3 p4 (Finset.range 2)
    (fun _ => 1 / 2) (by intros; norm_num) (by simp)
  refine ⟨ref, r, r', a, a', h, h', k1, k2, fun e he hx => ?_⟩
  have wet : ∀ k, rvol.get (cell "z_l" e k) = fin 1 := fun k => by rw [q3]; simp [hx]
  have oc : ∀ i ∈ Finset.range 2, ∀ k : Nat, k < 2 → Spec.Wright.Ocean (10 + 5 * (i : ℝ)) 34
      ((500 + 1000 * (k : ℝ)) * 10 ^ 4 + 101325) := fun i hi k hk => by
    have hi' : (i : ℝ) ≤ 1 := by exact_mod_cast Nat.le_of_lt_succ (Finset.mem_range.1 hi)
    have : (0 : ℝ) ≤ i := Nat.cast_nonneg i
    exact exOcean (by linarith) (by linarith) (by norm_num) (by norm_num) hk
  have av : ∀ k, avgT.get (cell "z_l" e k) = fin (∑ i ∈ Finset.range 2, 1 / 2 * (10 + 5 * (i : ℝ))) := fun k => by
    simp only [avgT, Finset.sum_range_succ, Finset.sum_range_zero]
    norm_num
  have rp : ∀ k < 2, Present rrho (cell "z_l" e k) := fun k hk => ⟨_, (q4 _).trans (by
      simp only [Function.update_self]
      exact wright_float (exOcean (by norm_num) (by norm_num) (by norm_num) (by norm_num) hk))⟩
  obtain ⟨v, v', w1, w2, w3, -⟩ := key e he (by rw [wet]; simp) (fun i _ => 10 + 5 * (i : ℝ)) (fun _ => 34)
    (fun k hk _ => ⟨fun i hi => ⟨by simp [exT], oc i hi k hk⟩, av k, q2 _, rp k hk⟩)
  refine ⟨v 0, v 1, v', w1 0 (by simp), w1 1 (by simp), w2, ?_⟩
  have hd : exDepth.get e = fin 2000 := by simp [exDepth, hx]
  have th0 : thickness (fun k => 1000 * (k : ℝ)) 2000 0 = 1000 := by
    unfold thickness Spec.overlap; norm_num
  have th1 : thickness (fun k => 1000 * (k : ℝ)) 2000 1 = 1000 := by
    unfold thickness Spec.overlap; norm_num
  rw [Finset.sum_range_succ, Finset.sum_range_succ, Finset.sum_range_zero, wet, wet, hd, val0_fin, th0, th1,
    if_pos (by simp)] at w3
  simp only [Finset.sum_range_succ, Finset.sum_range_zero] at w3
  norm_num at w3 ⊢
  linarith

end

end Momlevel.Props
