import Verif.Lemmas.WrightPressure
import Verif.Props.WrightSize

/-! # C134: curvature of Wright's equation of state -/

set_option linter.unusedSectionVars false

namespace Momlevel.Eos.Wright
open Spec.Wright

theorem ocean_p {T S p p' x : ℝ} (h : Ocean T S p) (h' : Ocean T S p') (h1 : p ≤ x) (h2 : x ≤ p') : Ocean T S x :=
  ⟨h.1, h.2.1, h.2.2.1, h.2.2.2.1, h.2.2.2.2.1.trans h1, h2.trans h'.2.2.2.2.2⟩

/-- `-4.5·10⁻⁹ ≤ ∂²ρ/∂T∂p ≤ -0.5·10⁻⁹` -/
theorem TP_bounds {T S p : ℝ} (h : Ocean T S p) :
    -0.0000000045 ≤ wKTP T S p / wD T S p ^ 3 ∧ wKTP T S p / wD T S p ^ 3 ≤ -0.0000000005 := by
  have hd := wD_pos h
  have h1 := o_TP_lo h
  have h2 := o_TP_hi h
  have e : wD T S p ^ 3 = wD T S p * wD T S p * wD T S p := by ring
  rw [le_div_iff₀ (pow_pos hd 3), div_le_iff₀ (pow_pos hd 3), e]
  exact ⟨by linarith, by linarith⟩

/-- `-10⁻⁹ ≤ ∂²ρ/∂S∂p ≤ -0.3·10⁻⁹` -/
theorem SP_bounds {T S p : ℝ} (h : Ocean T S p) :
    -0.000000001 ≤ wKSP T S p / wD T S p ^ 3 ∧ wKSP T S p / wD T S p ^ 3 ≤ -0.0000000003 := by
  have hd := wD_pos h
  have h1 := o_SP_lo h
  have h2 := o_SP_hi h
  have e : wD T S p ^ 3 = wD T S p * wD T S p * wD T S p := by ring
  rw [le_div_iff₀ (pow_pos hd 3), div_le_iff₀ (pow_pos hd 3), e]
  exact ⟨by linarith, by linarith⟩

/-- `0.3·10⁻⁶ ≤ ∂ρ/∂p ≤ 0.53·10⁻⁶` -/
theorem P_bounds {T S p : ℝ} (h : Ocean T S p) :
    0.0000003 ≤ wL T S / wD T S p ^ 2 ∧ wL T S / wD T S p ^ 2 ≤ 0.00000053 := by
  have hd := wD_pos h
  have h1 := o_P_lo h
  have h2 := o_P_hi h
  rw [le_div_iff₀ (pow_pos hd 2), div_le_iff₀ (pow_pos hd 2), sq]
  exact ⟨by linarith, by linarith⟩

theorem rho_lo {T S p : ℝ} (h : Ocean T S p) : 980 ≤ rho T S p := by
  have hd := wD_pos h
  have h1 := o_rho_lo h
  have e : rho T S p = wP T S p / wD T S p := by rw [wP_eq, wD_eq]; rfl
  rw [e, le_div_iff₀ hd]
  norm_num at h1 ⊢
  exact h1

theorem diff_p {T S p p' : ℝ} (h : Ocean T S p) (h' : Ocean T S p') (hp : p ≤ p') :
    0.0000003 * (p' - p) ≤ rho T S p' - rho T S p ∧ rho T S p' - rho T S p ≤ 0.00000053 * (p' - p) :=
  mvt_bounds (g := fun q => rho T S q) hp
    (fun x h1 h2 => hasDerivAt_rho_p T S x (wD_pos (ocean_p h h' h1 h2)).ne')
    (fun _ h1 h2 => P_bounds (ocean_p h h' h1 h2))

theorem dT_diff_p {T S p p' : ℝ} (h : Ocean T S p) (h' : Ocean T S p') (hp : p ≤ p') :
    -0.0000000045 * (p' - p) ≤ drho_dtemp T S p' - drho_dtemp T S p ∧
      drho_dtemp T S p' - drho_dtemp T S p ≤ -0.0000000005 * (p' - p) :=
  mvt_bounds (g := fun q => drho_dtemp T S q) hp
    (fun x h1 h2 => hasDerivAt_dT_p T S x (wD_pos (ocean_p h h' h1 h2)).ne')
    (fun _ h1 h2 => TP_bounds (ocean_p h h' h1 h2))

theorem dS_diff_p {T S p p' : ℝ} (h : Ocean T S p) (h' : Ocean T S p') (hp : p ≤ p') :
    -0.000000001 * (p' - p) ≤ drho_dsal T S p' - drho_dsal T S p ∧
      drho_dsal T S p' - drho_dsal T S p ≤ -0.0000000003 * (p' - p) :=
  mvt_bounds (g := fun q => drho_dsal T S q) hp
    (fun x h1 h2 => hasDerivAt_dS_p T S x (wD_pos (ocean_p h h' h1 h2)).ne')
    (fun _ h1 h2 => SP_bounds (ocean_p h h' h1 h2))

/-- Mixed difference of temperature and pressure. -/
theorem mixed_TP {T T' S p p' : ℝ} (h : Ocean T S p) (h' : Ocean T' S p') (ht : T ≤ T') (hp : p ≤ p') :
    -0.0000000045 * (p' - p) * (T' - T) ≤ (rho T' S p' - rho T S p') - (rho T' S p - rho T S p) ∧
      (rho T' S p' - rho T S p') - (rho T' S p - rho T S p) ≤ -0.0000000005 * (p' - p) * (T' - T) := by
  have o : ∀ x, T ≤ x → x ≤ T' → Ocean x S p ∧ Ocean x S p' := fun x h1 h2 =>
    ⟨⟨h.1.trans h1, h2.trans h'.2.1, h.2.2⟩, ⟨h.1.trans h1, h2.trans h'.2.1, h'.2.2⟩⟩
  have := mvt_bounds (g := fun t => rho t S p' - rho t S p) ht
    (fun x h1 h2 => (deriv_T (o x h1 h2).2).sub (deriv_T (o x h1 h2).1))
    (fun x h1 h2 => dT_diff_p (o x h1 h2).1 (o x h1 h2).2 hp)
  exact ⟨by linarith [this.1], by linarith [this.2]⟩

/-- Mixed difference of salinity and pressure. -/
theorem mixed_SP {T S S' p p' : ℝ} (h : Ocean T S p) (h' : Ocean T S' p') (hs : S ≤ S') (hp : p ≤ p') :
    -0.000000001 * (p' - p) * (S' - S) ≤ (rho T S' p' - rho T S p') - (rho T S' p - rho T S p) ∧
      (rho T S' p' - rho T S p') - (rho T S' p - rho T S p) ≤ -0.0000000003 * (p' - p) * (S' - S) := by
  have o : ∀ x, S ≤ x → x ≤ S' → Ocean T x p ∧ Ocean T x p' := fun x h1 h2 =>
    ⟨⟨h.1, h.2.1, h.2.2.1.trans h1, h2.trans h'.2.2.2.1, h.2.2.2.2⟩,
      ⟨h.1, h.2.1, h.2.2.1.trans h1, h2.trans h'.2.2.2.1, h'.2.2.2.2⟩⟩
  have := mvt_bounds (g := fun s => rho T s p' - rho T s p) hs
    (fun x h1 h2 => (deriv_S (o x h1 h2).2).sub (deriv_S (o x h1 h2).1))
    (fun x h1 h2 => dS_diff_p (o x h1 h2).1 (o x h1 h2).2 hp)
  exact ⟨by linarith [this.1], by linarith [this.2]⟩

/-- Second difference in temperature. -/
theorem second_T {T T' S p δ : ℝ} (h : Ocean T S p) (h' : Ocean (T' + δ) S p) (ht : T ≤ T') (hδ : 0 ≤ δ) :
    -0.02 * (T' - T) * δ ≤ (rho (T' + δ) S p - rho T' S p) - (rho (T + δ) S p - rho T S p) ∧
      (rho (T' + δ) S p - rho T' S p) - (rho (T + δ) S p - rho T S p) ≤ -0.003 * (T' - T) * δ := by
  have o : ∀ x, T ≤ x → x ≤ T' + δ → Ocean x S p := fun x h1 h2 => ocean_T h h' h1 h2
  have hd : ∀ x, 0 ≤ x → x ≤ δ → HasDerivAt (fun s => rho (T' + s) S p - rho (T + s) S p)
      (drho_dtemp (T' + x) S p - drho_dtemp (T + x) S p) x := fun x h1 h2 => by
    have e : ∀ t, HasDerivAt (fun s : ℝ => t + s) 1 x := fun t => (hasDerivAt_id x).const_add t
    have a1 := HasDerivAt.comp x (deriv_T (o (T' + x) (by linarith) (by linarith))) (e T')
    have a2 := HasDerivAt.comp x (deriv_T (o (T + x) (by linarith) (by linarith))) (e T)
    rw [mul_one] at a1 a2
    exact a1.sub a2
  have := mvt_bounds hδ hd (m := -0.02 * (T' - T)) (M := -0.003 * (T' - T)) (fun x h1 h2 => by
    have q := dT_diff (o (T + x) (by linarith) (by linarith)) (o (T' + x) (by linarith) (by linarith)) (by linarith)
    exact ⟨by linarith [q.1], by linarith [q.2]⟩)
  simp only [add_zero, sub_zero] at this
  exact ⟨by linarith [this.1], by linarith [this.2]⟩

end Momlevel.Eos.Wright

namespace Momlevel.Props
open Momlevel Momlevel.Fl Momlevel.Eos

/-- C134 (warming): the same warming `δ` reduces the density more in warmer water, by 0.003 to 0.02 kg m⁻³ per
degree of initial temperature and degree of warming. -/
theorem C134_warming {T T' S p δ : ℝ} (h : Spec.Wright.Ocean T S p) (h' : Spec.Wright.Ocean (T' + δ) S p)
    (ht : T ≤ T') (hδ : 0 ≤ δ) :
    0.003 * (T' - T) * δ ≤ (Wright.density T' S p - Wright.density (T' + δ) S p)
        - (Wright.density T S p - Wright.density (T + δ) S p) ∧
      (Wright.density T' S p - Wright.density (T' + δ) S p)
        - (Wright.density T S p - Wright.density (T + δ) S p) ≤ 0.02 * (T' - T) * δ := by
  simp only [Wright.density_eq]
  have := Wright.second_T h h' ht hδ
  exact ⟨by linarith [this.2], by linarith [this.1]⟩

example : Spec.Wright.Ocean 2 35 (2 * 10 ^ 7) ∧ Spec.Wright.Ocean (20 + 1) 35 (2 * 10 ^ 7) := by
  unfold Spec.Wright.Ocean; norm_num

/-- C134 (mixing): a mixture of two waters of the same salinity and pressure, at the mean temperature, is denser
than the mean of their densities. -/
theorem C134_mixing {T T' S p w : ℝ} (h : Spec.Wright.Ocean T S p) (h' : Spec.Wright.Ocean T' S p)
    (h0 : 0 ≤ w) (h1 : w ≤ 1) :
    w * Wright.density T S p + (1 - w) * Wright.density T' S p + 0.0015 * (w * (1 - w) * (T' - T) ^ 2)
      ≤ Wright.density (w * T + (1 - w) * T') S p := by
  simp only [Wright.density_eq]
  set m := w * T + (1 - w) * T' with hm
  have om : Spec.Wright.Ocean m S p := by
    obtain ⟨a1, a2, a3⟩ := h
    obtain ⟨b1, b2, -⟩ := h'
    exact ⟨by rw [hm]; nlinarith, by rw [hm]; nlinarith, a3⟩
  have e1 := (Wright.taylor_T om h).2
  have e2 := (Wright.taylor_T om h').2
  have f1 := mul_le_mul_of_nonneg_left e1 h0
  have f2 := mul_le_mul_of_nonneg_left e2 (sub_nonneg.2 h1)
  have g1 : T - m = (1 - w) * (T - T') := by rw [hm]; ring
  have g2 : T' - m = w * (T' - T) := by rw [hm]; ring
  rw [g1] at f1
  rw [g2] at f2
  nlinarith [f1, f2]

example : Spec.Wright.Ocean 5 35 (10 ^ 7) ∧ Spec.Wright.Ocean 25 35 (10 ^ 7) ∧ (0 : ℝ) ≤ 1 / 2 ∧ (1 / 2 : ℝ) ≤ 1 := by
  unfold Spec.Wright.Ocean; norm_num

/-- C134 (pressure): under higher pressure the same warming reduces the density more, and the same salt adds less;
density rises with pressure. -/
theorem C134_pressure {T T' S S' p p' : ℝ} (h : Spec.Wright.Ocean T S p) (h' : Spec.Wright.Ocean T' S' p')
    (ht : T ≤ T') (hs : S ≤ S') (hp : p ≤ p') :
    (0.0000000005 * (p' - p) * (T' - T) ≤ (Wright.density T S p' - Wright.density T' S p')
        - (Wright.density T S p - Wright.density T' S p) ∧
      (Wright.density T S p' - Wright.density T' S p')
        - (Wright.density T S p - Wright.density T' S p) ≤ 0.0000000045 * (p' - p) * (T' - T)) ∧
    (0.0000000003 * (p' - p) * (S' - S) ≤ (Wright.density T S' p - Wright.density T S p)
        - (Wright.density T S' p' - Wright.density T S p') ∧
      (Wright.density T S' p - Wright.density T S p)
        - (Wright.density T S' p' - Wright.density T S p') ≤ 0.000000001 * (p' - p) * (S' - S)) ∧
    (0.0000003 * (p' - p) ≤ Wright.density T S p' - Wright.density T S p ∧
      Wright.density T S p' - Wright.density T S p ≤ 0.00000053 * (p' - p)) := by
  simp only [Wright.density_eq]
  have o1 : Spec.Wright.Ocean T' S p' := ⟨h'.1, h'.2.1, h.2.2.1, h.2.2.2.1, h'.2.2.2.2⟩
  have o2 : Spec.Wright.Ocean T S' p' := ⟨h.1, h.2.1, h'.2.2⟩
  have o3 : Spec.Wright.Ocean T S p' := ⟨h.1, h.2.1, h.2.2.1, h.2.2.2.1, h'.2.2.2.2⟩
  have a := Wright.mixed_TP h o1 ht hp
  have b := Wright.mixed_SP h o2 hs hp
  exact ⟨⟨by linarith [a.2], by linarith [a.1]⟩, ⟨by linarith [b.2], by linarith [b.1]⟩, Wright.diff_p h o3 hp⟩

example : Spec.Wright.Ocean 2 34 0 ∧ Spec.Wright.Ocean 10 35 (4 * 10 ^ 7) := by
  unfold Spec.Wright.Ocean; norm_num

theorem alpha_eq (T S p : ℝ) : Wright.alpha T S p = -(Wright.drho_dtemp T S p / Spec.Wright.rho T S p) := by
  unfold Wright.alpha
  rw [Wright.density_eq]
  norm_num

theorem beta_eq (T S p : ℝ) : Wright.beta T S p = Wright.drho_dsal T S p / Spec.Wright.rho T S p := by
  unfold Wright.beta
  rw [Wright.density_eq]

/-- C134 (coefficients): the thermal expansion coefficient strictly increases with temperature and with pressure;
the haline contraction coefficient strictly decreases with pressure. -/
theorem C134_coefficients {T T' S p p' : ℝ} (h : Spec.Wright.Ocean T S p) :
    (T < T' → Spec.Wright.Ocean T' S p → Wright.alpha T S p < Wright.alpha T' S p) ∧
    (p < p' → Spec.Wright.Ocean T S p' → Wright.alpha T S p < Wright.alpha T S p' ∧
      Wright.beta T S p' < Wright.beta T S p) := by
  refine ⟨fun ht h' => ?_, fun hp h' => ?_⟩
  · have o : ∀ x, T ≤ x → x ≤ T' → Spec.Wright.Ocean x S p := fun x h1 h2 => Wright.ocean_T h h' h1 h2
    have hd : ∀ x, T ≤ x → x ≤ T' → HasDerivAt (fun t => Wright.alpha t S p)
        (-((Wright.wKTT x S p / Wright.wD x S p ^ 3 * Spec.Wright.rho x S p
          - Wright.drho_dtemp x S p * Wright.drho_dtemp x S p) / Spec.Wright.rho x S p ^ 2)) x := fun x h1 h2 => by
      simp only [alpha_eq]
      have hr : Spec.Wright.rho x S p ≠ 0 := by linarith [Wright.rho_lo (o x h1 h2)]
      exact ((Wright.hasDerivAt_dT x S p (Wright.wD_pos (o x h1 h2)).ne').div (Wright.deriv_T (o x h1 h2)) hr).neg
    obtain ⟨c, c1, c2, hc⟩ := Wright.slope_of ht hd
    have hpos : 0 < -((Wright.wKTT c S p / Wright.wD c S p ^ 3 * Spec.Wright.rho c S p
          - Wright.drho_dtemp c S p * Wright.drho_dtemp c S p) / Spec.Wright.rho c S p ^ 2) := by
      have r0 := Wright.rho_lo (o c c1 c2)
      have k0 := (Wright.TT_bounds (o c c1 c2)).2
      rw [← neg_div]
      apply div_pos _ (by positivity)
      nlinarith [mul_self_nonneg (Wright.drho_dtemp c S p)]
    have := mul_pos hpos (sub_pos.2 ht)
    linarith
  · have o : ∀ x, p ≤ x → x ≤ p' → Spec.Wright.Ocean T S x := fun x h1 h2 => Wright.ocean_p h h' h1 h2
    constructor
    · have hd : ∀ x, p ≤ x → x ≤ p' → HasDerivAt (fun q => Wright.alpha T S q)
          (-((Wright.wKTP T S x / Wright.wD T S x ^ 3 * Spec.Wright.rho T S x
            - Wright.drho_dtemp T S x * (Wright.wL T S / Wright.wD T S x ^ 2)) / Spec.Wright.rho T S x ^ 2)) x :=
        fun x h1 h2 => by
        simp only [alpha_eq]
        have hr : Spec.Wright.rho T S x ≠ 0 := by linarith [Wright.rho_lo (o x h1 h2)]
        have hw := (Wright.wD_pos (o x h1 h2)).ne'
        exact ((Wright.hasDerivAt_dT_p T S x hw).div (Wright.hasDerivAt_rho_p T S x hw) hr).neg
      obtain ⟨c, c1, c2, hc⟩ := Wright.slope_of hp hd
      have hpos : 0 < -((Wright.wKTP T S c / Wright.wD T S c ^ 3 * Spec.Wright.rho T S c
            - Wright.drho_dtemp T S c * (Wright.wL T S / Wright.wD T S c ^ 2)) / Spec.Wright.rho T S c ^ 2) := by
        have r0 := Wright.rho_lo (o c c1 c2)
        have k0 := (Wright.TP_bounds (o c c1 c2)).2
        have k1 := (Wright.dT_bounds (o c c1 c2)).1
        have k2 := Wright.P_bounds (o c c1 c2)
        rw [← neg_div]
        apply div_pos _ (by positivity)
        generalize Wright.wKTP T S c / Wright.wD T S c ^ 3 = k at k0 ⊢
        generalize Wright.drho_dtemp T S c = d at k1 ⊢
        generalize Wright.wL T S / Wright.wD T S c ^ 2 = q at k2 ⊢
        generalize Spec.Wright.rho T S c = r at r0 ⊢
        have e1 : k * r ≤ -0.0000000005 * r := mul_le_mul_of_nonneg_right k0 (by linarith)
        have e2 : -0.48 * q ≤ d * q := mul_le_mul_of_nonneg_right k1 (by linarith [k2.1])
        norm_num at e1 e2 k2 ⊢
        linarith [k2.2]
      have := mul_pos hpos (sub_pos.2 hp)
      linarith
    · have hd : ∀ x, p ≤ x → x ≤ p' → HasDerivAt (fun q => Wright.beta T S q)
          ((Wright.wKSP T S x / Wright.wD T S x ^ 3 * Spec.Wright.rho T S x
            - Wright.drho_dsal T S x * (Wright.wL T S / Wright.wD T S x ^ 2)) / Spec.Wright.rho T S x ^ 2) x :=
        fun x h1 h2 => by
        simp only [beta_eq]
        have hr : Spec.Wright.rho T S x ≠ 0 := by linarith [Wright.rho_lo (o x h1 h2)]
        have hw := (Wright.wD_pos (o x h1 h2)).ne'
        exact (Wright.hasDerivAt_dS_p T S x hw).div (Wright.hasDerivAt_rho_p T S x hw) hr
      obtain ⟨c, c1, c2, hc⟩ := Wright.slope_of hp hd
      have hneg : (Wright.wKSP T S c / Wright.wD T S c ^ 3 * Spec.Wright.rho T S c
            - Wright.drho_dsal T S c * (Wright.wL T S / Wright.wD T S c ^ 2)) / Spec.Wright.rho T S c ^ 2 < 0 := by
        have r0 := Wright.rho_lo (o c c1 c2)
        have k0 := (Wright.SP_bounds (o c c1 c2)).2
        have k1 := (Wright.dS_bounds (o c c1 c2)).1
        have k2 := Wright.P_bounds (o c c1 c2)
        apply div_neg_of_neg_of_pos _ (by positivity)
        generalize Wright.wKSP T S c / Wright.wD T S c ^ 3 = k at k0 ⊢
        generalize Wright.drho_dsal T S c = d at k1 ⊢
        generalize Wright.wL T S / Wright.wD T S c ^ 2 = q at k2 ⊢
        generalize Spec.Wright.rho T S c = r at r0 ⊢
        have e1 : k * r ≤ -0.0000000003 * r := mul_le_mul_of_nonneg_right k0 (by linarith)
        have e2 : 0 ≤ d * q := mul_nonneg (by linarith) (by linarith [k2.1])
        linarith
      have := mul_neg_of_neg_of_pos hneg (sub_pos.2 hp)
      linarith

example : Spec.Wright.Ocean 10 35 (10 ^ 7) ∧ (10 : ℝ) < 11 ∧ Spec.Wright.Ocean 11 35 (10 ^ 7) ∧
    Spec.Wright.Ocean 10 35 (2 * 10 ^ 7) := by
  unfold Spec.Wright.Ocean; norm_num

section
variable {d r r' ref ref' : DS (Fl ℝ)} {cn : DictArg} {rhozero : Fl ℝ} {patm patm' : DA (Fl ℝ)}
    {eos domain : String} {strict : Bool} {tc zc zb zid : String} {n : Nat} {lev ifc : Nat → ℝ}
    {depth th so vol : DA (Fl ℝ)} {ρ0 pa pa' : ℝ}

/-- The thermosteric height with Wright's equation of state. -/
theorem wright_thermo
    (h : thermosteric d .none cn none rhozero patm eos domain strict = .ok (r, ref))
    (heos : CaseVariant eos "wright")
    (hd : domain ≠ "global") (hc : defaultCoords cn = .ok (tc, zc, zb))
    (G : OceanGrid d zc zb zid n lev ifc depth) (hρ : rhozero = fin ρ0)
    (hpa : patm = DA.scalar (fin pa))
    (hth : d.getVar "thetao" = .ok th) (hso : d.getVar "so" = .ok so)
    (hvol : d.getVar "volcello" = .ok vol) :
    ∃ a, r.getVar "thermosteric" = .ok a ∧
      ∀ e, depth.InBounds e → vol.get (cell0 tc zc e 0) ≠ nan → ∀ T T0 S0 : Nat → ℝ,
        (∀ k < n, vol.get (cell0 tc zc e k) ≠ nan →
          th.get (cell zc e k) = fin (T k) ∧ th.get (cell0 tc zc e k) = fin (T0 k) ∧
          so.get (cell0 tc zc e k) = fin (S0 k) ∧
          Spec.Wright.Ocean (T0 k) (S0 k) (lev k * 10 ^ 4 + pa) ∧
          Spec.Wright.Ocean (T k) (S0 k) (lev k * 10 ^ 4 + pa)) →
        a.get e = fin (1 / ρ0 * ∑ k ∈ Finset.range n, (if ¬ vol.get (cell0 tc zc e k) = nan then
          thickness ifc (val0 (depth.get e)) k * (Spec.Wright.rho (T0 k) (S0 k) (lev k * 10 ^ 4 + pa)
            - Spec.Wright.rho (T k) (S0 k) (lev k * 10 ^ 4 + pa)) else 0)) := by
  subst hpa
  obtain ⟨a, a1, -, a2⟩ := local_value h hd hc G hρ hth hso hvol (wright_eos heos)
    (fun _ k => fin (lev k * 10 ^ 4 + pa)) (fun e k _ => by simp)
  refine ⟨a, a1, fun e he hv T T0 S0 hT => ?_⟩
  have A := a2 e he (fun k => Spec.Wright.rho (T k) (S0 k) (lev k * 10 ^ 4 + pa))
    (fun k => Spec.Wright.rho (T0 k) (S0 k) (lev k * 10 ^ 4 + pa))
    (fun k hk hw => by
      obtain ⟨q1, q2, q3, -, q6⟩ := hT k hk hw
      rw [if_neg (by decide), if_pos rfl, q1, q3]; exact wright_float q6)
    (fun k hk hw => by
      obtain ⟨q1, q2, q3, q5, -⟩ := hT k hk hw
      rw [q2, q3]; exact wright_float q5)
  rw [if_neg hv] at A
  simp only [← ite_not (vol.get _ = nan)] at A
  rw [A]
  congr 1
  rw [neg_mul, ← mul_neg, ← Finset.sum_neg_distrib]
  congr 1
  refine Finset.sum_congr rfl (fun k _ => ?_)
  split <;> ring

/-- C134 (thermosteric): two columns of the same depth and reference salinity that warm by the same amounts: the one
that was warmer rises more, by at least 0.003/ρ0 times the sum of thickness, warming and difference of the
initial temperatures. -/
theorem C134_thermosteric
    (h : thermosteric d .none cn none rhozero patm eos domain strict = .ok (r, ref))
    (heos : CaseVariant eos "wright")
    (hd : domain ≠ "global") (hc : defaultCoords cn = .ok (tc, zc, zb))
    (G : OceanGrid d zc zb zid n lev ifc depth) (hρ : rhozero = fin ρ0) (h0 : 0 < ρ0)
    (hpa : patm = DA.scalar (fin pa))
    (hth : d.getVar "thetao" = .ok th) (hso : d.getVar "so" = .ok so)
    (hvol : d.getVar "volcello" = .ok vol) :
    ∃ a, r.getVar "thermosteric" = .ok a ∧
      ∀ e e', depth.InBounds e → depth.InBounds e' → depth.get e = depth.get e' →
        vol.get (cell0 tc zc e 0) ≠ nan →
        (∀ k, vol.get (cell0 tc zc e k) = nan ↔ vol.get (cell0 tc zc e' k) = nan) →
        ∀ T0 T0' S0 w : Nat → ℝ,
        (∀ k < n, vol.get (cell0 tc zc e k) ≠ nan →
          (th.get (cell zc e k) = fin (T0 k + w k) ∧ th.get (cell0 tc zc e k) = fin (T0 k) ∧
            so.get (cell0 tc zc e k) = fin (S0 k)) ∧
          (th.get (cell zc e' k) = fin (T0' k + w k) ∧ th.get (cell0 tc zc e' k) = fin (T0' k) ∧
            so.get (cell0 tc zc e' k) = fin (S0 k)) ∧ T0 k ≤ T0' k ∧ 0 ≤ w k ∧
          Spec.Wright.Ocean (T0 k) (S0 k) (lev k * 10 ^ 4 + pa) ∧
          Spec.Wright.Ocean (T0' k + w k) (S0 k) (lev k * 10 ^ 4 + pa)) →
        ∃ v v', a.get e = fin v ∧ a.get e' = fin v' ∧
          0.003 / ρ0 * ∑ k ∈ Finset.range n, (if ¬ vol.get (cell0 tc zc e k) = nan then
            thickness ifc (val0 (depth.get e)) k * ((T0' k - T0 k) * w k) else 0) ≤ v' - v := by
  obtain ⟨a, a1, a2⟩ := wright_thermo h heos hd hc G hρ hpa hth hso hvol
  refine ⟨a, a1, fun e e' he he' hde hv hm T0 T0' S0 w H => ?_⟩
  have o : ∀ k < n, vol.get (cell0 tc zc e k) ≠ nan → ∀ x, T0 k ≤ x → x ≤ T0' k + w k →
      Spec.Wright.Ocean x (S0 k) (lev k * 10 ^ 4 + pa) := fun k hk hw x h1 h2 => by
    obtain ⟨-, -, -, -, q5, q6⟩ := H k hk hw
    exact Wright.ocean_T q5 q6 h1 h2
  have A := a2 e he hv (fun k => T0 k + w k) T0 S0 (fun k hk hw => by
    obtain ⟨q1, q2, q3, q4, q5, q6⟩ := H k hk hw
    exact ⟨q1.1, q1.2.1, q1.2.2, q5, o k hk hw _ (by linarith) (by linarith)⟩)
  have A' := a2 e' he' (fun hn => hv ((hm 0).2 hn)) (fun k => T0' k + w k) T0' S0 (fun k hk hw => by
    have hw' : vol.get (cell0 tc zc e k) ≠ nan := fun hn => hw ((hm k).1 hn)
    obtain ⟨q1, q2, q3, q4, q5, q6⟩ := H k hk hw'
    exact ⟨q2.1, q2.2.1, q2.2.2, o k hk hw' _ q3 (by linarith), q6⟩)
  refine ⟨_, _, A, A', ?_⟩
  rw [← mul_sub, ← Finset.sum_sub_distrib]
  have hsum : ∑ k ∈ Finset.range n, ((if ¬ vol.get (cell0 tc zc e' k) = nan then
        thickness ifc (val0 (depth.get e')) k * (Spec.Wright.rho (T0' k) (S0 k) (lev k * 10 ^ 4 + pa)
          - Spec.Wright.rho (T0' k + w k) (S0 k) (lev k * 10 ^ 4 + pa)) else 0)
      - (if ¬ vol.get (cell0 tc zc e k) = nan then
        thickness ifc (val0 (depth.get e)) k * (Spec.Wright.rho (T0 k) (S0 k) (lev k * 10 ^ 4 + pa)
          - Spec.Wright.rho (T0 k + w k) (S0 k) (lev k * 10 ^ 4 + pa)) else 0))
      = ∑ k ∈ Finset.range n, (if ¬ vol.get (cell0 tc zc e k) = nan then
        thickness ifc (val0 (depth.get e)) k * ((Spec.Wright.rho (T0' k) (S0 k) (lev k * 10 ^ 4 + pa)
          - Spec.Wright.rho (T0' k + w k) (S0 k) (lev k * 10 ^ 4 + pa))
          - (Spec.Wright.rho (T0 k) (S0 k) (lev k * 10 ^ 4 + pa)
          - Spec.Wright.rho (T0 k + w k) (S0 k) (lev k * 10 ^ 4 + pa))) else 0) := by
    refine Finset.sum_congr rfl (fun k _ => ?_)
    rw [← hde]
    by_cases hw : vol.get (cell0 tc zc e k) = nan
    · rw [if_neg (not_not.2 ((hm k).1 hw)), if_neg (not_not.2 hw), if_neg (not_not.2 hw), sub_zero]
    · rw [if_pos (fun hn => hw ((hm k).2 hn)), if_pos hw, if_pos hw, ← mul_sub]
  rw [hsum]
  exact wet_le h0 (thickness_nonneg _ _) (fun k hk hw => by
    obtain ⟨-, -, q3, q4, q5, q6⟩ := H k hk hw
    have := (Wright.second_T q5 q6 q3 q4).2
    linarith)

/-- C134 (surface pressure): with a higher `patm` the same warming gives a larger thermosteric height, by at least
5·10⁻¹⁰/ρ0 and at most 4.5·10⁻⁹/ρ0 per pascal times the sum of thickness times warming. -/
theorem C134_patm
    (h : thermosteric d .none cn none rhozero patm eos domain strict = .ok (r, ref))
    (h' : thermosteric d .none cn none rhozero patm' eos domain strict = .ok (r', ref'))
    (heos : CaseVariant eos "wright")
    (hd : domain ≠ "global") (hc : defaultCoords cn = .ok (tc, zc, zb))
    (G : OceanGrid d zc zb zid n lev ifc depth) (hρ : rhozero = fin ρ0) (h0 : 0 < ρ0)
    (hpa : patm = DA.scalar (fin pa)) (hpa' : patm' = DA.scalar (fin pa')) (hp : pa ≤ pa')
    (hth : d.getVar "thetao" = .ok th) (hso : d.getVar "so" = .ok so)
    (hvol : d.getVar "volcello" = .ok vol) :
    ∃ a a', r.getVar "thermosteric" = .ok a ∧ r'.getVar "thermosteric" = .ok a' ∧
      ∀ e, depth.InBounds e → vol.get (cell0 tc zc e 0) ≠ nan → ∀ T T0 S0 : Nat → ℝ,
        (∀ k < n, vol.get (cell0 tc zc e k) ≠ nan →
          th.get (cell zc e k) = fin (T k) ∧ th.get (cell0 tc zc e k) = fin (T0 k) ∧
          so.get (cell0 tc zc e k) = fin (S0 k) ∧ T0 k ≤ T k ∧
          Spec.Wright.Ocean (T0 k) (S0 k) (lev k * 10 ^ 4 + pa) ∧
          Spec.Wright.Ocean (T k) (S0 k) (lev k * 10 ^ 4 + pa')) →
        ∃ v v', a.get e = fin v ∧ a'.get e = fin v' ∧
          0.0000000005 * (pa' - pa) / ρ0 * ∑ k ∈ Finset.range n, (if ¬ vol.get (cell0 tc zc e k) = nan then
            thickness ifc (val0 (depth.get e)) k * (T k - T0 k) else 0) ≤ v' - v ∧
          v' - v ≤ 0.0000000045 * (pa' - pa) / ρ0 * ∑ k ∈ Finset.range n,
            (if ¬ vol.get (cell0 tc zc e k) = nan then
              thickness ifc (val0 (depth.get e)) k * (T k - T0 k) else 0) := by
  obtain ⟨a, a1, a2⟩ := wright_thermo h heos hd hc G hρ hpa hth hso hvol
  obtain ⟨a', a1', a2'⟩ := wright_thermo h' heos hd hc G hρ hpa' hth hso hvol
  refine ⟨a, a', a1, a1', fun e he hv T T0 S0 H => ?_⟩
  have o : ∀ k < n, vol.get (cell0 tc zc e k) ≠ nan →
      Spec.Wright.Ocean (T k) (S0 k) (lev k * 10 ^ 4 + pa) ∧
      Spec.Wright.Ocean (T0 k) (S0 k) (lev k * 10 ^ 4 + pa') := fun k hk hw => by
    obtain ⟨-, -, -, -, q5, q6⟩ := H k hk hw
    exact ⟨⟨q6.1, q6.2.1, q5.2.2⟩, ⟨q5.1, q5.2.1, q6.2.2⟩⟩
  have A := a2 e he hv T T0 S0 (fun k hk hw => by
    obtain ⟨q1, q2, q3, q4, q5, q6⟩ := H k hk hw
    exact ⟨q1, q2, q3, q5, (o k hk hw).1⟩)
  have A' := a2' e he hv T T0 S0 (fun k hk hw => by
    obtain ⟨q1, q2, q3, q4, q5, q6⟩ := H k hk hw
    exact ⟨q1, q2, q3, (o k hk hw).2, q6⟩)
  refine ⟨_, _, A, A', ?_⟩
  rw [← mul_sub, ← Finset.sum_sub_distrib]
  have hsum : ∑ k ∈ Finset.range n, ((if ¬ vol.get (cell0 tc zc e k) = nan then
        thickness ifc (val0 (depth.get e)) k * (Spec.Wright.rho (T0 k) (S0 k) (lev k * 10 ^ 4 + pa')
          - Spec.Wright.rho (T k) (S0 k) (lev k * 10 ^ 4 + pa')) else 0)
      - (if ¬ vol.get (cell0 tc zc e k) = nan then
        thickness ifc (val0 (depth.get e)) k * (Spec.Wright.rho (T0 k) (S0 k) (lev k * 10 ^ 4 + pa)
          - Spec.Wright.rho (T k) (S0 k) (lev k * 10 ^ 4 + pa)) else 0))
      = ∑ k ∈ Finset.range n, (if ¬ vol.get (cell0 tc zc e k) = nan then
        thickness ifc (val0 (depth.get e)) k * ((Spec.Wright.rho (T0 k) (S0 k) (lev k * 10 ^ 4 + pa')
          - Spec.Wright.rho (T k) (S0 k) (lev k * 10 ^ 4 + pa'))
          - (Spec.Wright.rho (T0 k) (S0 k) (lev k * 10 ^ 4 + pa)
          - Spec.Wright.rho (T k) (S0 k) (lev k * 10 ^ 4 + pa))) else 0) := by
    refine Finset.sum_congr rfl (fun k _ => ?_)
    by_cases hw : vol.get (cell0 tc zc e k) = nan
    · rw [if_neg (not_not.2 hw), if_neg (not_not.2 hw), if_neg (not_not.2 hw), sub_zero]
    · rw [if_pos hw, if_pos hw, if_pos hw, ← mul_sub]
  rw [hsum]
  have bounds : ∀ k < n, vol.get (cell0 tc zc e k) ≠ nan → _ := fun k hk hw => by
    obtain ⟨-, -, -, q4, q5, q6⟩ := H k hk hw
    exact Wright.mixed_TP q5 q6 q4 (by linarith)
  have dp : ∀ k, lev k * 10 ^ 4 + pa' - (lev k * 10 ^ 4 + pa) = pa' - pa := fun k => by ring
  constructor
  · exact wet_le h0 (thickness_nonneg _ _) (fun k hk hw => by
      have := (bounds k hk hw).2
      rw [dp] at this
      linarith)
  · have hp0 := sub_nonneg.2 hp
    have habs := wet_abs (wet := fun k => ¬ vol.get (cell0 tc zc e k) = nan) (n := n)
      (c := 0.0000000045 * (pa' - pa)) (y := fun k => T k - T0 k)
      (x := fun k => (Spec.Wright.rho (T0 k) (S0 k) (lev k * 10 ^ 4 + pa')
          - Spec.Wright.rho (T k) (S0 k) (lev k * 10 ^ 4 + pa'))
          - (Spec.Wright.rho (T0 k) (S0 k) (lev k * 10 ^ 4 + pa)
          - Spec.Wright.rho (T k) (S0 k) (lev k * 10 ^ 4 + pa))) h0
      (thickness_nonneg ifc (val0 (depth.get e))) (fun k hk hw => by
        obtain ⟨-, -, -, q4, -, -⟩ := H k hk hw
        have b := bounds k hk hw
        rw [dp] at b
        have hT := sub_nonneg.2 q4
        have h5 : 0 ≤ 0.0000000005 * (pa' - pa) * (T k - T0 k) := by positivity
        rw [abs_le]
        constructor <;> linarith [b.1, b.2])
    rw [neg_mul, abs_neg] at habs
    exact (le_abs_self _).trans habs

end

noncomputable section

/-- The example ocean with rows of 10 and 20 degrees, both warming by 2 degrees. -/
def rowsT : DA (Fl ℝ) := ⟨exDims, fun e => fin (10 + 10 * (e "yh" : ℝ) + 2 * (e "time" : ℝ))⟩
def rowsD : DS (Fl ℝ) := ⟨[("thetao", rowsT), ("so", exS), ("volcello", exV), ("areacello", exA),
  ("deptho", exDepth), ("z_l", exZ), ("z_i", exZi)], ["z_l", "z_i"]⟩

theorem rowsGood (pa : ℝ) : GoodData rowsD "time" "z_l" "z_i" "z_i" "yh" "xh" 2 2 2 2
    (fun k => 500 + 1000 * (k : ℝ)) (fun k => 1000 * (k : ℝ)) rowsT exS exV exA exDepth exZi
    (DA.scalar (fin pa)) where
  names := by decide
  hnt := by norm_num
  hn := by norm_num
  hny := by norm_num
  hnx := by norm_num
  hth := rfl
  hso := rfl
  hvol := rfl
  harea := rfl
  hzb := rfl
  thd := rfl
  sod := rfl
  vold := rfl
  aread := rfl
  depthd := rfl
  grid := by
    obtain ⟨⟨z, zi, h1, h2, h3⟩, -, b, c, -⟩ := exGrid
    cases h1
    cases h2
    exact ⟨⟨_, _, rfl, rfl, h3⟩, rfl, b, c, by simp [rowsD, DS.names]⟩
  alone := by simp [rowsD, exZ, exZi, DA.dimNames]
  patmd := by simp

theorem rowsOcean {T pa : ℝ} (h1 : 10 ≤ T) (h2 : T ≤ 22) (h3 : 0 ≤ pa) (h4 : pa ≤ 200000) {k : Nat} (hk : k < 2) :
    Spec.Wright.Ocean T 34 ((500 + 1000 * (k : ℝ)) * 10 ^ 4 + pa) := by
  have : (k : ℝ) ≤ 1 := by exact_mod_cast Nat.le_of_lt_succ hk
  have : (0 : ℝ) ≤ k := Nat.cast_nonneg k
  exact ⟨by linarith, by linarith, by norm_num, by norm_num, by nlinarith, by nlinarith⟩

theorem rowsThick (k : Nat) (hk : k < 2) : thickness (fun k => 1000 * (k : ℝ)) 2000 k = 1000 := by
  unfold thickness Spec.overlap
  rcases (by omega : k = 0 ∨ k = 1) with rfl | rfl <;> norm_num

theorem rowsRun (pa : ℝ) :
    ∃ x, thermosteric rowsD .none .none none (fin 1035) (DA.scalar (fin pa)) "Wright" "local" true = .ok x :=
  C30_success (rowsGood pa) rfl (by simp) (Or.inl wright_case) (by simp) (fun _ => exArea)

/-- Example for C134 (thermosteric): the row that was 10 degrees warmer rises at least 11 cm more. -/
example : ∃ r ref a,
    thermosteric rowsD .none .none none (fin 1035) (DA.scalar (fin 101325)) "Wright" "local" true = .ok (r, ref) ∧
    r.getVar "thermosteric" = .ok a ∧ ∀ e e', e "xh" = 0 → e' "xh" = 0 → e "yh" = 0 → e' "yh" = 1 →
      e "time" = 1 → e' "time" = 1 → ∃ v v', a.get e = fin v ∧ a.get e' = fin v' ∧ v + 0.11 ≤ v' := by
  obtain ⟨⟨r, ref⟩, h⟩ := rowsRun 101325
  obtain ⟨a, a1, a2⟩ := C134_thermosteric h wright_case (by decide) exC (rowsGood 101325).grid rfl (by norm_num) rfl
    (rowsGood 0).hth (rowsGood 0).hso (rowsGood 0).hvol
  refine ⟨r, ref, a, h, a1, fun e e' hx hx' hy hy' ht ht' => ?_⟩
  have wet : ∀ k, exV.get (cell0 "time" "z_l" e k) = fin 1 := fun k => by simp [exV, hx]
  have wet' : ∀ k, exV.get (cell0 "time" "z_l" e' k) = fin 1 := fun k => by simp [exV, hx']
  have inb : ∀ e : Env, e "xh" = 0 → e "yh" < 2 → exDepth.InBounds e := by
    intro e hx hy p hp
    simp only [exDepth, List.mem_cons, List.not_mem_nil, or_false] at hp
    rcases hp with rfl | rfl
    · exact hy
    · simp [hx]
  obtain ⟨v, v', v1, v2, v3⟩ := a2 e e' (inb e hx (by omega)) (inb e' hx' (by omega)) (by simp [exDepth, hx, hx'])
    (by rw [wet]; simp) (fun k => by rw [wet, wet']) (fun _ => 10) (fun _ => 20) (fun _ => 34) (fun _ => 2)
    (fun k hk _ => ⟨⟨by simp [rowsT, ht, hy], by simp [rowsT, hy], by simp [exS]⟩,
      ⟨by simp [rowsT, ht', hy']; norm_num, by simp [rowsT, hy']; norm_num, by simp [exS]⟩, by norm_num, by norm_num,
      rowsOcean (by norm_num) (by norm_num) (by norm_num) (by norm_num) hk,
      rowsOcean (by norm_num) (by norm_num) (by norm_num) (by norm_num) hk⟩)
  have hd : exDepth.get e = fin 2000 := by simp [exDepth, hx]
  rw [Finset.sum_range_succ, Finset.sum_range_succ, Finset.sum_range_zero, wet, wet, hd, val0_fin,
    rowsThick 0 (by norm_num), rowsThick 1 (by norm_num), if_pos (by simp)] at v3
  norm_num at v3
  exact ⟨v, v', v1, v2, by norm_num; linarith⟩

/-- Example for C134 (surface pressure): leaving the atmosphere out makes the same warming rise a little less. -/
example : ∃ r ref r' ref' a a',
    thermosteric rowsD .none .none none (fin 1035) (DA.scalar (fin 0)) "Wright" "local" true = .ok (r, ref) ∧
    thermosteric rowsD .none .none none (fin 1035) (DA.scalar (fin 101325)) "Wright" "local" true = .ok (r', ref') ∧
    r.getVar "thermosteric" = .ok a ∧ r'.getVar "thermosteric" = .ok a' ∧
    ∀ e, e "xh" = 0 → e "yh" = 0 → e "time" = 1 →
      ∃ v v', a.get e = fin v ∧ a'.get e = fin v' ∧ v + 0.00019 ≤ v' ∧ v' ≤ v + 0.0018 := by
  obtain ⟨⟨r, ref⟩, h⟩ := rowsRun 0
  obtain ⟨⟨r', ref'⟩, h'⟩ := rowsRun 101325
  obtain ⟨a, a', a1, a1', a2⟩ := C134_patm h h' wright_case (by decide) exC (rowsGood 0).grid rfl (by norm_num) rfl rfl
    (by norm_num) (rowsGood 0).hth (rowsGood 0).hso (rowsGood 0).hvol
  refine ⟨r, ref, r', ref', a, a', h, h', a1, a1', fun e hx hy ht => ?_⟩
  have wet : ∀ k, exV.get (cell0 "time" "z_l" e k) = fin 1 := fun k => by simp [exV, hx]
  have inb : exDepth.InBounds e := by
    intro p hp
    simp only [exDepth, List.mem_cons, List.not_mem_nil, or_false] at hp
    rcases hp with rfl | rfl <;> simp [hx, hy]
  obtain ⟨v, v', v1, v2, v3, v4⟩ := a2 e inb (by rw [wet]; simp) (fun _ => 12) (fun _ => 10) (fun _ => 34)
    (fun k hk _ => ⟨by simp [rowsT, ht, hy]; norm_num, by simp [rowsT, hy], by simp [exS], by norm_num,
      rowsOcean (by norm_num) (by norm_num) (by norm_num) (by norm_num) hk,
      rowsOcean (by norm_num) (by norm_num) (by norm_num) (by norm_num) hk⟩)
  have hd : exDepth.get e = fin 2000 := by simp [exDepth, hx]
  rw [Finset.sum_range_succ, Finset.sum_range_succ, Finset.sum_range_zero, wet, wet, hd, val0_fin,
    rowsThick 0 (by norm_num), rowsThick 1 (by norm_num), if_pos (by simp)] at v3 v4
  norm_num at v3 v4
  exact ⟨v, v', v1, v2, by norm_num; linarith, by norm_num; linarith⟩

end

end Momlevel.Props
