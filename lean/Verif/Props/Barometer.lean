import Verif.Props.WrightCurvature
import Verif.Props.Mass

/-! # C154: response of the inverse barometer -/

set_option linter.unusedSectionVars false

namespace Momlevel.Eos.Wright
open Spec.Wright

/-- Temperature, salinity, surface pressure. -/
def airBox : ℕ → ℚ × ℚ
  | 0 => (-2, 40)
  | 1 => (0, 42)
  | _ => (0, 120000)

theorem airBox_lt (i : ℕ) : (airBox i).1 < (airBox i).2 := by
  match i with
  | 0 => norm_num [airBox]
  | 1 => norm_num [airBox]
  | (n + 2) => show (0 : ℚ) < 120000; norm_num

/-- Water at the surface: -2 to 40 degC, 0 to 42 psu, 0 to 1200 hPa. -/
def Surface (T S p : ℝ) : Prop := -2 ≤ T ∧ T ≤ 40 ∧ 0 ≤ S ∧ S ≤ 42 ∧ 0 ≤ p ∧ p ≤ 120000

theorem Surface.ocean {T S p : ℝ} (h : Surface T S p) : Ocean T S p :=
  ⟨h.1, h.2.1, h.2.2.1, h.2.2.2.1, h.2.2.2.2.1, h.2.2.2.2.2.trans (by norm_num)⟩

theorem air_nonneg {T S p : ℝ} (h : Surface T S p) (e : Ex) (hc : e.nonneg airBox = true) :
    0 ≤ e.eval (oVars T S p) := by
  refine Ex.nonneg_sound airBox_lt (fun i => ?_) e hc
  obtain ⟨h1, h2, h3, h4, h5, h6⟩ := h
  match i with
  | 0 => simp only [airBox, oVars]; push_cast; exact ⟨h1, h2⟩
  | 1 => simp only [airBox, oVars]; push_cast; exact ⟨h3, h4⟩
  | (n + 2) =>
    show ((0 : ℚ) : ℝ) ≤ p ∧ p ≤ ((120000 : ℚ) : ℝ)
    push_cast; exact ⟨h5, h6⟩

theorem air_lo {T S p : ℝ} (h : Surface T S p) : 0 ≤ wP T S p - 991.0 * wD T S p :=
  air_nonneg h (wP eT eS eP - 991.0 * wD eT eS eP) (by decide +kernel)

theorem air_hi {T S p : ℝ} (h : Surface T S p) : 0 ≤ 1034.6 * wD T S p - wP T S p :=
  air_nonneg h (1034.6 * wD eT eS eP - wP eT eS eP) (by decide +kernel)

theorem air_p0 {T S p : ℝ} (h : Surface T S p) : 0 ≤ wP T S p - 420000000.0 :=
  air_nonneg h (wP eT eS eP - 420000000.0) (by decide +kernel)

/-- `p v(p)` with the specific volume `v = 1 / ρ` rises by between 1/1035 and 1/991 per unit of pressure. -/
theorem pv_diff {T S p p' : ℝ} (h : Surface T S p) (h' : Surface T S p') (hp : p ≤ p') :
    (p' - p) / 1035 ≤ p' / rho T S p' - p / rho T S p ∧ p' / rho T S p' - p / rho T S p ≤ (p' - p) / 991 := by
  have s0 : Surface T S 0 := ⟨h.1, h.2.1, h.2.2.1, h.2.2.2.1, le_rfl, by norm_num⟩
  have l0 := air_lo s0
  have k0 := air_p0 s0
  have h1 := air_hi h'
  have hL := lam_pos h.1 h.2.1 h.2.2.1 h.2.2.2.1
  have hA := al0_pos h.1 h.2.2.2.1
  rw [wP_eq, wD_eq] at l0 h1
  rw [wP_eq] at k0
  unfold denom at l0 h1
  have q0 := h.2.2.2.2.1
  have q1 := h'.2.2.2.2.2
  set P0 := p0 T S with hP0
  set L := lam T S with hLL
  set A := al0 T S with hAA
  norm_num at l0 h1 k0
  have hP : 0 < p + P0 := by linarith
  have hP' : 0 < p' + P0 := by linarith
  have hP00 : 0 < P0 := by linarith
  have hD : 0 < L + A * (p + P0) := by positivity
  have hD' : 0 < L + A * (p' + P0) := by positivity
  have e : p' / rho T S p' - p / rho T S p = (p' - p) * (A + L * P0 / ((p + P0) * (p' + P0))) := by
    unfold rho denom
    rw [← hP0, ← hLL, ← hAA]
    field_simp
    ring
  rw [e]
  have hPP : 0 < (p + P0) * (p' + P0) := mul_pos hP hP'
  have up : A + L * P0 / ((p + P0) * (p' + P0)) ≤ 1 / 991 := by
    have a1 : L * P0 / ((p + P0) * (p' + P0)) ≤ L / P0 := by
      rw [div_le_div_iff₀ hPP hP00]
      nlinarith [mul_nonneg hL.le (mul_nonneg q0 hP00.le), mul_nonneg hL.le (mul_nonneg (q0.trans hp) hP00.le),
        mul_nonneg hL.le (mul_nonneg q0 (q0.trans hp))]
    have a2 : A + L / P0 ≤ 1 / 991 := by
      have : A + L / P0 = (L + A * P0) / P0 := by field_simp; ring
      rw [this, div_le_div_iff₀ hP00 (by norm_num)]
      linarith
    linarith
  have lo : 1 / 1035 ≤ A + L * P0 / ((p + P0) * (p' + P0)) := by
    have b1 : 1 / 1034.6 ≤ A + L / (p' + P0) := by
      have : A + L / (p' + P0) = (L + A * (p' + P0)) / (p' + P0) := by field_simp; ring
      rw [this, div_le_div_iff₀ (by norm_num) hP']
      norm_num; linarith
    have b2 : (0.9997 : ℝ) ≤ P0 / (p + P0) := by
      rw [le_div_iff₀ hP]; norm_num; linarith
    have b3 : L * P0 / ((p + P0) * (p' + P0)) = (P0 / (p + P0)) * (L / (p' + P0)) := by
      field_simp
    have b4 : P0 / (p + P0) ≤ 1 := by rw [div_le_one hP]; linarith
    have b5 : 0 ≤ L / (p' + P0) := (div_pos hL hP').le
    rw [b3]
    have b6 : (0.9997 : ℝ) * (L / (p' + P0)) ≤ (P0 / (p + P0)) * (L / (p' + P0)) := mul_le_mul_of_nonneg_right b2 b5
    norm_num at b1 b6 ⊢
    linarith
  have hd : 0 ≤ p' - p := by linarith
  constructor
  · calc (p' - p) / 1035 = (p' - p) * (1 / 1035) := by ring
      _ ≤ _ := mul_le_mul_of_nonneg_left lo hd
  · calc _ ≤ (p' - p) * (1 / 991) := mul_le_mul_of_nonneg_left up hd
      _ = _ := by ring

end Momlevel.Eos.Wright

namespace Momlevel.Props
open Fl Momlevel.Eos

/-- The height at a cell, for Wright's equation of state. -/
theorem barometer_at {tos sos pso r : DA (Fl ℝ)} {g T S p : ℝ} {e : Env} {eos : String} (heos : CaseVariant eos "wright")
    (hpd : ∀ q ∈ pso.dims, q.1 ∈ tos.dimNames)
    (h : inverseBarometer tos sos pso (fin g) eos = .ok r) (hg : 0 < g)
    (hT : tos.get e = fin T) (hS : sos.get e = fin S) (hp : pso.get e = fin p) (ho : Spec.Wright.Ocean T S p) :
    r.get e = fin (-(p / Spec.Wright.rho T S p / g)) := by
  have hf : eosFuncFromStr eos "density" = .ok (Wright.density : EosFn (Fl ℝ)) := by
    have hw : pyLower eos = "wright".toList := (pyLower_wright eos).2 heos
    simp only [eosFuncFromStr, hw]; rfl
  obtain ⟨r', k1, k2⟩ := inverseBarometer_eq (sos := sos) hf hpd (fin g)
  rw [h] at k1
  cases k1
  have hr : 0 < Spec.Wright.rho T S p := by rw [← C01_density_formula]; exact (C03_pos ho).2
  rw [k2 e, hT, hS, hp, (C01_float_finite _ _ _ (C03_pos ho).1.ne').1, fin_mul,
    fin_div_of_ne _ (mul_pos hr hg).ne', fin_mul]
  congr 1
  field_simp

/-- C154 (a hectopascal is a centimetre): if the pressure on the same water rises from `p` to `p'`, the inverse
barometer height falls by between `(p'-p)/(1035 g)` and `(p'-p)/(991 g)`, that is by 0.98 to 1.03 cm per hPa for
the default gravity. -/
theorem C154_response {tos sos pso pso' r r' : DA (Fl ℝ)} {g T S p p' : ℝ} {e : Env} {eos : String}
    (heos : CaseVariant eos "wright")
    (hpd : ∀ q ∈ pso.dims, q.1 ∈ tos.dimNames) (hpd' : ∀ q ∈ pso'.dims, q.1 ∈ tos.dimNames)
    (h : inverseBarometer tos sos pso (fin g) eos = .ok r)
    (h' : inverseBarometer tos sos pso' (fin g) eos = .ok r') (hg : 0 < g)
    (hT : tos.get e = fin T) (hS : sos.get e = fin S) (hp : pso.get e = fin p) (hp' : pso'.get e = fin p')
    (hTr : -2 ≤ T ∧ T ≤ 40) (hSr : 0 ≤ S ∧ S ≤ 42) (h0 : 0 ≤ p) (hpp : p ≤ p') (h1 : p' ≤ 120000) :
    ∃ x x', r.get e = fin x ∧ r'.get e = fin x' ∧
      (p' - p) / (1035 * g) ≤ x - x' ∧ x - x' ≤ (p' - p) / (991 * g) := by
  have s : Wright.Surface T S p := ⟨hTr.1, hTr.2, hSr.1, hSr.2, h0, hpp.trans h1⟩
  have s' : Wright.Surface T S p' := ⟨hTr.1, hTr.2, hSr.1, hSr.2, h0.trans hpp, h1⟩
  refine ⟨_, _, barometer_at heos hpd h hg hT hS hp s.ocean, barometer_at heos hpd' h' hg hT hS hp' s'.ocean, ?_⟩
  have k := Wright.pv_diff s s' hpp
  have e1 : -(p / Spec.Wright.rho T S p / g) - -(p' / Spec.Wright.rho T S p' / g)
      = (p' / Spec.Wright.rho T S p' - p / Spec.Wright.rho T S p) / g := by ring
  rw [e1, ← div_div, ← div_div]
  exact ⟨div_le_div_of_nonneg_right k.1 hg.le, div_le_div_of_nonneg_right k.2 hg.le⟩

/-- C154 (the height itself): the whole pressure counts, not its departure from a mean, so the height lies between
`-p/(991 g)` and `-p/(1035 g)`: ten metres down under normal pressure. -/
theorem C154_size {tos sos pso r : DA (Fl ℝ)} {g T S p : ℝ} {e : Env} {eos : String} (heos : CaseVariant eos "wright")
    (hpd : ∀ q ∈ pso.dims, q.1 ∈ tos.dimNames)
    (h : inverseBarometer tos sos pso (fin g) eos = .ok r) (hg : 0 < g)
    (hT : tos.get e = fin T) (hS : sos.get e = fin S) (hp : pso.get e = fin p)
    (hTr : -2 ≤ T ∧ T ≤ 40) (hSr : 0 ≤ S ∧ S ≤ 42) (hpr : 0 ≤ p ∧ p ≤ 120000) :
    ∃ x, r.get e = fin x ∧ -(p / (991 * g)) ≤ x ∧ x ≤ -(p / (1035 * g)) := by
  have s : Wright.Surface T S p := ⟨hTr.1, hTr.2, hSr.1, hSr.2, hpr.1, hpr.2⟩
  have s0 : Wright.Surface T S 0 := ⟨hTr.1, hTr.2, hSr.1, hSr.2, le_rfl, by norm_num⟩
  refine ⟨_, barometer_at heos hpd h hg hT hS hp s.ocean, ?_⟩
  have k := Wright.pv_diff s0 s hpr.1
  simp only [sub_zero, zero_div] at k
  rw [← div_div, ← div_div]
  exact ⟨neg_le_neg (div_le_div_of_nonneg_right k.2 hg.le), neg_le_neg (div_le_div_of_nonneg_right k.1 hg.le)⟩

/-- Polar and tropical water side by side. -/
def polarTropicalT : DA (Fl ℝ) := ⟨[("x", 2)], fun e => fin (if e "x" = 0 then 0 else 28)⟩
/-- Their salinities. -/
def polarTropicalS : DA (Fl ℝ) := ⟨[("x", 2)], fun e => fin (if e "x" = 0 then 35 else 33)⟩
/-- 1000 hPa everywhere. -/
def evenPressure : DA (Fl ℝ) := ⟨[("x", 2)], fun _ => fin 100000⟩

/-- C154 (even pressure): an even pressure moves no water, but the height depends on the water under it.  With 1000 hPa
everywhere the default call gives a height that is 7 cm lower over tropical than over polar water. -/
theorem C154_uneven : ∃ r x y, inverseBarometer polarTropicalT polarTropicalS evenPressure = .ok r ∧
    r.get (fun _ => 0) = fin x ∧ r.get (fun _ => 1) = fin y ∧ 0.07 < x - y := by
  have hw : CaseVariant "Wright" "wright" := (pyLower_wright _).1 rfl
  have hpd : ∀ q ∈ evenPressure.dims, q.1 ∈ polarTropicalT.dimNames := by
    simp [evenPressure, polarTropicalT, DA.dimNames]
  have hg : (9.8 : Fl ℝ) = fin 9.8 := rfl
  obtain ⟨r, k1, -⟩ := inverseBarometer_eq (tos := polarTropicalT) (sos := polarTropicalS) (pso := evenPressure)
    (eos := "Wright") (f := (Wright.density : EosFn (Fl ℝ))) rfl hpd (fin 9.8)
  refine ⟨r, _, _, k1, barometer_at (T := 0) (S := 35) (p := 100000) hw hpd k1 (by norm_num)
      (by simp [polarTropicalT]) (by simp [polarTropicalS]) rfl (by unfold Spec.Wright.Ocean; norm_num),
    barometer_at (T := 28) (S := 33) (p := 100000) hw hpd k1 (by norm_num) (by simp [polarTropicalT])
      (by simp [polarTropicalS]) rfl (by unfold Spec.Wright.Ocean; norm_num), ?_⟩
  unfold Spec.Wright.rho Spec.Wright.denom Spec.Wright.p0 Spec.Wright.lam Spec.Wright.al0
  norm_num

/-- These arrays meet the hypotheses of `C154_response` (with pressure rising by 10 hPa) and `C154_size`. -/
example : ∃ r r', inverseBarometer polarTropicalT polarTropicalS evenPressure (fin 9.8) "Wright" = .ok r ∧
    inverseBarometer polarTropicalT polarTropicalS (evenPressure + DA.scalar (fin 1000)) (fin 9.8) "Wright" = .ok r' ∧
    ∃ x x', r.get (fun _ => 1) = fin x ∧ r'.get (fun _ => 1) = fin x' ∧ 0.0985 ≤ x - x' ∧ x - x' ≤ 0.103 := by
  have hw : CaseVariant "Wright" "wright" := (pyLower_wright _).1 rfl
  have hpd : ∀ q ∈ evenPressure.dims, q.1 ∈ polarTropicalT.dimNames := by
    simp [evenPressure, polarTropicalT, DA.dimNames]
  have hpd' : ∀ q ∈ (evenPressure + DA.scalar (fin 1000)).dims, q.1 ∈ polarTropicalT.dimNames := by
    rw [DA.dims_add]; simp [evenPressure, polarTropicalT, DA.dimNames, DA.bdims]
  obtain ⟨r, k1, -⟩ := inverseBarometer_eq (sos := polarTropicalS) (eos := "Wright")
    (f := (Wright.density : EosFn (Fl ℝ))) rfl hpd (fin 9.8)
  obtain ⟨r', k1', -⟩ := inverseBarometer_eq (sos := polarTropicalS) (eos := "Wright")
    (f := (Wright.density : EosFn (Fl ℝ))) rfl hpd' (fin 9.8)
  obtain ⟨x, x', h1, h2, h3, h4⟩ := C154_response (T := 28) (S := 33) (p := 100000) (p' := 101000) (e := fun _ => 1) hw
    hpd hpd' k1 k1' (by norm_num) (by simp [polarTropicalT]) (by simp [polarTropicalS]) rfl
    (by simp only [DA.get_add, DA.get_scalar, evenPressure, fin_add]; norm_num)
    (by norm_num) (by norm_num) (by norm_num) (by norm_num) (by norm_num)
  refine ⟨r, r', k1, k1', x, x', h1, h2, le_trans (by norm_num) h3, h4.trans (by norm_num)⟩

end Momlevel.Props
