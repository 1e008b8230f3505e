import Verif.Lemmas.WrightSalt
import Verif.Props.Barometer

/-! # C169: errors in temperature, salinity and pressure, and potential density and inverse barometer -/

set_option linter.unusedSectionVars false

namespace Momlevel.Props
open Momlevel Momlevel.Eos Momlevel.Fl

/-- **C169 (potential density)** For the same reference level, potential densities differ by at most 0.48 per degree
and 0.82 per unit of salinity. -/
theorem C169_pdens {th so th' so' patm : DA (Fl ℝ)} {e : Env} {T S T' S' l p : ℝ} (hT : th.get e = fin T)
    (hS : so.get e = fin S) (hT' : th'.get e = fin T') (hS' : so'.get e = fin S') (hp : patm.get e = fin p)
    (hd : ∀ q ∈ patm.dims, q ∈ th.dims) (hd' : ∀ q ∈ patm.dims, q ∈ th'.dims) (h0 : 0 ≤ l) (h1 : l ≤ 7500)
    (ho : Spec.Wright.Ocean T S (l * 10 ^ 4 + p)) (ho' : Spec.Wright.Ocean T' S' (l * 10 ^ 4 + p)) :
    ∃ r r' x y, calcPdens th so (fin l) patm "Wright" = .ok r ∧ calcPdens th' so' (fin l) patm "Wright" = .ok r' ∧
      r.get e = fin x ∧ r'.get e = fin y ∧ |y - x| ≤ 0.48 * |T' - T| + 0.82 * |S' - S| := by
  have hf : eosFuncFromStr "Wright" "density" = .ok (Wright.density : EosFn (Fl ℝ)) := rfl
  obtain ⟨r, k1, -, k2⟩ := C22_value (th := th) (so := so) hf h0 h1 patm hd
  obtain ⟨r', k1', -, k2'⟩ := C22_value (th := th') (so := so') hf h0 h1 patm hd'
  have g1 := (C01_float_finite _ _ _ (C03_pos ho).1.ne').1
  have g2 := (C01_float_finite _ _ _ (C03_pos ho').1.ne').1
  refine ⟨r, r', _, _, k1, k1', ?_, ?_, Wright.abs_diff_rho ho ho'⟩
  · rw [k2 e, hT, hS, hp, fin_add, g1]
  · rw [k2' e, hT', hS', hp, fin_add, g2]

/-- Water of 10 and 10.5 degrees, referred to 2000 m: densities within 0.24 kg/m³. -/
example : ∃ r r' x y, calcPdens (DA.scalar (fin 10)) (DA.scalar (fin 35)) (fin (2000 : ℝ))
      (DA.scalar (fin 101325)) "Wright" = .ok r ∧
    calcPdens (DA.scalar (fin 10.5)) (DA.scalar (fin 35)) (fin (2000 : ℝ)) (DA.scalar (fin 101325)) "Wright" = .ok r' ∧
    r.get (fun _ => 0) = fin x ∧ r'.get (fun _ => 0) = fin y ∧ |y - x| ≤ 0.24 := by
  obtain ⟨r, r', x, y, h1, h2, h3, h4, h5⟩ := C169_pdens (th := DA.scalar (fin 10)) (so := DA.scalar (fin 35))
    (th' := DA.scalar (fin 10.5)) (so' := DA.scalar (fin 35)) (patm := DA.scalar (fin 101325)) (e := fun _ => 0)
    (l := 2000) rfl rfl rfl rfl rfl (by simp [DA.scalar]) (by simp [DA.scalar]) (by norm_num) (by norm_num)
    (by unfold Spec.Wright.Ocean; norm_num) (by unfold Spec.Wright.Ocean; norm_num)
  refine ⟨r, r', x, y, h1, h2, h3, h4, h5.trans (le_of_eq ?_)⟩
  norm_num [abs_of_pos]

/-- **C169 (inverse barometer)** Errors of `dp`, `dT`, `dS` at the surface change the inverse barometer height by at most
`(dp/991 + 0.06 dT + 0.103 dS)/g`. -/
theorem C169_barometer {tos sos pso tos' sos' pso' r r' : DA (Fl ℝ)} {g T S p T' S' p' : ℝ} {e : Env} {eos : String}
    (heos : CaseVariant eos "wright")
    (hpd : ∀ q ∈ pso.dims, q.1 ∈ tos.dimNames) (hpd' : ∀ q ∈ pso'.dims, q.1 ∈ tos'.dimNames)
    (h : inverseBarometer tos sos pso (fin g) eos = .ok r)
    (h' : inverseBarometer tos' sos' pso' (fin g) eos = .ok r') (hg : 0 < g)
    (hT : tos.get e = fin T) (hS : sos.get e = fin S) (hp : pso.get e = fin p)
    (hT' : tos'.get e = fin T') (hS' : sos'.get e = fin S') (hp' : pso'.get e = fin p')
    (bT : -2 ≤ T ∧ T ≤ 40) (bS : 0 ≤ S ∧ S ≤ 42) (bp : 0 ≤ p ∧ p ≤ 120000)
    (bT' : -2 ≤ T' ∧ T' ≤ 40) (bS' : 0 ≤ S' ∧ S' ≤ 42) (bp' : 0 ≤ p' ∧ p' ≤ 120000) :
    ∃ x y, r.get e = fin x ∧ r'.get e = fin y ∧
      |y - x| ≤ (|p' - p| / 991 + 0.06 * |T' - T| + 0.103 * |S' - S|) / g := by
  have s1 : Wright.Surface T S p := ⟨bT.1, bT.2, bS.1, bS.2, bp.1, bp.2⟩
  have s2 : Wright.Surface T' S' p := ⟨bT'.1, bT'.2, bS'.1, bS'.2, bp.1, bp.2⟩
  have s3 : Wright.Surface T' S' p' := ⟨bT'.1, bT'.2, bS'.1, bS'.2, bp'.1, bp'.2⟩
  refine ⟨_, _, barometer_at heos hpd h hg hT hS hp s1.ocean, barometer_at heos hpd' h' hg hT' hS' hp' s3.ocean, ?_⟩
  have r1 := Wright.rho_lo s1.ocean
  have r2 := Wright.rho_lo s2.ocean
  have d := Wright.abs_diff_rho s1.ocean s2.ocean
  have a1 : |p' / Spec.Wright.rho T' S' p' - p / Spec.Wright.rho T' S' p| ≤ |p' - p| / 991 := by
    rcases le_total p p' with hh | hh
    · have q := Wright.pv_diff s2 s3 hh
      rw [abs_of_nonneg ((div_nonneg (by linarith) (by norm_num)).trans q.1), abs_of_nonneg (by linarith)]
      exact q.2
    · have q := Wright.pv_diff s3 s2 hh
      rw [abs_sub_comm, abs_sub_comm p', abs_of_nonneg ((div_nonneg (by linarith) (by norm_num)).trans q.1),
        abs_of_nonneg (by linarith)]
      exact q.2
  have a2 : |p / Spec.Wright.rho T' S' p - p / Spec.Wright.rho T S p| ≤ 0.06 * |T' - T| + 0.103 * |S' - S| := by
    have z1 : 0 < Spec.Wright.rho T S p := by linarith
    have z2 : 0 < Spec.Wright.rho T' S' p := by linarith
    have id : p / Spec.Wright.rho T' S' p - p / Spec.Wright.rho T S p
        = -(p * (Spec.Wright.rho T' S' p - Spec.Wright.rho T S p))
          / (Spec.Wright.rho T S p * Spec.Wright.rho T' S' p) := by field_simp; ring
    rw [id, abs_div, abs_neg, abs_mul, abs_of_nonneg bp.1, abs_of_pos (mul_pos z1 z2)]
    have m : p * |Spec.Wright.rho T' S' p - Spec.Wright.rho T S p| ≤ 120000 * (0.48 * |T' - T| + 0.82 * |S' - S|) :=
      mul_le_mul bp.2 d (abs_nonneg _) (by norm_num)
    have n1 := abs_nonneg (T' - T)
    have n2 := abs_nonneg (S' - S)
    have q : (980 : ℝ) * 980 ≤ Spec.Wright.rho T S p * Spec.Wright.rho T' S' p :=
      mul_le_mul r1 r2 (by norm_num) z1.le
    refine (div_le_div₀ (by positivity) m (by norm_num) q).trans ?_
    rw [div_le_iff₀ (by norm_num)]
    linarith
  have id : -(p' / Spec.Wright.rho T' S' p' / g) - -(p / Spec.Wright.rho T S p / g)
      = -((p' / Spec.Wright.rho T' S' p' - p / Spec.Wright.rho T' S' p)
        + (p / Spec.Wright.rho T' S' p - p / Spec.Wright.rho T S p)) / g := by ring
  rw [id, abs_div, abs_neg, abs_of_pos hg]
  refine div_le_div_of_nonneg_right ((abs_add_le _ _).trans ?_) hg.le
  linarith

/-- A pressure that is off by 1 hPa and a temperature that is off by a tenth of a degree: 1.1 cm. -/
example : ∃ r r' x y, inverseBarometer (DA.scalar (fin 10)) (DA.scalar (fin 35)) (DA.scalar (fin (101325 : ℝ))) (fin 9.8)
      "Wright" = .ok r ∧
    inverseBarometer (DA.scalar (fin 10.1)) (DA.scalar (fin 35)) (DA.scalar (fin (101425 : ℝ))) (fin 9.8) "Wright" = .ok r' ∧
    r.get (fun _ => 0) = fin x ∧ r'.get (fun _ => 0) = fin y ∧ |y - x| ≤ 0.011 := by
  have hf : eosFuncFromStr "Wright" "density" = .ok (Wright.density : EosFn (Fl ℝ)) := rfl
  obtain ⟨r, k1, -⟩ := inverseBarometer_eq (tos := DA.scalar (fin 10)) (sos := DA.scalar (fin 35))
    (pso := DA.scalar (fin (101325 : ℝ))) hf (by simp [DA.scalar]) (fin 9.8)
  obtain ⟨r', k1', -⟩ := inverseBarometer_eq (tos := DA.scalar (fin 10.1)) (sos := DA.scalar (fin 35))
    (pso := DA.scalar (fin (101425 : ℝ))) hf (by simp [DA.scalar]) (fin 9.8)
  obtain ⟨x, y, h1, h2, h3⟩ := C169_barometer (e := fun _ => 0) ((pyLower_wright "Wright").1 rfl) (by simp [DA.scalar])
    (by simp [DA.scalar]) k1 k1' (by norm_num) rfl rfl rfl rfl rfl rfl (by norm_num) (by norm_num) (by norm_num)
    (by norm_num) (by norm_num) (by norm_num)
  refine ⟨r, r', x, y, k1, k1', h1, h2, h3.trans ?_⟩
  norm_num [abs_of_pos]

end Momlevel.Props
