import Mathlib.Tactic.IntervalCases
import Verif.Props.Grid
import Verif.Props.Mass
import Verif.Props.N2
import Verif.Props.Annual
import Verif.Props.TidegaugeCases
import Verif.Props.TrendCases
import Verif.Props.TrendUnits
import Verif.Props.SeasonCases
import Verif.Props.Spice
import Verif.Props.Eos
import Verif.Props.Attrs
import Verif.Props.Stability

set_option linter.unusedSectionVars false

/-!
# Concrete cases of further theorems
-/

namespace Momlevel.Props
open Momlevel Momlevel.Fl Momlevel.Spec Momlevel.Eos

/-! ## Equations of state -/

/-- 10 °C, salinity 35, 1000 dbar: C01_drho_dtemp, C01_drho_dsal, C02_wright_alpha, C02_wright_beta,
C02_linear_alpha, C02_linear_beta, C02_float_finite. -/
example : Spec.Wright.denom (10 : ℝ) 35 10000000 ≠ 0 ∧ 0 < Wright.density (10 : ℝ) 35 10000000 ∧
    0 < Linear.density (10 : ℝ) 35 10000000 ∧
    HasDerivAt (fun t : ℝ => Wright.density t 35 10000000) (Wright.drho_dtemp 10 35 10000000) 10 ∧
    HasDerivAt (fun s : ℝ => Wright.density 10 s 10000000) (Wright.drho_dsal 10 35 10000000) 35 ∧
    HasDerivAt (fun t : ℝ => Real.log (Wright.density t 35 10000000)) (-(Wright.alpha 10 35 10000000)) 10 ∧
    HasDerivAt (fun s : ℝ => Real.log (Wright.density 10 s 10000000)) (Wright.beta 10 35 10000000) 35 ∧
    HasDerivAt (fun t : ℝ => Real.log (Linear.density t 35 10000000)) (-(Linear.alpha 10 35 10000000)) 10 ∧
    HasDerivAt (fun s : ℝ => Real.log (Linear.density 10 s 10000000)) (Linear.beta 10 35 10000000) 35 ∧
    Wright.alpha (fin (10 : ℝ)) (fin 35) (fin 10000000) = fin (Wright.alpha 10 35 10000000) := by
  have h1 : Spec.Wright.denom (10 : ℝ) 35 10000000 ≠ 0 := by
    norm_num [Spec.Wright.denom, Spec.Wright.p0, Spec.Wright.lam, Spec.Wright.al0]
  have h2 : 0 < Wright.density (10 : ℝ) 35 10000000 := by
    rw [Wright.density_eq]
    norm_num [Spec.Wright.rho, Spec.Wright.denom, Spec.Wright.p0, Spec.Wright.lam, Spec.Wright.al0]
  have h3 : 0 < Linear.density (10 : ℝ) 35 10000000 := by
    rw [C02_linear_density]; norm_num
  exact ⟨h1, h2, h3, C01_drho_dtemp _ _ _ h1, C01_drho_dsal _ _ _ h1, C02_wright_alpha _ _ _ h1 h2,
    C02_wright_beta _ _ _ h1 h2, C02_linear_alpha _ _ _ h3, C02_linear_beta _ _ _ h3,
    (C02_float_finite _ _ _ h1 h2.ne' h3.ne').1⟩

/-- C03_increasing_pressure and C04_decreasing_temperature: 10 °C at 1000 and 2000 dbar; 10 and 11 °C. -/
example : Wright.density (10 : ℝ) 35 10000000 < Wright.density 10 35 20000000 ∧
    Wright.density (11 : ℝ) 35 10000000 < Wright.density 10 35 10000000 :=
  ⟨C03_increasing_pressure (by norm_num [Spec.Wright.Ocean]) (by norm_num [Spec.Wright.Ocean]) (by norm_num),
   C04_decreasing_temperature (by norm_num [Spec.Wright.Ocean]) (by norm_num [Spec.Wright.Ocean]) (by norm_num)
     (by norm_num)⟩

/-- C06_wright, C06_linear, C06_other, C06_other_valueError. -/
example : eosFuncFromStr "WRIGHT" "beta" = .ok (Wright.beta : EosFn ℝ) ∧
    eosFuncFromStr "Linear" "drho_dsal" = .ok (Linear.drho_dsal : EosFn ℝ) ∧
    (∃ err, (eosFuncFromStr "teos10" "alpha" : Except PyErr (EosFn ℝ)) = .error err) ∧
    (eosFuncFromStr "teos10" "alpha" : Except PyErr (EosFn ℝ)) = .error .valueError := by
  have h1 : ¬ CaseVariant "teos10" "wright" := by rw [← pyLower_wright]; decide
  have h2 : ¬ CaseVariant "teos10" "linear" := by rw [← pyLower_linear]; decide
  exact ⟨(C06_wright _ ((pyLower_wright _).1 (by decide))).2.2.1, (C06_linear _ ((pyLower_linear _).1 (by decide))).2.2.2.2,
    C06_other _ _ h1 h2, C06_other_valueError _ _ h1 h2 (by decide)⟩

/-! ## Rotation -/

/-- C15_odd, C15_bound at 30 degrees north and south, C16_off_equator, C16_equator. -/
example (e : Env) : (calcCoriolis (DA.scalar (fin (-30 : ℝ)))).get e = -(calcCoriolis (DA.scalar (fin 30))).get e ∧
    (∃ f, (calcCoriolis (DA.scalar (fin (30 : ℝ)))).get e = fin f ∧ |f| ≤ 2 * (2 * Real.pi / 86400)) ∧
    (∃ r : ℚ, (calcRossbyRd (DA.scalar (fin 3)) (DA.scalar (fin (-(1 / 10000))))).get e = fin r ∧ 0 < r) ∧
    (calcRossbyRd (DA.scalar (fin (3 : ℚ))) (DA.scalar (fin 0))).get e = pinf := by
  refine ⟨C15_odd _ _ e 30 rfl rfl, ?_, ?_, ?_⟩
  · obtain ⟨f, h1, h2, -⟩ := C15_bound (DA.scalar (fin (30 : ℝ))) e 30 rfl
    exact ⟨f, h1, h2⟩
  · obtain ⟨-, r, h1, -, -, h2⟩ := C16_off_equator (DA.scalar (fin (3 : ℚ))) (DA.scalar (fin (-(1 / 10000)))) e 3
      (-(1 / 10000)) rfl rfl (by norm_num)
    exact ⟨r, h1, h2 (by norm_num)⟩
  · exact (C16_equator (DA.scalar (fin (3 : ℚ))) (DA.scalar (fin 0)) e 3 rfl rfl).2.1 (by norm_num)

/-! ## Grid cell areas -/

/-- C44_value, C44_short, C44_integral, C44_region on a grid of two by two cells around the equator. -/
example : standardGridCellArea ([-5, 5].map (fin : ℝ → Fl ℝ)) ([0, 10].map fin) (fin 1) = .ok
      ([-5, 5].map (fun la => [0, 10].map (fun lo => fin (quadArea 1 (la - (5 - -5) / 2) (la + (5 - -5) / 2)
        (lo - (10 - 0) / 2) (lo + (10 - 0) / 2))))) ∧
    standardGridCellArea [fin (5 : ℝ)] ([0, 10].map fin) (fin 1) = .error .indexError ∧
    quadArea 1 (-10) 0 0 10 = ∫ _ in rad 0..rad 10, ∫ φ in rad (-10)..rad 0, (1 : ℝ) ^ 2 * Real.cos φ :=
  ⟨C44_value 1 rfl rfl rfl rfl, C44_short _ _ _ (Or.inl (by simp)),
    C44_integral (by norm_num) (by norm_num) (by norm_num) (by norm_num)⟩

/-! ## Volume and potential density -/

/-- C21_volo on a box of 2 x 2 x 2 cells, and on a two-dimensional array. -/
example : (∃ r, calcVolo (⟨[("z_l", 2), ("yh", 2), ("xh", 2)], fun _ => fin 3⟩ : DA (Fl ℚ)) = .ok r ∧
      ∀ e, r.get e = fin 24) ∧
    calcVolo (⟨[("yh", 2), ("xh", 2)], fun _ => fin 3⟩ : DA (Fl ℚ)) = .error .assertionError := by
  constructor
  · obtain ⟨r, h1, -, h2⟩ := (C21_volo (vol := (⟨[("z_l", 2), ("yh", 2), ("xh", 2)], fun _ => fin 3⟩ : DA (Fl ℚ)))
      (by simp [DA.dimNames]) (fun _ _ _ => rfl) (fun _ => by simp)).1 rfl
    refine ⟨r, h1, fun e => ?_⟩
    rw [h2]
    simp [Spec.sumOver, val0_fin]
    norm_num
  · exact (C21_volo (vol := (⟨[("yh", 2), ("xh", 2)], fun _ => fin 3⟩ : DA (Fl ℚ)))
      (by simp [DA.dimNames]) (fun _ _ _ => rfl) (fun _ => by simp)).2 (by simp)

/-- C22_value at 2000 m; C22_rejects at 8000 m and for a missing level. -/
example : (∃ r, calcPdens uTh uSo (fin 2000) (DA.scalar (fin 101325)) "linear" = .ok r ∧
      ∀ e, e "z_l" = 1 → r.get e = fin 1025) ∧
    calcPdens uTh uSo (fin 8000) (DA.scalar (fin 101325)) "linear" = .error .assertionError ∧
    calcPdens uTh uSo nan (DA.scalar (fin 101325)) "linear" = .error .assertionError := by
  refine ⟨?_, C22_rejects _ _ _ _ _ (fun l hl => Or.inr ?_), C22_rejects _ _ _ _ _ (fun l hl => by cases hl)⟩
  · obtain ⟨r, h1, -, h2⟩ := C22_value (th := uTh) (so := uSo)
      (linear_eos (eos := "linear") ((pyLower_linear _).1 rfl)) (level := 2000)
      (by norm_num) (by norm_num) (DA.scalar (fin 101325)) (by simp [DA.scalar])
    refine ⟨r, h1, fun e he => ?_⟩
    rw [h2]
    simp only [uTh, uSo, he, DA.scalar, fin_add]
    norm_num [linear_float, linRho]
  · cases hl; norm_num

/-! ## Buoyancy frequency -/

theorem exColumn (i : Nat) (hi : i < 3) : TSColumn exTh exSo (fun k => fin (exX k)) "z_l"
    (fun d => if d = "z_l" then i else 0) 3 exX (fun k => 20 - 5 * k) (fun _ => 35) := by
  refine ⟨le_rfl, ?_, rfl, by simp [exTh, DA.dimNames], by simp [exSo, DA.dimNames], rfl, rfl,
    fun k _ => by simp [exTh], fun k _ => rfl, by simpa using hi⟩
  intro a ha b hb h
  simp only [Set.mem_Iio] at ha hb
  unfold exX at h
  have h2 : (a : ℚ) * a = b * b := by linarith
  have h3 : a * a = b * b := by exact_mod_cast h2
  exact Nat.mul_self_inj.1 h3

/-- C19_formula, C19_linear and C19_linear_sign: colder water below is stable at the middle level. -/
example : ∃ r N, calcN2 exTh exSo (fun k => fin (exX k)) "linear" = .ok r ∧
    r.get (fun d => if d = "z_l" then 1 else 0) = fin N ∧ 0 < N := by
  obtain ⟨r, N, h1, h2, h3, -⟩ := C19_linear_sign (exColumn 1 (by norm_num)) (by norm_num [linRho])
  refine ⟨r, N, h1, h2, h3.2 ?_⟩
  norm_num [Spec.derivAt, Spec.stencil, Spec.parabolaDeriv, linRho, exX]

/-- C19_uniform: no stratification. -/
example : ∃ r, calcN2 exSo exSo (fun k => fin (exX k)) "linear" (fin (-(49 / 5))) (DA.scalar (fin 101325)) "z_l"
      = .ok r ∧ r.get (fun _ => 0) = fin 0 := by
  have hl : CaseVariant "linear" "linear" := (pyLower_linear _).1 rfl
  have c : TSColumn exSo exSo (fun k => fin (exX k)) "z_l" (fun _ => 0) 3 exX (fun _ => 35) (fun _ => 35) := by
    obtain ⟨a1, a2, a3, a4, a5, a6, a7, a8, a9, a10⟩ := exColumn 0 (by norm_num)
    exact ⟨a1, a2, rfl, a5, a5, rfl, rfl, fun k _ => rfl, fun k _ => rfl, by norm_num⟩
  obtain ⟨k1, k2⟩ := linear_coeffs (35 : ℚ) 35 (exX 0 * 10 ^ 4 + 101325) (by norm_num [linRho])
  exact C19_uniform c (C06_linear _ hl).2.1 (C06_linear _ hl).2.2.1 _ (DA.scalar (fin 101325)) (by simp [DA.scalar])
    101325 rfl 35 35 _ _ (fun _ => rfl) (fun _ => rfl) k1 k2

/-! ## Annual averages -/

/-- C38_bounds: the average of the months 0, 1, 3, …, 11 lies between 0 and 11.  C38_no_axis. -/
example : (∃ r, annualAverage exMonthly "time" = .ok r ∧ ∃ t : TimeAxis, r.axes = [("time", t)] ∧
      ∀ e s, t.stamps[e "time"]? = some s → r.obj.get e ≠ nan → ∃ q, r.obj.get e = fin q ∧ 0 ≤ q ∧ q ≤ 11) ∧
    annualAverage exMonthly "t" = .error .keyError := by
  refine ⟨?_, (C38_no_axis exMonthly "t").1 rfl⟩
  obtain ⟨r, hr⟩ := exMonthly_ok
  obtain ⟨ys, hp, hm, hd, ⟨t, ht, hs⟩, hv⟩ := C38_value (ax := exAxis) rfl exAxis_good exMonthly_FN hr
  refine ⟨r, hr, t, ht, fun e s he hn => ?_⟩
  obtain ⟨-, h2⟩ := C38_bounds (ax := exAxis) rfl exAxis_good exMonthly_FN hr ht he
  refine h2 0 11 (fun i hi a ha => ?_) hn
  have hi' : i < 12 := by
    have := (Finset.mem_filter.1 hi).1
    simpa [exAxis] using this
  simp only [exMonthly, Function.update_self] at ha
  split at ha
  · cases ha
  · cases ha
    refine ⟨by positivity, ?_⟩
    have : i ≤ 11 := by omega
    exact_mod_cast this

/-! ## Trends -/

/-- C51_no_dim, C51_unknown_unit, C51_missing, C51_units, C55_per, C56_order. -/
example : calcLinearTrend trA "t" none = .error .keyError ∧
    calcLinearTrend (trB "m") "time" (some "century") = .error .assertionError ∧
    linearDetrend (.array (trB "m s-1")) "time" 1 "remove" = .error .valueError ∧
    linearDetrend (.array trA) "time" 2 "remove" = .error .assertionError :=
  ⟨C51_no_dim (Or.inl (by simp [trA, DA.dimNames])), C51_unknown_unit (trB_axis "m") (by simp [Spec.Recognised]),
    C55_per (trB_axis "m s-1") rfl (by unfold Spec.mentionsPer; decide) _, C56_order (by norm_num)⟩

/-- C51_unique: the first series of `trA` (7, missing, 13 at 1, 2, 4). -/
example : ∃ s b, calcLinearTrend trA "time" none = .ok (s, b) ∧
    s.da.get (fun _ => 0) = .fin (2 * 1) ∧ b.da.get (fun _ => 0) = .fin 5 := by
  obtain ⟨s, b, hs, -⟩ := C51_least_squares trA_axis trA_off (unitScale_none _)
  refine ⟨s, b, hs, C51_unique trA_axis (unitScale_none _) hs (trA_ordinary _) (i := 0) (j := 2) (by norm_num)
    (by norm_num) (v := 7) (w := 13) (by simp [Spec.along, trA]) (by simp [Spec.along, trA])
    (by simp [Spec.position]) (fun m q => ?_)⟩
  have h : Spec.misfit 3 (Spec.position (.numeric [1, 2, 4])) (Spec.along trA "time" (fun _ => 0)) 2 5 = (0 : ℚ) := by
    simp [Spec.misfit, Spec.overValid, Spec.ifValid, Spec.along, trA, Spec.position, Finset.sum_range_succ]
    norm_num
  rw [h]
  simp only [Spec.misfit, Spec.overValid, Spec.ifValid, Spec.along, trA, Spec.position, Finset.sum_range_succ]
  simp
  positivity

/-- C53_no_slope and C53_epoch. -/
example : ∃ s b yc s' b', calcLinearTrend trA "time" none = .ok (s, b) ∧
    linearDetrend (.array trA) "time" 1 "correct" = .ok (.array yc) ∧
    calcLinearTrend yc "time" none = .ok (s', b') ∧ s'.da.get (fun _ => 0) = .fin 0 := by
  obtain ⟨s, b, hs, -⟩ := C51_least_squares trA_axis trA_off (unitScale_none _)
  obtain ⟨yc, hyc, -⟩ := C53_counterexample
  obtain ⟨s', b', h1, h2⟩ := C53_no_slope trA_axis trA_increasing trA_plain hs hyc
  exact ⟨s, b, yc, s', b', hs, hyc, h1, (h2 _ (trA_ordinary _) 0 2 (by norm_num) (by norm_num)
    (by simp [Spec.along, trA]) (by simp [Spec.along, trA]) (by simp [Spec.position])).1⟩

/-- C50_self, C50_inverse, C50_chain for a month of 30 and a year of 365 days. -/
example : timeConversionFactor "yr" "yr" (.fin (30 : ℚ)) (.fin 365) = .ok (.fin 1) ∧
    (∃ f g : ℚ, timeConversionFactor "yr" "day" (.fin 30) (.fin 365) = .ok (.fin f) ∧
      timeConversionFactor "day" "yr" (.fin 30) (.fin 365) = .ok (.fin g) ∧ f * g = 1) ∧
    ∃ f g : ℚ, timeConversionFactor "yr" "day" (.fin 30) (.fin 365) = .ok (.fin f) ∧
      timeConversionFactor "day" "s" (.fin 30) (.fin 365) = .ok (.fin g) ∧
      timeConversionFactor "yr" "s" (.fin 30) (.fin 365) = .ok (.fin (f * g)) :=
  ⟨C50_self (by norm_num) (by norm_num) (by simp [Spec.Recognised]),
    C50_inverse (by norm_num) (by norm_num) (by simp [Spec.Recognised]) (by simp [Spec.Recognised]),
    C50_chain (by norm_num) (by norm_num) (by simp [Spec.Recognised]) (by simp [Spec.Recognised])
      (by simp [Spec.Recognised])⟩

/-! ## Seasonal fits -/

/-- C58_fit, C59_effect, C58_no_dim, C69_fails, C71_fails on two points and on a single series. -/
example : (∃ m dm z, deseason seaA "time" "model" = .ok m ∧ m.values = .ok dm ∧
      m.argAttrs.lookup "standard_name" = none ∧
      Spec.IsFit (Spec.sampleYears seaAxis 3) (fun k : Fin 3 => ((k : Nat) : ℝ) * ((1 : Nat) : ℝ) + 1) z ∧
      Spec.SeriesIs dm (fun _ => 1) z) ∧
    deseason seaA "t" "model" = .error .assertionError ∧ (∃ er, deseason seaT "t" "model" = .error er) ∧
    deseason seaC "time" "coeff" = .error .typeError := by
  refine ⟨?_, C58_no_dim _ _ _ (by simp [seaA, DA.dimNames]), C69_fails _ _ (by decide) (by simp [seaT, DA.dimNames]),
    (C71_fails seaC_time rfl).1 rfl⟩
  obtain ⟨m, r, dm, dr, h1, h2, h3, h4, -, -, h5⟩ := C58_fit seaA_time seaA_covered
  obtain ⟨z, z1, z2, -⟩ := h5 _ _ (seaA_series 1)
  exact ⟨m, dm, z, h1, h3, (C59_effect h1).2.1, z1, z2⟩

/-! ## Tide gauges -/

/-- C48_names and C48_wet: the gauge is found, at a cell of the grid. -/
example (T : BallTree) {out : List (String × DA (Fl ℝ))}
    (h : extractTidegauge T (fun _ => some tgGauges) (.da tgArr) = .ok out) :
    ∃ s e, ("G", s) ∈ out ∧ tgX.InBounds e ∧ s = Spec.seriesAt tgArr.da ["yh", "xh"] e := by
  obtain ⟨g, hg, hr⟩ := C48_value (thr := none) (Denotes.name _ _ rfl : Denotes tgArr (.name "geolon") "geolon" ⟨tgX, tgLabel⟩)
    (Denotes.name _ _ rfl : Denotes tgArr (.name "geolat") "geolat" ⟨tgY, tgLabel⟩) (by simp) (by simp) (by simp) (by simp [tgX])
    tgSame (by simp) h
  cases Option.some.inj hg
  obtain ⟨cell, hc, hn⟩ := C48_names hr
  obtain ⟨c, cs, hc1, hc2, rfl⟩ := List.forall₂_cons_left_iff.1 hc
  have : "G" ∈ out.map Prod.fst := (hn "G").2 ⟨_, List.mem_cons_self, rfl, rfl⟩
  obtain ⟨⟨n, s⟩, hs, rfl⟩ := List.mem_map.1 this
  obtain ⟨e, e1, -, e3⟩ := C48_wet hr hs
  exact ⟨s, e, hs, e1, e3⟩

/-! ## Spiciness -/

/-- C07_numpy and C07_shape_mismatch. -/
example : (∃ r, Spice.spice (.arr ⟨[2], [fin (10 : ℝ), nan]⟩) (.arr ⟨[2], [fin 35, fin 35]⟩) = .ok r ∧
      r.data[0]? = some (fin (Spec.Flament.poly 10 35)) ∧ r.data[1]? = some nan) ∧
    Spice.spice (.arr ⟨[2], [fin (10 : ℝ), nan]⟩) (.arr ⟨[1], [fin 35]⟩) = .error .assertionError := by
  constructor
  · obtain ⟨r, h1, -, -, h4⟩ := C07_numpy ⟨[2], [fin (10 : ℝ), nan]⟩ ⟨[2], [fin 35, fin 35]⟩ (by simp [NArr.WF])
      (by simp [NArr.WF]) rfl
    exact ⟨r, h1, (h4 0 _ _ rfl rfl).1 10 35 rfl rfl, (h4 1 _ _ rfl rfl).2 (Or.inl rfl)⟩
  · exact C07_shape_mismatch _ _ (by simp)

end Momlevel.Props
