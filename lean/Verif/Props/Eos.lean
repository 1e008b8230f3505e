import Verif.Lemmas.Wright
import Mathlib.Analysis.SpecialFunctions.Log.Deriv
import Mathlib.Analysis.Calculus.Deriv.MeanValue

/-! # C01–C06, C65: equations of state -/

namespace Momlevel.Props
open Momlevel Momlevel.Eos Momlevel.Fl

/-! ## C01 -/

/-- `eos.wright.density` is the published formula at every real point. -/
theorem C01_density_formula (T S p : ℝ) : Wright.density T S p = Spec.Wright.rho T S p :=
  Wright.density_eq T S p

/-- `drho_dtemp` is exactly `∂density/∂T` wherever the denominator is not zero. -/
theorem C01_drho_dtemp (T S p : ℝ) (h : Spec.Wright.denom T S p ≠ 0) :
    HasDerivAt (fun t => Wright.density t S p) (Wright.drho_dtemp T S p) T := by
  simp only [Wright.density_eq]
  exact Wright.hasDerivAt_rho_T T S p h

/-- `drho_dsal` is exactly `∂density/∂S` wherever the denominator is not zero. -/
theorem C01_drho_dsal (T S p : ℝ) (h : Spec.Wright.denom T S p ≠ 0) :
    HasDerivAt (fun s => Wright.density T s p) (Wright.drho_dsal T S p) S := by
  simp only [Wright.density_eq]
  exact Wright.hasDerivAt_rho_S T S p h

/-- The float functions (with NaN and infinities) agree with the real ones on finite arguments
with non-zero denominator: nothing becomes infinite or missing. -/
theorem C01_float_finite (T S p : ℝ) (h : Spec.Wright.denom T S p ≠ 0) :
    Wright.density (fin T) (fin S) (fin p) = fin (Spec.Wright.rho T S p)
    ∧ Wright.drho_dtemp (fin T) (fin S) (fin p)
        = fin (deriv (fun t => Spec.Wright.rho t S p) T)
    ∧ Wright.drho_dsal (fin T) (fin S) (fin p)
        = fin (deriv (fun s => Spec.Wright.rho T s p) S) := by
  have h' : (Wright.C0 + Wright.C4 * S + T * (Wright.C1 + T * (Wright.C2 + Wright.C3 * T)
      + Wright.C5 * S)) + (Wright.A0 + Wright.A1 * T + Wright.A2 * S) * (p + (Wright.B0
      + Wright.B4 * S + T * (Wright.B1 + T * (Wright.B2 + Wright.B3 * T) + Wright.B5 * S))) ≠ 0 := by
    rw [Wright.lam_eq, Wright.al0_eq, Wright.p0_eq]; exact h
  rw [(Wright.hasDerivAt_rho_T T S p h).deriv, (Wright.hasDerivAt_rho_S T S p h).deriv,
    ← Wright.density_eq]
  simp only [Wright.A0, Wright.A1, Wright.A2, Wright.B0, Wright.B1, Wright.B2, Wright.B3, Wright.B4,
    Wright.B5, Wright.C0, Wright.C1, Wright.C2, Wright.C3, Wright.C4, Wright.C5] at h'
  unfold Wright.density Wright.drho_dtemp Wright.drho_dsal
  simp only [Wright.A0, Wright.A1, Wright.A2, Wright.B0, Wright.B1, Wright.B2, Wright.B3, Wright.B4,
    Wright.B5, Wright.C0, Wright.C1, Wright.C2, Wright.C3, Wright.C4, Wright.C5, ofSci, fin_add,
    fin_mul, fin_sub, fin_neg, fin_div_of_ne _ h', and_self]

/-- A missing argument gives a missing result. -/
theorem C01_float_nan (x y : Fl ℝ) :
    Wright.density nan x y = nan ∧ Wright.density x nan y = nan ∧ Wright.density x y nan = nan
    ∧ Wright.drho_dtemp nan x y = nan ∧ Wright.drho_dtemp x nan y = nan
    ∧ Wright.drho_dtemp x y nan = nan
    ∧ Wright.drho_dsal nan x y = nan ∧ Wright.drho_dsal x nan y = nan
    ∧ Wright.drho_dsal x y nan = nan := by
  unfold Wright.density Wright.drho_dtemp Wright.drho_dsal
  simp

/-- Non-vacuity: a typical ocean point has a non-zero denominator. -/
example : Spec.Wright.denom 10 35 2e7 ≠ 0 :=
  (Wright.denom_pos (by unfold Spec.Wright.Ocean; norm_num)).ne'

/-! ## C02 -/

/-- Wright: `alpha` is minus the temperature derivative of log density. -/
theorem C02_wright_alpha (T S p : ℝ) (h : Spec.Wright.denom T S p ≠ 0)
    (hρ : 0 < Wright.density T S p) :
    HasDerivAt (fun t => Real.log (Wright.density t S p)) (-(Wright.alpha T S p)) T := by
  refine ((C01_drho_dtemp T S p h).log hρ.ne').congr_deriv ?_
  unfold Wright.alpha; norm_num

/-- Wright: `beta` is the salinity derivative of log density. -/
theorem C02_wright_beta (T S p : ℝ) (h : Spec.Wright.denom T S p ≠ 0)
    (hρ : 0 < Wright.density T S p) :
    HasDerivAt (fun s => Real.log (Wright.density T s p)) (Wright.beta T S p) S :=
  (C01_drho_dsal T S p h).log hρ.ne'

/-- Linear: density is `1000 - 0.2 T + 0.8 S`. -/
theorem C02_linear_density (T S p : ℝ) :
    Linear.density T S p = 1000 - T / 5 + 4 / 5 * S := by
  unfold Linear.density Linear.RHO_T0_S0 Linear.DRHO_DT Linear.DRHO_DS
  norm_num; ring

/-- Linear, floating point arguments: `alpha` is minus the temperature derivative of log density. -/
theorem C02_linear_alpha (T S p : ℝ) (hρ : 0 < Linear.density T S p) :
    HasDerivAt (fun t => Real.log (Linear.density t S p)) (-(Linear.alpha T S p)) T := by
  have h : HasDerivAt (fun t => Linear.density t S p) (-(1 / 5)) T := by
    simp only [C02_linear_density]
    exact ((((hasDerivAt_id T).div_const 5).const_sub 1000).add_const _).congr_deriv (by norm_num)
  refine (h.log hρ.ne').congr_deriv ?_
  unfold Linear.alpha Linear.fullLike Linear.DRHO_DT; norm_num

/-- Linear, floating point arguments: `beta` is the salinity derivative of log density. -/
theorem C02_linear_beta (T S p : ℝ) (hρ : 0 < Linear.density T S p) :
    HasDerivAt (fun s => Real.log (Linear.density T s p)) (Linear.beta T S p) S := by
  have h : HasDerivAt (fun s => Linear.density T s p) (4 / 5) S := by
    simp only [C02_linear_density]
    exact (((hasDerivAt_id S).const_mul (4 / 5)).const_add _).congr_deriv (by norm_num)
  refine (h.log hρ.ne').congr_deriv ?_
  unfold Linear.beta Linear.fullLike Linear.DRHO_DS; norm_num

/-- The float versions of `alpha` and `beta` agree with the real ones on finite arguments. -/
theorem C02_float_finite (T S p : ℝ) (h : Spec.Wright.denom T S p ≠ 0)
    (hρ : Wright.density T S p ≠ 0) (hl : Linear.density T S p ≠ 0) :
    Wright.alpha (fin T) (fin S) (fin p) = fin (Wright.alpha T S p)
    ∧ Wright.beta (fin T) (fin S) (fin p) = fin (Wright.beta T S p)
    ∧ Linear.alpha (fin T) (fin S) (fin p) = fin (Linear.alpha T S p)
    ∧ Linear.beta (fin T) (fin S) (fin p) = fin (Linear.beta T S p) := by
  obtain ⟨h1, h2, h3⟩ := C01_float_finite T S p h
  rw [(Wright.hasDerivAt_rho_T T S p h).deriv] at h2
  rw [(Wright.hasDerivAt_rho_S T S p h).deriv] at h3
  rw [← Wright.density_eq] at h1
  have h4 : Linear.density (fin T) (fin S) (fin p) = fin (Linear.density T S p) := rfl
  unfold Wright.alpha Wright.beta Linear.alpha Linear.beta
  rw [h1, h2, h3, h4, fin_div_of_ne _ hρ, fin_div_of_ne _ hρ]
  refine ⟨rfl, rfl, ?_, ?_⟩
  · simp only [Linear.fullLike, Linear.DRHO_DT, ofSci, fin_neg, fin_div_of_ne _ hl, fin_mul]
  · simp only [Linear.fullLike, Linear.DRHO_DS, ofSci, fin_div_of_ne _ hl]

/-! ## C03 -/

/-- Positive denominator and density on the oceanographic range. -/
theorem C03_pos {T S p : ℝ} (h : Spec.Wright.Ocean T S p) :
    0 < Spec.Wright.denom T S p ∧ 0 < Wright.density T S p := by
  have hd := Wright.denom_pos h
  refine ⟨hd, ?_⟩
  obtain ⟨h1, h2, h3, h4, h5, _⟩ := h
  have b := Wright.p0_pos h1 h2 h3 h4
  rw [Wright.density_eq]
  exact div_pos (by linarith) hd

/-- Density strictly increases with pressure on the oceanographic range. -/
theorem C03_increasing_pressure {T S p q : ℝ} (hp : Spec.Wright.Ocean T S p)
    (hq : Spec.Wright.Ocean T S q) (hpq : p < q) :
    Wright.density T S p < Wright.density T S q := by
  have dp := Wright.denom_pos hp
  have dq := Wright.denom_pos hq
  obtain ⟨h1, h2, h3, h4, _, _⟩ := hp
  have c := Wright.lam_pos h1 h2 h3 h4
  rw [Wright.density_eq, Wright.density_eq]
  unfold Spec.Wright.rho
  rw [div_lt_div_iff₀ dp dq]
  unfold Spec.Wright.denom
  nlinarith

/-- Density strictly increases with salinity on the oceanographic range. -/
theorem C03_increasing_salinity {T S S' p : ℝ} (h : Spec.Wright.Ocean T S p)
    (h' : Spec.Wright.Ocean T S' p) (hS : S < S') :
    Wright.density T S p < Wright.density T S' p := by
  have key : ∀ s ∈ Set.Icc S S', Spec.Wright.Ocean T s p := by
    intro s hs
    obtain ⟨h1, h2, h3, h4, h5, h6⟩ := h
    obtain ⟨_, _, _, h4', _, _⟩ := h'
    exact ⟨h1, h2, h3.trans hs.1, hs.2.trans h4', h5, h6⟩
  have hm : StrictMonoOn (fun s => Wright.density T s p) (Set.Icc S S') := by
    refine strictMonoOn_of_deriv_pos (convex_Icc S S') ?_ ?_
    · intro s hs
      exact (C01_drho_dsal T s p (Wright.denom_pos (key s hs)).ne').continuousAt.continuousWithinAt
    · intro s hs
      have hs' := key s (interior_subset hs)
      rw [(C01_drho_dsal T s p (Wright.denom_pos hs').ne').deriv]
      exact Wright.drho_dsal_pos hs'
  exact hm (Set.left_mem_Icc.2 hS.le) (Set.right_mem_Icc.2 hS.le) hS

/-- Haline contraction is positive on the oceanographic range. -/
theorem C03_beta_pos {T S p : ℝ} (h : Spec.Wright.Ocean T S p) : 0 < Wright.beta T S p :=
  div_pos (Wright.drho_dsal_pos h) (C03_pos h).2

example : Spec.Wright.Ocean 15 35 0 ∧ Spec.Wright.Ocean (-2) 0 0
    ∧ Spec.Wright.Ocean 40 42 100000000 := by
  unfold Spec.Wright.Ocean; norm_num

/-! ## C04 -/

/-- Above the line `T = 4.5 - 0.23 S` (all sea water with `S ≥ 28.3`, all water above 4.5 °C)
warming strictly lowers the density at every pressure of the range. -/
theorem C04_decreasing_temperature {T T' S p : ℝ} (h : Spec.Wright.Ocean T S p)
    (h' : Spec.Wright.Ocean T' S p) (hl : 4.5 - 0.23 * S ≤ T) (hT : T < T') :
    Wright.density T' S p < Wright.density T S p := by
  have key : ∀ t ∈ Set.Icc T T', Spec.Wright.Ocean t S p := by
    intro s hs
    obtain ⟨h1, h2, h3, h4, h5, h6⟩ := h
    obtain ⟨_, h2', _, _, _, _⟩ := h'
    exact ⟨h1.trans hs.1, hs.2.trans h2', h3, h4, h5, h6⟩
  have hm : StrictAntiOn (fun t => Wright.density t S p) (Set.Icc T T') := by
    refine strictAntiOn_of_deriv_neg (convex_Icc T T') ?_ ?_
    · intro s hs
      exact (C01_drho_dtemp s S p (Wright.denom_pos (key s hs)).ne').continuousAt.continuousWithinAt
    · intro s hs
      have hs' := interior_subset hs
      rw [(C01_drho_dtemp s S p (Wright.denom_pos (key s hs')).ne').deriv]
      exact Wright.drho_dtemp_neg (key s hs') (hl.trans hs'.1)
  exact hm (Set.left_mem_Icc.2 hT.le) (Set.right_mem_Icc.2 hT.le) hT

/-- Thermal expansion is positive there. -/
theorem C04_alpha_pos {T S p : ℝ} (h : Spec.Wright.Ocean T S p) (hl : 4.5 - 0.23 * S ≤ T) :
    0 < Wright.alpha T S p := by
  have h1 := Wright.drho_dtemp_neg h hl
  have h2 := (C03_pos h).2
  have := div_neg_of_neg_of_pos h1 h2
  unfold Wright.alpha
  norm_num; linarith

/-- The restriction is needed: fresh water at 0 °C contracts when warmed. -/
theorem C04_fresh_water_counterexample :
    Spec.Wright.Ocean 0 0 0 ∧ Wright.alpha (0 : ℝ) 0 0 < 0 := by
  refine ⟨by unfold Spec.Wright.Ocean; norm_num, ?_⟩
  unfold Wright.alpha Wright.drho_dtemp Wright.density
  simp only [Wright.A0, Wright.A1, Wright.A2, Wright.B0, Wright.B1, Wright.B2, Wright.B3, Wright.B4,
    Wright.B5, Wright.C0, Wright.C1, Wright.C2, Wright.C3, Wright.C4, Wright.C5]
  norm_num

/-- All water with salinity at least 28.3 is covered at every temperature of the range. -/
example {T S p : ℝ} (h : Spec.Wright.Ocean T S p) (hS : 28.3 ≤ S) : 0 < Wright.alpha T S p :=
  C04_alpha_pos h (by norm_num at hS ⊢; linarith [h.1])

example : Spec.Wright.Ocean (-1.8) 34 1e7 ∧ (4.5 - 0.23 * 34 : ℝ) ≤ -1.8 := by
  unfold Spec.Wright.Ocean; norm_num

/-! ## C05 -/

/-- Linear density ignores pressure (any number type). -/
theorem C05_pressure_independent {α : Type*} [Add α] [Sub α] [Mul α] [Div α] [Neg α]
    [OfScientific α] (T S p q : α) (r : Option α) :
    Linear.density T S p r = Linear.density T S q r := rfl

/-- Finite differences of linear density are exactly the returned derivatives times the
increments, jointly in temperature and salinity. -/
theorem C05_affine (T S p dT dS : ℝ) (r : Option ℝ) :
    Linear.density (T + dT) (S + dS) p r - Linear.density T S p r
      = Linear.drho_dtemp T S p * dT + Linear.drho_dsal T S p * dS := by
  unfold Linear.density Linear.drho_dtemp Linear.drho_dsal
  cases r <;> ring

/-- The constants: `-0.2` and `0.8`, and `1000` at `T = S = 0`. -/
theorem C05_constants (T S p : ℝ) :
    Linear.density 0 0 p = (1000 : ℝ) ∧ Linear.drho_dtemp T S p = -(1 / 5)
      ∧ Linear.drho_dsal T S p = 4 / 5 := by
  unfold Linear.density Linear.drho_dtemp Linear.drho_dsal Linear.RHO_T0_S0 Linear.DRHO_DT
    Linear.DRHO_DS
  norm_num

/-- Supplying `rho_ref` subtracts exactly that number. -/
theorem C05_rho_ref (T S p r : ℝ) :
    Linear.density T S p (some r) = Linear.density T S p - r := by
  unfold Linear.density; simp only; ring

/-! ## C06 -/

/-- `s` equals `name` up to the case of ASCII letters. -/
def CaseVariant (s name : String) : Prop :=
  List.Forall₂ (fun c d : Char => c = d ∨ c = d.toUpper) s.toList name.toList

theorem pyLower_eq_iff_aux (l : List Char) (name : List Char)
    (h : ∀ d ∈ name, 97 ≤ d.toNat ∧ d.toNat ≤ 122 ∧ d ≠ 'k' ∧ d.toUpper.toNat + 32 = d.toNat) :
    l.map pyLowerChar = name ↔
      List.Forall₂ (fun c d : Char => c = d ∨ c = d.toUpper) l name := by
  induction name generalizing l with
  | nil => cases l <;> simp
  | cons d ds ih =>
    cases l with
    | nil => simp
    | cons c cs =>
      obtain ⟨h1, h2, h3, h4⟩ := h d (by simp)
      have e : c.toNat + 32 = d.toNat ↔ c = d.toUpper :=
        ⟨fun e => char_toNat_inj (by omega), fun e => by rw [e, h4]⟩
      simp only [List.map_cons, List.cons.injEq, List.forall₂_cons,
        pyLowerChar_eq_iff h1 h2 h3, ih cs (fun x hx => h x (by simp [hx])), e]

theorem pyLower_wright (s : String) : pyLower s = "wright".toList ↔ CaseVariant s "wright" :=
  pyLower_eq_iff_aux _ _ (by decide)

theorem pyLower_linear (s : String) : pyLower s = "linear".toList ↔ CaseVariant s "linear" :=
  pyLower_eq_iff_aux _ _ (by decide)

section
variable {α : Type} [Add α] [Sub α] [Mul α] [Div α] [Neg α] [OfScientific α]

/-- Any spelling of "wright" selects the Wright functions. -/
theorem C06_wright (s : String) (h : CaseVariant s "wright") :
    eosFuncFromStr s = .ok (Wright.density : EosFn α)
    ∧ eosFuncFromStr s "alpha" = .ok (Wright.alpha : EosFn α)
    ∧ eosFuncFromStr s "beta" = .ok (Wright.beta : EosFn α)
    ∧ eosFuncFromStr s "drho_dtemp" = .ok (Wright.drho_dtemp : EosFn α)
    ∧ eosFuncFromStr s "drho_dsal" = .ok (Wright.drho_dsal : EosFn α) := by
  have := (pyLower_wright s).2 h
  simp [eosFuncFromStr, this, wrightFn]

/-- Any spelling of "linear" selects the linear functions. -/
theorem C06_linear (s : String) (h : CaseVariant s "linear") :
    eosFuncFromStr s = .ok (fun T S p => Linear.density T S p : EosFn α)
    ∧ eosFuncFromStr s "alpha" = .ok (fun T S p => Linear.alpha T S p : EosFn α)
    ∧ eosFuncFromStr s "beta" = .ok (fun T S p => Linear.beta T S p : EosFn α)
    ∧ eosFuncFromStr s "drho_dtemp" = .ok (Linear.drho_dtemp : EosFn α)
    ∧ eosFuncFromStr s "drho_dsal" = .ok (Linear.drho_dsal : EosFn α) := by
  have := (pyLower_linear s).2 h
  simp [eosFuncFromStr, this, linearFn]

/-- Every other string raises, whatever function is asked for. -/
theorem C06_other (s f : String) (hw : ¬ CaseVariant s "wright") (hl : ¬ CaseVariant s "linear") :
    ∃ err, (eosFuncFromStr s f : Except PyErr (EosFn α)) = .error err := by
  rw [← pyLower_wright] at hw
  rw [← pyLower_linear] at hl
  unfold eosFuncFromStr
  simp only [hw, hl, if_false]
  split
  · exact ⟨_, rfl⟩
  · split <;> exact ⟨_, rfl⟩

/-- ... and it is the documented ValueError, unless the lower-cased string is the name of one of
the package's own dunder attributes (then AttributeError or KeyError leaks out). -/
theorem C06_other_valueError (s f : String) (hw : ¬ CaseVariant s "wright")
    (hl : ¬ CaseVariant s "linear") (hd : s.toList.head? ≠ some '_') :
    (eosFuncFromStr s f : Except PyErr (EosFn α)) = .error .valueError := by
  rw [← pyLower_wright] at hw
  rw [← pyLower_linear] at hl
  have hh : (pyLower s).head? ≠ some '_' := by
    unfold pyLower
    cases hs : s.toList with
    | nil => simp
    | cons c cs =>
      rw [hs] at hd
      simp only [List.head?_cons, ne_eq, Option.some.injEq] at hd
      simp only [List.map_cons, List.head?_cons, ne_eq, Option.some.injEq]
      unfold pyLowerChar
      split
      · rename_i h
        intro e
        have := congrArg Char.toNat e
        rw [toNat_ofNat_small (by omega)] at this
        have h95 : ('_' : Char).toNat = 95 := by decide
        omega
      · split
        · decide
        · exact hd
  unfold eosFuncFromStr
  simp only [hw, hl, if_false]
  rw [if_neg, if_neg]
  · intro h; simp only [dunderDict, List.map_cons, List.map_nil, List.mem_cons, List.not_mem_nil,
      or_false] at h
    rcases h with h | h <;> rw [h] at hh <;> exact hh (by decide)
  · intro h; simp only [dunderNoDict, List.map_cons, List.map_nil, List.mem_cons, List.not_mem_nil,
      or_false] at h
    rcases h with h | h | h | h | h | h | h <;> rw [h] at hh <;> exact hh (by decide)

end

/-- The two families really differ, so "selects" is not vacuous. -/
theorem C06_distinct : (fun T S p => Linear.density T S p : EosFn ℝ) ≠ Wright.density := by
  intro h
  have := congrFun (congrFun (congrFun h 0) 0) 0
  unfold Linear.density Wright.density at this
  simp only [Linear.RHO_T0_S0, Linear.DRHO_DS, Linear.DRHO_DT, Wright.A0, Wright.A1, Wright.A2,
    Wright.B0, Wright.B1, Wright.B2, Wright.B3, Wright.B4,
    Wright.B5, Wright.C0, Wright.C1, Wright.C2, Wright.C3, Wright.C4, Wright.C5] at this
  norm_num at this

/-- The leak: a dunder name raises AttributeError instead of ValueError. -/
theorem C06_dunder_leak :
    (eosFuncFromStr "__NAME__" : Except PyErr (EosFn ℝ)) = .error .attributeError := by
  unfold eosFuncFromStr
  rw [if_neg (by decide), if_neg (by decide), if_pos (by decide)]

example : CaseVariant "WrigHT" "wright" ∧ ¬ CaseVariant "teos10" "wright"
    ∧ ¬ CaseVariant "wright " "wright" := by
  refine ⟨?_, ?_, ?_⟩
  · unfold CaseVariant; decide
  · rw [← pyLower_wright]; decide
  · rw [← pyLower_wright]; decide

/-! ## C65 -/

/-- Integer arguments silence the linear coefficients: `np.full_like` keeps the integer dtype, so
`alpha` and `beta` are exactly zero although density does depend on temperature and salinity. -/
theorem C65_integer_dtype_zero (T S p : ℝ) :
    Linear.alpha T S p .int = 0 ∧ Linear.beta T S p .int = 0 := by
  unfold Linear.alpha Linear.beta Linear.fullLike
  norm_num

/-- The claim "alpha is the log-derivative whatever the dtype" is therefore false. -/
theorem C65_integer_dtype_wrong :
    ¬ HasDerivAt (fun t => Real.log (Linear.density t 35 0)) (-(Linear.alpha (10 : ℝ) 35 0 .int)) 10 := by
  intro h
  have hp : 0 < Linear.density (10 : ℝ) 35 0 := by rw [C02_linear_density]; norm_num
  have := h.unique (C02_linear_alpha 10 35 0 hp)
  rw [(C65_integer_dtype_zero 10 35 0).1] at this
  unfold Linear.alpha Linear.fullLike Linear.DRHO_DT at this
  rw [C02_linear_density] at this
  norm_num at this

/-- `C05_pressure_independent`, `C05_constants`: 10 degrees, salinity 35, at the surface and at 2e7 Pa. -/
example : Linear.density (10 : ℝ) 35 2e7 = 1026 ∧ Linear.density (10 : ℝ) 35 0 = 1026 := by
  constructor <;> (unfold Linear.density Linear.RHO_T0_S0 Linear.DRHO_DT Linear.DRHO_DS; norm_num)

/-- `C05_affine`: two degrees and half a salinity unit together change nothing. -/
example : Linear.density ((10 : ℝ) + 2) (35 + 1 / 2) 0 - Linear.density (10 : ℝ) 35 0 = 0 := by
  rw [C05_affine, (C05_constants _ _ _).2.1, (C05_constants _ _ _).2.2]; norm_num

/-- `C05_rho_ref`. -/
example : Linear.density (10 : ℝ) 35 0 (some 1000) = 26 := by
  rw [C05_rho_ref]
  unfold Linear.density Linear.RHO_T0_S0 Linear.DRHO_DT Linear.DRHO_DS; norm_num

/-- `C65_integer_dtype_zero`: with floating point numbers the coefficient is not zero. -/
example : Linear.alpha (10 : ℝ) 35 0 .int = 0 ∧ Linear.alpha (10 : ℝ) 35 0 ≠ 0 := by
  refine ⟨(C65_integer_dtype_zero _ _ _).1, ?_⟩
  unfold Linear.alpha Linear.fullLike Linear.density
  norm_num [Linear.RHO_T0_S0, Linear.DRHO_DT, Linear.DRHO_DS]

end Momlevel.Props
