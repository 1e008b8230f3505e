import Verif.Props.SeasonOrigin

/-!
# `deseason` and the sampling of an annual cycle (C113)
-/

set_option linter.unusedSectionVars false

namespace Momlevel.Props
open Momlevel

/-- A cosine that vanishes at two successive samples has amplitude zero. -/
theorem amplitude_zero {θ A φ : ℝ} (hθ : Real.sin θ ≠ 0) (h3 : A * Real.cos (θ * (3 : Nat) + φ) = 0)
    (h4 : A * Real.cos (θ * (4 : Nat) + φ) = 0) : A = 0 := by
  by_contra hA
  have c3 := (mul_eq_zero.1 h3).resolve_left hA
  have c4 := (mul_eq_zero.1 h4).resolve_left hA
  rw [show θ * ((4 : Nat) : ℝ) + φ = (θ * ((3 : Nat) : ℝ) + φ) + θ by push_cast; ring,
    Real.cos_add, c3] at c4
  have s3 : Real.sin (θ * ((3 : Nat) : ℝ) + φ) = 0 := by
    have : Real.sin (θ * ((3 : Nat) : ℝ) + φ) * Real.sin θ = 0 := by linarith
    exact (mul_eq_zero.1 this).resolve_right hθ
  have := Real.sin_sq_add_cos_sq (θ * ((3 : Nat) : ℝ) + φ)
  rw [s3, c3] at this
  norm_num at this

/-- An annual cycle with `p` samples per year is a combination of the regressors at times `k / d` if
and only if `p` is `d` or half of it. -/
theorem cycle_combination {n d : Nat} (hn : 8 ≤ n) (hd : d = 365 ∨ d = 366) {p A φ : ℝ} (hp : 2 < p)
    (hA : A ≠ 0) :
    (∃ a : Fin 6 → ℝ, ∀ k : Fin n, A * Real.cos (2 * Real.pi / p * ((k : Nat) : ℝ) + φ) =
        ∑ j, a j * Spec.regressor (fun k : Fin n => ((k : Nat) : ℝ) / d) k j) ↔
      p = d ∨ 2 * p = d := by
  have hpi := Real.pi_pos
  have hd0 : (0 : ℝ) < d := by rcases hd with rfl | rfl <;> norm_num
  have hd4 : (4 : ℝ) ≤ d := by rcases hd with rfl | rfl <;> norm_num
  have hp0 : 0 < p := by linarith
  have hθ0 : 0 < 2 * Real.pi / p := by positivity
  have hθπ : 2 * Real.pi / p < Real.pi := by
    rw [div_lt_iff₀ hp0]
    nlinarith
  have h2d : 2 * Real.pi / d ≤ Real.pi := by
    rw [div_le_iff₀ hd0]
    nlinarith
  have h4d : 4 * Real.pi / d ≤ Real.pi := by
    rw [div_le_iff₀ hd0]
    nlinarith
  constructor
  · rintro ⟨a, ha⟩
    by_contra hcon
    push Not at hcon
    obtain ⟨h3, h4⟩ := combination_angle hn (osc_cos (2 * Real.pi / p) A φ) a ha
      (by
        rw [← Real.cos_zero]
        exact cos_ne hθ0.le hθπ.le le_rfl hpi.le hθ0.ne')
      (cos_ne hθ0.le hθπ.le (by positivity) h2d (by
        intro h
        apply hcon.1
        rw [div_eq_div_iff hp0.ne' hd0.ne'] at h
        exact (mul_left_cancel₀ (by positivity) h).symm))
      (cos_ne hθ0.le hθπ.le (by positivity) h4d (by
        intro h
        apply hcon.2
        rw [div_eq_div_iff hp0.ne' hd0.ne'] at h
        have : 2 * Real.pi * (d : ℝ) = 2 * Real.pi * (2 * p) := by linarith
        exact (mul_left_cancel₀ (by positivity) this).symm))
    exact hA (amplitude_zero (Real.sin_pos_of_pos_of_lt_pi hθ0 hθπ).ne' h3 h4)
  · rintro (h | h)
    · refine ⟨![0, 0, -(A * Real.sin φ), A * Real.cos φ, 0, 0], fun k => ?_⟩
      rw [regressor_sum]
      simp only [Matrix.cons_val]
      rw [Real.cos_add, h, show 2 * Real.pi * (((k : Nat) : ℝ) / d) =
        2 * Real.pi / d * ((k : Nat) : ℝ) by ring]
      ring
    · refine ⟨![0, 0, 0, 0, -(A * Real.sin φ), A * Real.cos φ], fun k => ?_⟩
      rw [regressor_sum]
      simp only [Matrix.cons_val]
      have hp2 : p = d / 2 := by linarith
      rw [Real.cos_add, hp2, show 4 * Real.pi * (((k : Nat) : ℝ) / d) =
        2 * Real.pi / (d / 2) * ((k : Nat) : ℝ) by field_simp; ring]
      ring

/-- The exact condition for C113: for series of at least eight samples in years of one length `d`, an
annual cycle with `p` samples per year (more than two) is removed by `deseason` if and only if `p` is
the number of days of the year, or half of it (where it is taken for the semi-annual cycle). -/
theorem C113_iff {x : SeasonArray} {ax : TimeAxis} {n d : Nat} (h : Spec.HasTime x ax n)
    (hc : Spec.Covered x) (hn : 8 ≤ n) (hd : ∀ k < n, Spec.daysOf ax k = d)
    {r : Deseasoned} {v : DA (Fl ℝ)} (hr : deseason x "time" "residuals" = .ok r)
    (hv : r.values = .ok v) (e : Env) {p A φ : ℝ} (hp : 2 < p) (hA : A ≠ 0)
    (hy : Spec.SeriesIs x.da e
      (fun k : Fin n => A * Real.cos (2 * Real.pi / p * ((k : Nat) : ℝ) + φ))) :
    Spec.SeriesIs v e (fun _ : Fin n => 0) ↔ p = d ∨ 2 * p = d := by
  have hd' : d = 365 ∨ d = 366 := by rw [← hd 0 (by omega)]; exact daysOf_cases ax 0
  rw [← cycle_combination hn hd' hp hA (φ := φ)]
  obtain ⟨_, r', _, v', -, hr', -, hv', -, -, hfit⟩ := C58_fit h hc
  rw [hr] at hr'
  cases hr'
  rw [hv] at hv'
  cases hv'
  obtain ⟨z, hz, -, hrz⟩ := hfit e _ hy
  rw [sampleYears_eq hd] at hz
  constructor
  · intro h0
    obtain ⟨a, ha⟩ := hz.combination
    refine ⟨a, fun k => ?_⟩
    have h1 := hrz k
    rw [h0 k] at h1
    have h2 : (0 : ℝ) = _ := Fl.fin.inj h1
    rw [← ha k]
    linarith
  · rintro ⟨a, ha⟩
    have hself : Spec.IsFit (fun k : Fin n => ((k : Nat) : ℝ) / d)
        (fun k : Fin n => A * Real.cos (2 * Real.pi / p * ((k : Nat) : ℝ) + φ))
        (fun k : Fin n => A * Real.cos (2 * Real.pi / p * ((k : Nat) : ℝ) + φ)) :=
      ⟨⟨a, ha⟩, fun j => by simp⟩
    have := isFit_unique hz hself
    intro k
    rw [hrz k, this]
    simp only [sub_self]

/-- C113, refuted for monthly means: an annual cycle of any amplitude and phase, twelve values per
year, is never removed. -/
theorem C113_monthly {x : SeasonArray} {ax : TimeAxis} {n d : Nat} (h : Spec.HasTime x ax n)
    (hc : Spec.Covered x) (hn : 8 ≤ n) (hd : ∀ k < n, Spec.daysOf ax k = d)
    {r : Deseasoned} {v : DA (Fl ℝ)} (hr : deseason x "time" "residuals" = .ok r)
    (hv : r.values = .ok v) (e : Env) {A φ : ℝ} (hA : A ≠ 0)
    (hy : Spec.SeriesIs x.da e
      (fun k : Fin n => A * Real.cos (2 * Real.pi / 12 * ((k : Nat) : ℝ) + φ))) :
    ¬ Spec.SeriesIs v e (fun _ : Fin n => 0) := by
  rw [C113_iff h hc hn hd hr hv e (by norm_num) hA hy]
  have hd' : d = 365 ∨ d = 366 := by rw [← hd 0 (by omega)]; exact daysOf_cases ax 0
  rcases hd' with rfl | rfl <;> norm_num

/-- C113, the part that holds (the full claim, for every sampling, is refuted by `C113_monthly` and
`C113_counterexample`): daily values. -/
theorem C113_partial {x : SeasonArray} {ax : TimeAxis} {n d : Nat} (h : Spec.HasTime x ax n)
    (hc : Spec.Covered x) (hn : 8 ≤ n) (hd : ∀ k < n, Spec.daysOf ax k = d)
    {r : Deseasoned} {v : DA (Fl ℝ)} (hr : deseason x "time" "residuals" = .ok r)
    (hv : r.values = .ok v) (e : Env) {A φ : ℝ}
    (hy : Spec.SeriesIs x.da e
      (fun k : Fin n => A * Real.cos (2 * Real.pi / d * ((k : Nat) : ℝ) + φ))) :
    Spec.SeriesIs v e (fun _ : Fin n => 0) := by
  by_cases hA : A = 0
  · obtain ⟨_, r', _, v', -, hr', -, hv', -, -, hfit⟩ := C58_fit h hc
    rw [hr] at hr'
    cases hr'
    rw [hv] at hv'
    cases hv'
    obtain ⟨z, hz, -, hrz⟩ := hfit e _ hy
    subst hA
    have hself : Spec.IsFit (Spec.sampleYears ax n)
        (fun k : Fin n => 0 * Real.cos (2 * Real.pi / d * ((k : Nat) : ℝ) + φ)) (fun _ => 0) :=
      ⟨⟨fun _ => 0, fun k => by simp⟩, fun j => by simp⟩
    have := isFit_unique hz hself
    intro k
    rw [hrz k, this]
    simp only [zero_mul, sub_self]
  · have hd' : d = 365 ∨ d = 366 := by rw [← hd 0 (by omega)]; exact daysOf_cases ax 0
    refine (C113_iff h hc hn hd hr hv e ?_ hA hy).2 (Or.inl rfl)
    rcases hd' with rfl | rfl <;> norm_num

/-- The twelve months of a year without leap day, and an annual cycle. -/
def monthAxis : TimeAxis :=
  ⟨.noleap, (List.range 12).map (fun k => ⟨⟨1, k + 1, 15⟩, 0⟩)⟩

noncomputable def monthA : SeasonArray :=
  ⟨⟨[("time", 12)], fun e => .fin (1 * Real.cos (2 * Real.pi / 12 * (e "time" : ℝ) + 0))⟩,
   [("time", monthAxis)], ["time"], [], none⟩

theorem monthA_time : Spec.HasTime monthA monthAxis 12 :=
  ⟨by decide, by decide, rfl, rfl, by decide⟩

theorem monthA_covered : Spec.Covered monthA := by
  intro cs h
  cases h

theorem monthA_series (e : Env) : Spec.SeriesIs monthA.da e
    (fun k : Fin 12 => 1 * Real.cos (2 * Real.pi / 12 * ((k : Nat) : ℝ) + 0)) := by
  intro k
  change Fl.fin _ = _
  rw [Function.update_self]

/-- C113, refuted: the annual cycle of twelve monthly values. -/
theorem C113_counterexample : ∃ (r : Deseasoned) (v : DA (Fl ℝ)),
    Spec.SeriesIs monthA.da (fun _ => 0)
      (fun k : Fin 12 => 1 * Real.cos (2 * Real.pi / 12 * ((k : Nat) : ℝ) + 0)) ∧
    deseason monthA "time" "residuals" = .ok r ∧ r.values = .ok v ∧
      ¬ Spec.SeriesIs v (fun _ => 0) (fun _ : Fin 12 => 0) := by
  obtain ⟨_, r, _, v, -, hr, -, hv, -⟩ := C58_fit monthA_time monthA_covered
  exact ⟨r, v, monthA_series _, hr, hv, C113_monthly (d := 365) monthA_time monthA_covered
    (by norm_num) (by decide) hr hv _ one_ne_zero (monthA_series _)⟩

/-- C113: eight days of a leap year. -/
example {r : Deseasoned} {v : DA (Fl ℝ)} (hr : deseason leapA "time" "residuals" = .ok r)
    (hv : r.values = .ok v) : Spec.SeriesIs v (fun _ => 0) (fun _ : Fin 8 => 0) :=
  C113_partial (d := 366) (A := 1) (φ := 0) leapA_time leapA_covered le_rfl leapAxis_days hr hv _
    (by simpa using leapA_series (fun _ => 0))

end Momlevel.Props
