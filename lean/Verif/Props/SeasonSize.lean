import Verif.Props.SeasonCases

/-! # C150: what the seasonal model takes away -/

set_option linter.unusedSectionVars false

namespace Momlevel.Props
open Momlevel

/-- The residual of a fit is orthogonal to every combination of the regressors. -/
theorem fit_orth {n : Nat} {t y m m' : Fin n → ℝ} (h : Spec.IsFit t y m)
    (h' : ∃ c : Fin 6 → ℝ, ∀ k, m' k = ∑ j, c j * Spec.regressor t k j) : ∑ k, (y k - m k) * m' k = 0 := by
  obtain ⟨c, hc⟩ := h'
  simp only [hc, Finset.mul_sum]
  rw [Finset.sum_comm]
  apply Finset.sum_eq_zero
  intro j _
  have : ∀ k, (y k - m k) * (c j * Spec.regressor t k j) = c j * ((y k - m k) * Spec.regressor t k j) :=
    fun k => by ring
  simp only [this, ← Finset.mul_sum, h.orthogonal j, mul_zero]

/-- Model and residual of a difference split its squares. -/
theorem fit_pythagoras {n : Nat} {t y m y' m' : Fin n → ℝ} (h : Spec.IsFit t y m) (h' : Spec.IsFit t y' m') :
    ∑ k, (m k - m' k) ^ 2 + ∑ k, ((y k - m k) - (y' k - m' k)) ^ 2 = ∑ k, (y k - y' k) ^ 2 := by
  have a1 := fit_orth h h.combination
  have a2 := fit_orth h h'.combination
  have a3 := fit_orth h' h.combination
  have a4 := fit_orth h' h'.combination
  have : ∀ k, (y k - y' k) ^ 2 = (m k - m' k) ^ 2 + ((y k - m k) - (y' k - m' k)) ^ 2
      + 2 * ((y k - m k) * m k - (y k - m k) * m' k - (y' k - m' k) * m k + (y' k - m' k) * m' k) :=
    fun k => by ring
  simp only [this, Finset.sum_add_distrib, ← Finset.mul_sum, Finset.sum_sub_distrib, a1, a2, a3, a4]
  ring

/-- A constant is its own fit. -/
theorem fit_const {n : Nat} (t : Fin n → ℝ) (c : ℝ) : Spec.IsFit t (fun _ => c) (fun _ => c) := by
  refine ⟨⟨fun j => if j = 0 then c else 0, fun k => ?_⟩, fun j => by simp⟩
  simp [Spec.regressor]

/-- The parts of a fit: the residuals add up to zero, so the model has the mean of the data, and the squared
deviations from any constant are those of the model plus the squares of the residuals. -/
theorem fit_parts {n : Nat} {t y m : Fin n → ℝ} (h : Spec.IsFit t y m) :
    ∑ k, (y k - m k) = 0 ∧ ∑ k, m k = ∑ k, y k ∧
      ∀ c, ∑ k, (y k - c) ^ 2 = ∑ k, (m k - c) ^ 2 + ∑ k, (y k - m k) ^ 2 := by
  have h0 := h.orthogonal 0
  simp only [Spec.regressor, mul_one] at h0
  refine ⟨h0, ?_, fun c => ?_⟩
  · rw [Finset.sum_sub_distrib] at h0
    linarith
  · have := fit_pythagoras h (fit_const t c)
    simp only [sub_self, sub_zero] at this
    exact this.symm

/-- C150, `seasonal_model`: at every point with a finite series the residuals have mean zero, the model has the mean of
the data, and the squared deviations from any constant (with the mean: the variance) of the data are those of the model
plus the squares of the residuals. -/
theorem C150_model {x : SeasonArray} {ax : TimeAxis} {n : Nat} (h : Spec.HasTime x ax n)
    (hv : ∀ s ∈ ax.stamps, s.date.Valid ax.cal) (hi : Spec.Indexed x) {m r : DA (Fl ℝ)} {am ar : Dict String}
    (hr : seasonalModel x = .ok ((m, am), (r, ar))) (e : Env) (y : Fin n → ℝ) (hy : Spec.SeriesIs x.da e y) :
    ∃ z w : Fin n → ℝ, Spec.SeriesIs m e z ∧ Spec.SeriesIs r e w ∧ ∑ k, w k = 0 ∧ ∑ k, z k = ∑ k, y k ∧
      ∀ c, ∑ k, (y k - c) ^ 2 = ∑ k, (z k - c) ^ 2 + ∑ k, w k ^ 2 := by
  obtain ⟨m', am', r', ar', h1, -, -, h2⟩ := C57_fit h hv hi
  cases h1.symm.trans hr
  obtain ⟨z, hz, hm, hw⟩ := h2 e y hy
  obtain ⟨p1, p2, p3⟩ := fit_parts hz
  exact ⟨z, _, hm, hw, p1, p2, p3⟩

/-- C150, `deseason`: likewise. -/
theorem C150_deseason {x : SeasonArray} {ax : TimeAxis} {n : Nat} (h : Spec.HasTime x ax n) (hc : Spec.Covered x)
    {m r : Deseasoned} {dm dr : DA (Fl ℝ)} (hm : deseason x "time" "model" = .ok m)
    (hr : deseason x "time" "residuals" = .ok r) (hdm : m.values = .ok dm) (hdr : r.values = .ok dr)
    (e : Env) (y : Fin n → ℝ) (hy : Spec.SeriesIs x.da e y) :
    ∃ z w : Fin n → ℝ, Spec.SeriesIs dm e z ∧ Spec.SeriesIs dr e w ∧ ∑ k, w k = 0 ∧ ∑ k, z k = ∑ k, y k ∧
      ∀ c, ∑ k, (y k - c) ^ 2 = ∑ k, (z k - c) ^ 2 + ∑ k, w k ^ 2 := by
  obtain ⟨m', r', dm', dr', h1, h2, h3, h4, -, -, h5⟩ := C58_fit h hc
  cases h1.symm.trans hm
  cases h2.symm.trans hr
  cases h3.symm.trans hdm
  cases h4.symm.trans hdr
  obtain ⟨z, hz, q1, q2⟩ := h5 e y hy
  obtain ⟨p1, p2, p3⟩ := fit_parts hz
  exact ⟨z, _, q1, q2, p1, p2, p3⟩

/-- C150: so no residual exceeds the spread of the data: `r² ≤ ∑ (y - c)²` for every constant `c`. -/
theorem C150_residual {x : SeasonArray} {ax : TimeAxis} {n : Nat} (h : Spec.HasTime x ax n)
    (hv : ∀ s ∈ ax.stamps, s.date.Valid ax.cal) (hi : Spec.Indexed x) {m r : DA (Fl ℝ)} {am ar : Dict String}
    (hr : seasonalModel x = .ok ((m, am), (r, ar))) (e : Env) (y : Fin n → ℝ) (hy : Spec.SeriesIs x.da e y)
    (c : ℝ) (k : Fin n) : ∃ w, Spec.atPoint r e k = .fin w ∧ w ^ 2 ≤ ∑ k, (y k - c) ^ 2 := by
  obtain ⟨z, w, -, h2, -, -, h3⟩ := C150_model h hv hi hr e y hy
  refine ⟨w k, h2 k, ?_⟩
  rw [h3 c]
  have h4 : w k ^ 2 ≤ ∑ k, w k ^ 2 := Finset.single_le_sum (fun i _ => sq_nonneg (w i)) (Finset.mem_univ k)
  have h5 : 0 ≤ ∑ k, (z k - c) ^ 2 := Finset.sum_nonneg (fun i _ => sq_nonneg _)
  linarith

/-- C150: errors are not amplified.  For two series on one time axis the squared differences of the models and of the
residuals add up to the squared differences of the data. -/
theorem C150_errors {x x' : SeasonArray} {ax : TimeAxis} {n : Nat} (h : Spec.HasTime x ax n)
    (h' : Spec.HasTime x' ax n) (hv : ∀ s ∈ ax.stamps, s.date.Valid ax.cal) (hi : Spec.Indexed x)
    (hi' : Spec.Indexed x') {m r m' r' : DA (Fl ℝ)} {am ar am' ar' : Dict String}
    (hr : seasonalModel x = .ok ((m, am), (r, ar))) (hr' : seasonalModel x' = .ok ((m', am'), (r', ar')))
    (e e' : Env) (y y' : Fin n → ℝ) (hy : Spec.SeriesIs x.da e y) (hy' : Spec.SeriesIs x'.da e' y') :
    ∃ z w z' w' : Fin n → ℝ, Spec.SeriesIs m e z ∧ Spec.SeriesIs r e w ∧ Spec.SeriesIs m' e' z' ∧
      Spec.SeriesIs r' e' w' ∧
      ∑ k, (z k - z' k) ^ 2 + ∑ k, (w k - w' k) ^ 2 = ∑ k, (y k - y' k) ^ 2 := by
  obtain ⟨_, _, _, _, h1, -, -, h2⟩ := C57_fit h hv hi
  obtain ⟨_, _, _, _, h1', -, -, h2'⟩ := C57_fit h' hv hi'
  cases h1.symm.trans hr
  cases h1'.symm.trans hr'
  obtain ⟨z, hz, hm, hw⟩ := h2 e y hy
  obtain ⟨z', hz', hm', hw'⟩ := h2' e' y' hy'
  exact ⟨z, _, z', _, hm, hw, hm', hw', fit_pythagoras hz hz'⟩

/-- C150: likewise for `deseason`. -/
theorem C150_deseason_errors {x x' : SeasonArray} {ax : TimeAxis} {n : Nat} (h : Spec.HasTime x ax n)
    (h' : Spec.HasTime x' ax n) (hc : Spec.Covered x) (hc' : Spec.Covered x') {m r m' r' : Deseasoned}
    {dm dr dm' dr' : DA (Fl ℝ)} (hm : deseason x "time" "model" = .ok m)
    (hr : deseason x "time" "residuals" = .ok r) (hm' : deseason x' "time" "model" = .ok m')
    (hr' : deseason x' "time" "residuals" = .ok r') (vm : m.values = .ok dm) (vr : r.values = .ok dr)
    (vm' : m'.values = .ok dm') (vr' : r'.values = .ok dr')
    (e e' : Env) (y y' : Fin n → ℝ) (hy : Spec.SeriesIs x.da e y) (hy' : Spec.SeriesIs x'.da e' y') :
    ∃ z w z' w' : Fin n → ℝ, Spec.SeriesIs dm e z ∧ Spec.SeriesIs dr e w ∧ Spec.SeriesIs dm' e' z' ∧
      Spec.SeriesIs dr' e' w' ∧
      ∑ k, (z k - z' k) ^ 2 + ∑ k, (w k - w' k) ^ 2 = ∑ k, (y k - y' k) ^ 2 := by
  obtain ⟨_, _, _, _, a1, a2, a3, a4, -, -, a5⟩ := C58_fit h hc
  obtain ⟨_, _, _, _, b1, b2, b3, b4, -, -, b5⟩ := C58_fit h' hc'
  cases a1.symm.trans hm
  cases a2.symm.trans hr
  cases a3.symm.trans vm
  cases a4.symm.trans vr
  cases b1.symm.trans hm'
  cases b2.symm.trans hr'
  cases b3.symm.trans vm'
  cases b4.symm.trans vr'
  obtain ⟨z, hz, q1, q2⟩ := a5 e y hy
  obtain ⟨z', hz', q1', q2'⟩ := b5 e' y' hy'
  exact ⟨z, _, z', _, q1, q2, q1', q2', fit_pythagoras hz hz'⟩

/-- The series 1, 2, 3: its model adds up to 6, its residuals to 0, and their squares to at most 2. -/
example {m r : DA (Fl ℝ)} {am ar : Dict String} (hr : seasonalModel seaA = .ok ((m, am), (r, ar))) :
    ∃ z w : Fin 3 → ℝ, Spec.SeriesIs m (fun _ => 1) z ∧ Spec.SeriesIs r (fun _ => 1) w ∧ ∑ k, z k = 6 ∧
      ∑ k, w k = 0 ∧ ∑ k, w k ^ 2 ≤ 2 := by
  obtain ⟨z, w, h1, h2, h3, h4, h5⟩ := C150_model seaA_time seaAxis_valid seaA_indexed hr (fun _ => 1) _ (seaA_series 1)
  refine ⟨z, w, h1, h2, by rw [h4]; norm_num [Fin.sum_univ_succ], h3, ?_⟩
  have h6 := h5 2
  have h7 : 0 ≤ ∑ k, (z k - 2) ^ 2 := Finset.sum_nonneg (fun i _ => sq_nonneg _)
  have h8 : ∑ k : Fin 3, (((k : Nat) : ℝ) * ((1 : Nat) : ℝ) + 1 - 2) ^ 2 = 2 := by norm_num [Fin.sum_univ_succ]
  rw [h8] at h6
  linarith

/-- `C150_residual` for it: no residual beyond ±√2. -/
example {m r : DA (Fl ℝ)} {am ar : Dict String} (hr : seasonalModel seaA = .ok ((m, am), (r, ar))) :
    ∃ w, Spec.atPoint r (fun _ => 1) 0 = .fin w ∧ w ^ 2 ≤ 2 := by
  obtain ⟨w, h1, h2⟩ := C150_residual seaA_time seaAxis_valid seaA_indexed hr (fun _ => 1) _ (seaA_series 1) 2 0
  refine ⟨w, h1, h2.trans (le_of_eq ?_)⟩
  norm_num [Fin.sum_univ_succ]

/-- The two series of the array, 1, 1, 1 and 1, 2, 3, with `deseason`: squared differences 0 + 1 + 4. -/
example {m r : Deseasoned} {dm dr : DA (Fl ℝ)} (hm : deseason seaA "time" "model" = .ok m)
    (hr : deseason seaA "time" "residuals" = .ok r) (vm : m.values = .ok dm) (vr : r.values = .ok dr) :
    ∃ z w z' w' : Fin 3 → ℝ, Spec.SeriesIs dm (fun _ => 0) z ∧ Spec.SeriesIs dr (fun _ => 0) w ∧
      Spec.SeriesIs dm (fun _ => 1) z' ∧ Spec.SeriesIs dr (fun _ => 1) w' ∧ ∑ k, w k = 0 ∧
      ∑ k, (z k - z' k) ^ 2 + ∑ k, (w k - w' k) ^ 2 = 5 := by
  obtain ⟨z, w, z', w', h1, h2, h3, h4, h5⟩ := C150_deseason_errors seaA_time seaA_time seaA_covered seaA_covered
    hm hr hm hr vm vr vm vr _ _ _ _ (seaA_series 0) (seaA_series 1)
  obtain ⟨_, w0, -, k2, k3, -⟩ := C150_deseason seaA_time seaA_covered hm hr vm vr _ _ (seaA_series 0)
  have hw : w = w0 := by
    funext k
    have := (h2 k).symm.trans (k2 k)
    injection this
  refine ⟨z, w, z', w', h1, h2, h3, h4, by rw [hw]; exact k3, ?_⟩
  rw [h5]
  norm_num [Fin.sum_univ_succ]

/-- And with `seasonal_model` (`C150_errors`). -/
example {m r : DA (Fl ℝ)} {am ar : Dict String} (hr : seasonalModel seaA = .ok ((m, am), (r, ar))) :
    ∃ w w' : Fin 3 → ℝ, Spec.SeriesIs r (fun _ => 0) w ∧ Spec.SeriesIs r (fun _ => 1) w' ∧
      ∑ k, (w k - w' k) ^ 2 ≤ 5 := by
  obtain ⟨z, w, z', w', -, h2, -, h4, h5⟩ := C150_errors seaA_time seaA_time seaAxis_valid seaA_indexed seaA_indexed
    hr hr _ _ _ _ (seaA_series 0) (seaA_series 1)
  refine ⟨w, w', h2, h4, ?_⟩
  have h7 : 0 ≤ ∑ k, (z k - z' k) ^ 2 := Finset.sum_nonneg (fun i _ => sq_nonneg _)
  have h8 : ∑ k : Fin 3, (((k : Nat) : ℝ) * ((0 : Nat) : ℝ) + 1 - (((k : Nat) : ℝ) * ((1 : Nat) : ℝ) + 1)) ^ 2 = 5 := by
    norm_num [Fin.sum_univ_succ]
  rw [h8] at h5
  linarith

end Momlevel.Props
