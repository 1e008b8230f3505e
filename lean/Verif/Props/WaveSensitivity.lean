import Verif.Props.WaveColumn

/-! # C165: small errors in stratification and thickness, small errors in wave speed -/

set_option linter.unusedSectionVars false

namespace Momlevel.Props
open Momlevel Momlevel.Fl Momlevel.Spec

theorem abs_sqrt_sub {a b : ℝ} (ha : 0 ≤ a) (hb : 0 ≤ b) : |Real.sqrt a - Real.sqrt b| ≤ Real.sqrt |a - b| := by
  have key : ∀ {a b : ℝ}, 0 ≤ a → 0 ≤ b → Real.sqrt a - Real.sqrt b ≤ Real.sqrt |a - b| := fun {a b} ha hb => by
    have h : Real.sqrt a ≤ Real.sqrt (b + |a - b|) := Real.sqrt_le_sqrt (by linarith [le_abs_self (a - b)])
    have h2 : Real.sqrt (b + |a - b|) ≤ Real.sqrt b + Real.sqrt |a - b| := by
      refine Real.sqrt_le_iff.2 ⟨by positivity, ?_⟩
      have q1 := Real.sq_sqrt hb
      have q2 := Real.sq_sqrt (abs_nonneg (a - b))
      nlinarith [mul_nonneg (Real.sqrt_nonneg b) (Real.sqrt_nonneg |a - b|)]
    linarith
  rw [abs_le]
  constructor
  · have := key hb ha
    rw [abs_sub_comm] at this
    linarith
  · exact key ha hb

/-- C165, full statement: for every accuracy of the wave speed there is an accuracy of `N²` that suffices.

Missing: unstable levels.  `C165_counterexample` shows that the statement is false for them.  Here: columns with `N²`
positive on all their levels; errors `ε` in `N²` and `η` in the thicknesses. -/
theorem C165_partial {n2 dz r n2' dz' r' : DA (Fl ℝ)} {n : Nat} {rest : List (String × Nat)}
    (g : StratInput n2 n rest) (g' : StratInput n2' n rest) (hn : n ≠ 0) (hr : calcWaveSpeed n2 dz = .ok r)
    (hr' : calcWaveSpeed n2' dz' = .ok r') {e : Env} {m : Nat} {N D N' D' : Nat → ℝ} (he : IsPoint n2 e)
    (he' : IsPoint n2' e) (hc : StableColumn n2 dz e n m N D) (hc' : StableColumn n2' dz' e n m N' D')
    (hD : ∀ k < m, 0 ≤ D' k) {ε η : ℝ} (hε : ∀ k < m, |N' k - N k| ≤ ε) (hη : ∀ k < m, |D' k - D k| ≤ η) :
    ∃ c c', r.get e = fin c ∧ r'.get e = fin c' ∧
      |c' - c| ≤ (Real.sqrt ε * (∑ k ∈ Finset.range m, D' k) + η * ∑ k ∈ Finset.range m, Real.sqrt (N k)) / Real.pi := by
  obtain ⟨r1, h1, h2⟩ := C119_formula (dz := dz) g hn
  obtain ⟨r2, h1', h2'⟩ := C119_formula (dz := dz') g' hn
  cases h1.symm.trans hr
  cases h1'.symm.trans hr'
  refine ⟨_, _, h2 e m N D he hc, h2' e m N' D' he' hc', ?_⟩
  rw [← sub_div, abs_div, abs_of_pos Real.pi_pos, ← Finset.sum_sub_distrib, Finset.mul_sum, Finset.mul_sum,
    ← Finset.sum_add_distrib]
  refine div_le_div_of_nonneg_right ((Finset.abs_sum_le_sum_abs _ _).trans (Finset.sum_le_sum (fun k hk => ?_))) Real.pi_pos.le
  have hk := Finset.mem_range.1 hk
  have s1 : |Real.sqrt (N' k) - Real.sqrt (N k)| ≤ Real.sqrt ε :=
    (abs_sqrt_sub (hc'.pos k hk).le (hc.pos k hk).le).trans (Real.sqrt_le_sqrt (hε k hk))
  have e1 : Real.sqrt (N' k) * D' k - Real.sqrt (N k) * D k =
      (Real.sqrt (N' k) - Real.sqrt (N k)) * D' k + (D' k - D k) * Real.sqrt (N k) := by ring
  rw [e1]
  refine (abs_add_le _ _).trans (add_le_add ?_ ?_)
  · rw [abs_mul, abs_of_nonneg (hD k hk)]
    exact mul_le_mul_of_nonneg_right s1 (hD k hk)
  · rw [abs_mul, abs_of_nonneg (Real.sqrt_nonneg _)]
    exact mul_le_mul_of_nonneg_right (hη k hk) (Real.sqrt_nonneg _)

/-- C165: where `N²` is at least `a` on all levels, the error is linear in the errors of `N²`. -/
theorem C165_linear {n2 dz r n2' dz' r' : DA (Fl ℝ)} {n : Nat} {rest : List (String × Nat)}
    (g : StratInput n2 n rest) (g' : StratInput n2' n rest) (hn : n ≠ 0) (hr : calcWaveSpeed n2 dz = .ok r)
    (hr' : calcWaveSpeed n2' dz' = .ok r') {e : Env} {m : Nat} {N D N' D' : Nat → ℝ} (he : IsPoint n2 e)
    (he' : IsPoint n2' e) (hc : StableColumn n2 dz e n m N D) (hc' : StableColumn n2' dz' e n m N' D')
    (hD : ∀ k < m, 0 ≤ D' k) {a ε η : ℝ} (ha : 0 < a) (hN : ∀ k < m, a ≤ N k ∧ a ≤ N' k)
    (hε : ∀ k < m, |N' k - N k| ≤ ε) (hη : ∀ k < m, |D' k - D k| ≤ η) :
    ∃ c c', r.get e = fin c ∧ r'.get e = fin c' ∧
      |c' - c| ≤ (ε / (2 * Real.sqrt a) * (∑ k ∈ Finset.range m, D' k) + η * ∑ k ∈ Finset.range m, Real.sqrt (N k)) / Real.pi := by
  obtain ⟨r1, h1, h2⟩ := C119_formula (dz := dz) g hn
  obtain ⟨r2, h1', h2'⟩ := C119_formula (dz := dz') g' hn
  cases h1.symm.trans hr
  cases h1'.symm.trans hr'
  refine ⟨_, _, h2 e m N D he hc, h2' e m N' D' he' hc', ?_⟩
  rw [← sub_div, abs_div, abs_of_pos Real.pi_pos, ← Finset.sum_sub_distrib, Finset.mul_sum, Finset.mul_sum,
    ← Finset.sum_add_distrib]
  refine div_le_div_of_nonneg_right ((Finset.abs_sum_le_sum_abs _ _).trans (Finset.sum_le_sum (fun k hk => ?_))) Real.pi_pos.le
  have hk := Finset.mem_range.1 hk
  have sa : 0 < Real.sqrt a := Real.sqrt_pos.2 ha
  have s1 : |Real.sqrt (N' k) - Real.sqrt (N k)| ≤ ε / (2 * Real.sqrt a) := by
    have l1 := Real.sqrt_le_sqrt (hN k hk).1
    have l2 := Real.sqrt_le_sqrt (hN k hk).2
    rw [le_div_iff₀ (by positivity)]
    have : N' k - N k = (Real.sqrt (N' k) - Real.sqrt (N k)) * (Real.sqrt (N' k) + Real.sqrt (N k)) := by
      have q1 := Real.mul_self_sqrt (hc'.pos k hk).le
      have q2 := Real.mul_self_sqrt (hc.pos k hk).le
      linear_combination -q1 + q2
    have hk2 := hε k hk
    rw [this, abs_mul, abs_of_nonneg (by positivity : 0 ≤ Real.sqrt (N' k) + Real.sqrt (N k))] at hk2
    exact (mul_le_mul_of_nonneg_left (by linarith) (abs_nonneg _)).trans hk2
  have e1 : Real.sqrt (N' k) * D' k - Real.sqrt (N k) * D k =
      (Real.sqrt (N' k) - Real.sqrt (N k)) * D' k + (D' k - D k) * Real.sqrt (N k) := by ring
  rw [e1]
  refine (abs_add_le _ _).trans (add_le_add ?_ ?_)
  · rw [abs_mul, abs_of_nonneg (hD k hk)]
    exact mul_le_mul_of_nonneg_right s1 (hD k hk)
  · rw [abs_mul, abs_of_nonneg (Real.sqrt_nonneg _)]
    exact mul_le_mul_of_nonneg_right (hη k hk) (Real.sqrt_nonneg _)

/-- The two columns of `twoLevels`, the lower level of 1/9 known to 0.01 and the thickness of 100 m to 1 m. -/
example : ∃ r r' c c', calcWaveSpeed (twoLevels (1 / 9)) (DA.scalar (fin 100)) = .ok r ∧
    calcWaveSpeed (twoLevels (1 / 9 + 0.01)) (DA.scalar (fin 101)) = .ok r' ∧
    r.get (fun _ => 0) = fin c ∧ r'.get (fun _ => 0) = fin c' ∧
    |c' - c| ≤ (0.01 / (2 * Real.sqrt (1 / 9)) * (∑ _k ∈ Finset.range 2, (101 : ℝ)) +
      1 * ∑ k ∈ Finset.range 2, Real.sqrt (if k = 0 then 1 else 1 / 9)) / Real.pi := by
  obtain ⟨r, hr, -⟩ := C119_formula (dz := DA.scalar (fin 100)) (twoLevels_input (1 / 9)) (by norm_num)
  obtain ⟨r', hr', -⟩ := C119_formula (dz := DA.scalar (fin 101)) (twoLevels_input (1 / 9 + 0.01)) (by norm_num)
  obtain ⟨c, c', h⟩ := C165_linear (twoLevels_input (1 / 9)) (twoLevels_input (1 / 9 + 0.01)) (by norm_num) hr hr'
    (twoLevels_point _) (twoLevels_point _) (twoLevels_column (by norm_num) 100) (twoLevels_column (by norm_num) 101)
    (fun _ _ => by norm_num) (a := 1 / 9) (ε := 0.01) (η := 1) (by norm_num)
    (fun k _ => by by_cases h : k = 0 <;> simp [h] <;> norm_num)
    (fun k _ => by by_cases h : k = 0 <;> simp [h] <;> norm_num)
    (fun k _ => by norm_num)
  exact ⟨r, r', c, c', hr, hr', h⟩

/-- The bound of `C165_partial` for a level that is nearly neutral, `N² = 0.0001` or `0.0002`. -/
example : ∃ r r' c c', calcWaveSpeed (twoLevels 0.0001) (DA.scalar (fin 100)) = .ok r ∧
    calcWaveSpeed (twoLevels 0.0002) (DA.scalar (fin 100)) = .ok r' ∧
    r.get (fun _ => 0) = fin c ∧ r'.get (fun _ => 0) = fin c' ∧
    |c' - c| ≤ (Real.sqrt 0.0001 * (∑ _k ∈ Finset.range 2, (100 : ℝ)) +
      0 * ∑ k ∈ Finset.range 2, Real.sqrt (if k = 0 then 1 else 0.0001)) / Real.pi := by
  obtain ⟨r, hr, -⟩ := C119_formula (dz := DA.scalar (fin 100)) (twoLevels_input 0.0001) (by norm_num)
  obtain ⟨r', hr', -⟩ := C119_formula (dz := DA.scalar (fin 100)) (twoLevels_input 0.0002) (by norm_num)
  obtain ⟨c, c', h⟩ := C165_partial (twoLevels_input 0.0001) (twoLevels_input 0.0002) (by norm_num) hr hr'
    (twoLevels_point _) (twoLevels_point _) (twoLevels_column (by norm_num) 100) (twoLevels_column (by norm_num) 100)
    (fun _ _ => by norm_num) (ε := 0.0001) (η := 0)
    (fun k _ => by
      by_cases h : k = 0
      · simp only [h, if_true, sub_self, abs_zero]; norm_num
      · simp only [h, if_false]; rw [abs_of_pos] <;> norm_num)
    (fun k _ => by norm_num)
  exact ⟨r, r', c, c', hr, hr', h⟩

/-- The wave speed is not a continuous function of `N²`: however small `ε` is, two columns that differ by at most `ε`
have wave speeds 2 and at most 1.5.  (An unstable level counts with the value of the level above, a stable one with
its own.) -/
theorem C165_counterexample {ε : ℝ} (hε : 0 < ε) : ∃ (n2 n2' dz r r' : DA (Fl ℝ)) (c' : ℝ),
    (∀ e, ∃ x x', n2.get e = fin x ∧ n2'.get e = fin x' ∧ |x' - x| ≤ ε) ∧
    calcWaveSpeed n2 dz = .ok r ∧ calcWaveSpeed n2' dz = .ok r' ∧
    r.get (fun _ => 0) = fin 2 ∧ r'.get (fun _ => 0) = fin c' ∧ c' ≤ 1.5 := by
  obtain ⟨δ, hδ, hδε, hδ4⟩ : ∃ δ : ℝ, 0 < δ ∧ 2 * δ ≤ ε ∧ δ ≤ 1 / 4 :=
    ⟨min (ε / 2) (1 / 4), lt_min (by linarith) (by norm_num), by linarith [min_le_left (ε / 2) (1 / 4)], min_le_right _ _⟩
  obtain ⟨r, adj, h1, h2, h3⟩ := C14_formula (dz := DA.scalar (fin Real.pi)) (twoLevels_input (-δ)).dims
    (by norm_num) (twoLevels_input (-δ)).nodup (twoLevels_input (-δ)).ordinary
  obtain ⟨adj', a1, a2, a3⟩ := C12_adjust (twoLevels_input (-δ)).dims (by norm_num)
    (twoLevels_input (-δ)).ordinary
  obtain rfl : adj' = adj := Except.ok.inj (a1.symm.trans h2)
  obtain ⟨r', h1', hv'⟩ := C119_formula (dz := DA.scalar (fin Real.pi)) (twoLevels_input δ) (by norm_num)
  have hv := (h3 (fun _ => 0) (isPoint_bounds (twoLevels_point (-δ))) (fun k _ _ => Or.inr ⟨_, rfl⟩)).2
    (by simp [twoLevels])
  have hb : ∀ k < 2, (twoLevels (-δ)).InBounds (Function.update (fun _ => 0) "z_l" k) := by
    intro k hk p hp
    simp only [twoLevels, List.mem_singleton] at hp
    subst hp
    simpa using hk
  have e0 : column adj' "z_l" (fun _ => 0) 0 = fin 1 :=
    (a3 _ (hb 0 (by norm_num))).2.1 1 (by simp [twoLevels]) one_pos
  have e1 : column adj' "z_l" (fun _ => 0) 1 = fin 1 := by
    have hp : Positive (column (twoLevels (-δ))  "z_l"
        (Function.update (fun _ => 0) "z_l" 1) 0) := ⟨1, one_pos, by simp [twoLevels, column]⟩
    rcases (a3 _ (hb 1 (by norm_num))).2.2 (-δ) (by simp [twoLevels]) (by linarith) with
      ⟨j, hj, -, hv, -⟩ | ⟨h, -⟩
    · have hj0 : j = 0 := by simpa using hj
      subst hj0
      simpa [twoLevels, column] using hv
    · exact absurd hp (h 0 (by simp))
  refine ⟨twoLevels (-δ), twoLevels δ, DA.scalar (fin Real.pi), r, r', _, fun e => ?_, h1, h1', hv.trans ?_,
    hv' (fun _ => 0) 2 _ _ (twoLevels_point _) (twoLevels_column hδ Real.pi), ?_⟩
  · by_cases h : e "z_l" = 0
    · exact ⟨1, 1, by simp [twoLevels, h], by simp [twoLevels, h], by simpa using hε.le⟩
    · refine ⟨-δ, δ, by simp [twoLevels, h], by simp [twoLevels, h], ?_⟩
      rw [abs_of_pos (by linarith)]; linarith
  · rw [Finset.sum_range_succ, Finset.sum_range_succ, Finset.sum_range_zero, e0, e1]
    have := Real.pi_pos.ne'
    congr 1
    simp only [waveTerm, column, DA.get_scalar, Real.sqrt_one]
    field_simp
    ring
  · rw [Finset.sum_range_succ, Finset.sum_range_succ, Finset.sum_range_zero]
    have hs : Real.sqrt δ ≤ 1 / 2 := by
      rw [show (1 / 2 : ℝ) = Real.sqrt (1 / 4) by
        rw [show (1 / 4 : ℝ) = (1 / 2) ^ 2 by norm_num, Real.sqrt_sq (by norm_num)]]
      exact Real.sqrt_le_sqrt hδ4
    simp only [if_true, Real.sqrt_one, one_ne_zero, if_false]
    rw [div_le_iff₀ Real.pi_pos]
    nlinarith [Real.pi_pos]

end Momlevel.Props
