import Verif.Spec.Wave
import Verif.Props.WaveSpeed

/-!
# C119: wave speed of stably stratified columns
-/

set_option linter.unusedSectionVars false

namespace Momlevel.Props
open Momlevel Momlevel.Fl Momlevel.Spec

theorem isPoint_bounds {n2 : DA (Fl ℝ)} {e : Env} (h : IsPoint n2 e) :
    (n2.isel "z_l" 0).InBounds e := by
  intro p hp
  have hp' : p ∈ n2.dims.filter (fun p => p.1 != "z_l") := hp
  rw [List.mem_filter] at hp'
  exact h p hp'.1 (by simpa using hp'.2)

/-- In a stably stratified column the wave speed is `(1/π) Σ N dz` over the wet levels. -/
theorem C119_formula {n2 dz : DA (Fl ℝ)} {n : Nat} {rest : List (String × Nat)}
    (g : StratInput n2 n rest) (hn : n ≠ 0) :
    ∃ r, calcWaveSpeed n2 dz = .ok r ∧
      ∀ e m N D, IsPoint n2 e → StableColumn n2 dz e n m N D →
        r.get e = fin ((∑ k ∈ Finset.range m, Real.sqrt (N k) * D k) / Real.pi) := by
  obtain ⟨r, adj, h1, h2, h3⟩ := C14_formula (dz := dz) g.dims hn g.nodup g.ordinary
  obtain ⟨adj', a1, a2, a3⟩ := C12_adjust g.dims hn g.ordinary
  obtain rfl : adj' = adj := Except.ok.inj (a1.symm.trans h2)
  refine ⟨r, h1, fun e m N D he hc => ?_⟩
  have hbd : ∀ k < n, n2.InBounds (Function.update e "z_l" k) := by
    intro k hk p hp
    by_cases h : p.1 = "z_l"
    · have : p.2 = n := by
        have h1 := DA.size_of_mem g.nodup hp
        have h2 := DA.size_of_mem g.nodup (p := ("z_l", n)) (by rw [g.dims]; simp)
        rw [← h1, h, h2]
      rw [h, Function.update_self, this]; exact hk
    · rw [Function.update_of_ne h]; exact he p hp h
  have hdz : ∀ k < n, column n2 "z_l" e k ≠ nan → FN (column dz "z_l" e k) := by
    intro k hk hne
    by_cases hkm : k < m
    · exact Or.inr ⟨_, hc.thick k hkm⟩
    · exact absurd (hc.below k (by omega) hk) hne
  obtain ⟨-, hv⟩ := h3 e (isPoint_bounds he) hdz
  rw [hv (by rw [hc.strat 0 hc.wet]; simp)]
  congr 2
  have hsub : Finset.range m ⊆ Finset.range n := by
    intro k hk
    have := Finset.mem_range.1 hk
    have := hc.levels
    exact Finset.mem_range.2 (by omega)
  rw [← Finset.sum_subset hsub]
  · refine Finset.sum_congr rfl (fun k hk => ?_)
    have hk := Finset.mem_range.1 hk
    have hadj : column adj' "z_l" e k = fin (N k) :=
      (a3 _ (hbd k (by have := hc.levels; omega))).2.1 _ (hc.strat k hk) (hc.pos k hk)
    have hd : column dz "z_l" e k = fin (D k) := hc.thick k hk
    rw [hadj, hd]
    rfl
  · intro k hk hnk
    have hkn := Finset.mem_range.1 hk
    have hmk : m ≤ k := by
      by_contra h; exact hnk (Finset.mem_range.2 (by omega))
    have hadj : column adj' "z_l" e k = nan := (a3 _ (hbd k hkn)).1 (hc.below k hmk hkn)
    rw [hadj]
    rfl

/-- Between the bounds that the extreme values of `N²` give; for uniform stratification it is
`N H / π`, with `H` the depth of the column. -/
theorem C119_bounds {n2 dz r : DA (Fl ℝ)} {n : Nat} {rest : List (String × Nat)}
    (g : StratInput n2 n rest) (hn : n ≠ 0) (hr : calcWaveSpeed n2 dz = .ok r)
    {e : Env} {m : Nat} {N D : Nat → ℝ} (he : IsPoint n2 e) (hc : StableColumn n2 dz e n m N D)
    (hD : ∀ k < m, 0 ≤ D k) {lo hi : ℝ} (hlo : ∀ k < m, lo ≤ N k) (hhi : ∀ k < m, N k ≤ hi) :
    ∃ c, r.get e = fin c ∧ Real.sqrt lo * (∑ k ∈ Finset.range m, D k) / Real.pi ≤ c ∧
      c ≤ Real.sqrt hi * (∑ k ∈ Finset.range m, D k) / Real.pi := by
  obtain ⟨r', hr', hv⟩ := C119_formula (dz := dz) g hn
  obtain rfl : r' = r := Except.ok.inj (hr'.symm.trans hr)
  refine ⟨_, hv e m N D he hc, ?_, ?_⟩
  · refine div_le_div_of_nonneg_right ?_ Real.pi_pos.le
    rw [Finset.mul_sum]
    refine Finset.sum_le_sum (fun k hk => ?_)
    have hk := Finset.mem_range.1 hk
    exact mul_le_mul_of_nonneg_right (Real.sqrt_le_sqrt (hlo k hk)) (hD k hk)
  · refine div_le_div_of_nonneg_right ?_ Real.pi_pos.le
    rw [Finset.mul_sum]
    refine Finset.sum_le_sum (fun k hk => ?_)
    have hk := Finset.mem_range.1 hk
    exact mul_le_mul_of_nonneg_right (Real.sqrt_le_sqrt (hhi k hk)) (hD k hk)

/-- `N²` multiplied by `a`: wave speed multiplied by `√a`; thicknesses multiplied by `b`: wave speed
multiplied by `b`. -/
theorem C119_scale {n2 n2' dz dz' r r' : DA (Fl ℝ)} {n : Nat} {rest : List (String × Nat)}
    (g : StratInput n2 n rest) (g' : StratInput n2' n rest) (hn : n ≠ 0)
    (hr : calcWaveSpeed n2 dz = .ok r) (hr' : calcWaveSpeed n2' dz' = .ok r')
    {e : Env} {m : Nat} {N D : Nat → ℝ} {a b : ℝ} (ha : 0 ≤ a) (he : IsPoint n2 e)
    (he' : IsPoint n2' e) (hc : StableColumn n2 dz e n m N D)
    (hc' : StableColumn n2' dz' e n m (fun k => a * N k) (fun k => b * D k)) :
    ∃ c, r.get e = fin c ∧ r'.get e = fin (Real.sqrt a * b * c) := by
  obtain ⟨q, hq, hv⟩ := C119_formula (dz := dz) g hn
  obtain rfl : q = r := Except.ok.inj (hq.symm.trans hr)
  obtain ⟨q', hq', hv'⟩ := C119_formula (dz := dz') g' hn
  obtain rfl : q' = r' := Except.ok.inj (hq'.symm.trans hr')
  refine ⟨_, hv e m N D he hc, ?_⟩
  rw [hv' e m _ _ he' hc']
  congr 1
  rw [← mul_div_assoc, Finset.mul_sum]
  congr 1
  refine Finset.sum_congr rfl (fun k _ => ?_)
  rw [Real.sqrt_mul ha]
  ring

/-- Cutting layers into thinner ones (level `i` of the finer column lies in level `f i` of the coarser
one, has its `N²`, and the thicknesses of the parts add up to that of the whole) changes nothing. -/
theorem C119_refine {n2 n2' dz dz' r r' : DA (Fl ℝ)} {n n' : Nat} {rest rest' : List (String × Nat)}
    (g : StratInput n2 n rest) (g' : StratInput n2' n' rest') (hn : n ≠ 0) (hn' : n' ≠ 0)
    (hr : calcWaveSpeed n2 dz = .ok r) (hr' : calcWaveSpeed n2' dz' = .ok r')
    {e e' : Env} {m m' : Nat} {N D N' D' : Nat → ℝ} (he : IsPoint n2 e) (he' : IsPoint n2' e')
    (hc : StableColumn n2 dz e n m N D) (hc' : StableColumn n2' dz' e' n' m' N' D')
    {f : Nat → Nat} (hf : ∀ i < m', f i < m) (hN : ∀ i < m', N' i = N (f i))
    (hD : ∀ k < m, ∑ i ∈ (Finset.range m').filter (fun i => f i = k), D' i = D k) :
    r'.get e' = r.get e := by
  obtain ⟨q, hq, hv⟩ := C119_formula (dz := dz) g hn
  obtain rfl : q = r := Except.ok.inj (hq.symm.trans hr)
  obtain ⟨q', hq', hv'⟩ := C119_formula (dz := dz') g' hn'
  obtain rfl : q' = r' := Except.ok.inj (hq'.symm.trans hr')
  rw [hv e m N D he hc, hv' e' m' N' D' he' hc']
  congr 2
  rw [← Finset.sum_fiberwise_of_maps_to (s := Finset.range m') (t := Finset.range m) (g := f)
    (fun i hi => Finset.mem_range.2 (hf i (Finset.mem_range.1 hi)))]
  refine Finset.sum_congr rfl (fun k hk => ?_)
  rw [← hD k (Finset.mem_range.1 hk), Finset.mul_sum]
  refine Finset.sum_congr rfl (fun i hi => ?_)
  obtain ⟨h1, h2⟩ := Finset.mem_filter.1 hi
  rw [hN i (Finset.mem_range.1 h1), h2]

/-- The full claim is: raising `N²` (thicknesses unchanged) never lowers the wave speed.  It holds for
stably stratified columns, also when thicknesses or the number of wet levels grow. -/
theorem C119_partial {n2 n2' dz dz' r r' : DA (Fl ℝ)} {n n' : Nat} {rest rest' : List (String × Nat)}
    (g : StratInput n2 n rest) (g' : StratInput n2' n' rest') (hn : n ≠ 0) (hn' : n' ≠ 0)
    (hr : calcWaveSpeed n2 dz = .ok r) (hr' : calcWaveSpeed n2' dz' = .ok r')
    {e e' : Env} {m m' : Nat} {N D N' D' : Nat → ℝ} (he : IsPoint n2 e) (he' : IsPoint n2' e')
    (hc : StableColumn n2 dz e n m N D) (hc' : StableColumn n2' dz' e' n' m' N' D') (hm : m ≤ m')
    (hN : ∀ k < m, N k ≤ N' k) (hD : ∀ k < m, D k ≤ D' k) (h0 : ∀ k < m', 0 ≤ D' k) :
    ∃ c c', r.get e = fin c ∧ r'.get e' = fin c' ∧ c ≤ c' := by
  obtain ⟨q, hq, hv⟩ := C119_formula (dz := dz) g hn
  obtain rfl : q = r := Except.ok.inj (hq.symm.trans hr)
  obtain ⟨q', hq', hv'⟩ := C119_formula (dz := dz') g' hn'
  obtain rfl : q' = r' := Except.ok.inj (hq'.symm.trans hr')
  refine ⟨_, _, hv e m N D he hc, hv' e' m' N' D' he' hc', ?_⟩
  refine div_le_div_of_nonneg_right ?_ Real.pi_pos.le
  calc ∑ k ∈ Finset.range m, Real.sqrt (N k) * D k
      ≤ ∑ k ∈ Finset.range m, Real.sqrt (N' k) * D' k := by
        refine Finset.sum_le_sum (fun k hk => ?_)
        have hk := Finset.mem_range.1 hk
        calc Real.sqrt (N k) * D k ≤ Real.sqrt (N k) * D' k :=
              mul_le_mul_of_nonneg_left (hD k hk) (Real.sqrt_nonneg _)
          _ ≤ Real.sqrt (N' k) * D' k :=
              mul_le_mul_of_nonneg_right (Real.sqrt_le_sqrt (hN k hk)) (h0 k (by omega))
    _ ≤ ∑ k ∈ Finset.range m', Real.sqrt (N' k) * D' k := by
        refine Finset.sum_le_sum_of_subset_of_nonneg ?_ (fun k hk _ => ?_)
        · intro k hk
          exact Finset.mem_range.2 (lt_of_lt_of_le (Finset.mem_range.1 hk) hm)
        · exact mul_nonneg (Real.sqrt_nonneg _) (h0 k (Finset.mem_range.1 hk))

/-- Two levels: `N² = 1` above, `b` below. -/
noncomputable def twoLevels (b : ℝ) : DA (Fl ℝ) :=
  ⟨[("z_l", 2)], fun e => if e "z_l" = 0 then fin 1 else fin b⟩

theorem twoLevels_input (b : ℝ) : StratInput (twoLevels b) 2 [] :=
  ⟨rfl, by simp [twoLevels, DA.dimNames], fun e _ => by
    simp only [twoLevels]; split <;> exact Or.inr ⟨_, rfl⟩⟩

theorem twoLevels_column {b : ℝ} (hb : 0 < b) (d : ℝ) :
    StableColumn (twoLevels b) (DA.scalar (fin d)) (fun _ => 0) 2 2 (fun k => if k = 0 then 1 else b)
      (fun _ => d) := by
  refine ⟨by norm_num, le_rfl, fun k hk => ?_, fun k hk => ?_, fun k hk => rfl, fun k h1 h2 => by omega⟩
  · by_cases h : k = 0 <;> simp [twoLevels, h]
  · by_cases h : k = 0 <;> simp [h, hb]

theorem twoLevels_point (b : ℝ) : IsPoint (twoLevels b) (fun _ => 0) := by
  intro p hp h
  simp only [twoLevels, List.mem_singleton] at hp
  subst hp
  exact absurd rfl h

/-- The hypotheses of the theorems above are met: two levels of 100 m, the lower one less stratified. -/
example : ∃ r r' c c', calcWaveSpeed (twoLevels (1 / 9)) (DA.scalar (fin 100)) = .ok r ∧
    calcWaveSpeed (twoLevels (1 / 4)) (DA.scalar (fin 100)) = .ok r' ∧
    r.get (fun _ => 0) = fin c ∧ r'.get (fun _ => 0) = fin c' ∧ c ≤ c' := by
  obtain ⟨r, hr, -⟩ := C119_formula (dz := DA.scalar (fin 100)) (twoLevels_input (1 / 9)) (by norm_num)
  obtain ⟨r', hr', -⟩ := C119_formula (dz := DA.scalar (fin 100)) (twoLevels_input (1 / 4)) (by norm_num)
  obtain ⟨c, c', h⟩ := C119_partial (twoLevels_input (1 / 9)) (twoLevels_input (1 / 4)) (by norm_num)
    (by norm_num) hr hr' (twoLevels_point _) (twoLevels_point _) (twoLevels_column (by norm_num) 100)
    (twoLevels_column (by norm_num) 100) le_rfl
    (fun k _ => by by_cases h : k = 0 <;> simp [h]; norm_num) (fun _ _ => le_rfl) (fun _ _ => by norm_num)
  exact ⟨r, r', c, c', hr, hr', h⟩

/-- With an unstable level the full claim is false: raising `N²` from -1 to 1/4 on the lower of two
levels lowers the wave speed, because the unstable level counted with the value of the level above. -/
theorem C119_counterexample : ∃ (n2 n2' dz r r' : DA (Fl ℝ)) (c c' : ℝ),
    (∀ e, n2.get e = n2'.get e ∨ (n2.get e = fin (-1) ∧ n2'.get e = fin (1 / 4))) ∧
    calcWaveSpeed n2 dz = .ok r ∧ calcWaveSpeed n2' dz = .ok r' ∧
    r.get (fun _ => 0) = fin c ∧ r'.get (fun _ => 0) = fin c' ∧ c' < c := by
  obtain ⟨r, adj, h1, h2, h3⟩ := C14_formula (dz := DA.scalar (fin 1)) (twoLevels_input (-1)).dims
    (by norm_num) (twoLevels_input (-1)).nodup (twoLevels_input (-1)).ordinary
  obtain ⟨adj', a1, a2, a3⟩ := C12_adjust (twoLevels_input (-1)).dims (by norm_num)
    (twoLevels_input (-1)).ordinary
  obtain rfl : adj' = adj := Except.ok.inj (a1.symm.trans h2)
  obtain ⟨r', h1', hv'⟩ := C119_formula (dz := DA.scalar (fin 1)) (twoLevels_input (1 / 4)) (by norm_num)
  have hv := (h3 (fun _ => 0) (isPoint_bounds (twoLevels_point (-1))) (fun k _ _ => Or.inr ⟨1, rfl⟩)).2
    (by simp [twoLevels])
  have hb : ∀ k < 2, (twoLevels (-1)).InBounds (Function.update (fun _ => 0) "z_l" k) := by
    intro k hk p hp
    simp only [twoLevels, List.mem_singleton] at hp
    subst hp
    simpa using hk
  have e0 : column adj' "z_l" (fun _ => 0) 0 = fin 1 :=
    (a3 _ (hb 0 (by norm_num))).2.1 1 (by simp [twoLevels]) one_pos
  have e1 : column adj' "z_l" (fun _ => 0) 1 = fin 1 := by
    have hp : Positive (column (twoLevels (-1))  "z_l"
        (Function.update (fun _ => 0) "z_l" 1) 0) := ⟨1, one_pos, by simp [twoLevels, column]⟩
    rcases (a3 _ (hb 1 (by norm_num))).2.2 (-1) (by simp [twoLevels]) (by norm_num) with
      ⟨j, hj, -, hv, -⟩ | ⟨h, -⟩
    · have hj0 : j = 0 := by simpa using hj
      subst hj0
      simpa [twoLevels, column] using hv
    · exact absurd hp (h 0 (by simp))
  refine ⟨twoLevels (-1), twoLevels (1 / 4), DA.scalar (fin 1), r, r', _, _, fun e => ?_, h1, h1', hv,
    hv' (fun _ => 0) 2 _ _ (twoLevels_point _) (twoLevels_column (by norm_num) 1), ?_⟩
  · by_cases h : e "z_l" = 0
    · left; simp [twoLevels, h]
    · right; simp [twoLevels, h]
  · refine div_lt_div_of_pos_right ?_ Real.pi_pos
    rw [Finset.sum_range_succ, Finset.sum_range_succ, Finset.sum_range_zero, Finset.sum_range_succ,
      Finset.sum_range_succ, Finset.sum_range_zero, e0, e1]
    have hs : Real.sqrt (4 : ℝ) = 2 := by
      rw [show (4 : ℝ) = 2 ^ 2 by norm_num, Real.sqrt_sq (by norm_num)]
    simp [waveTerm, column, hs]
    norm_num

/-- `C119_bounds` and `C119_scale` on two levels of 100 m: the speed lies between `200/3π` and `200/π`, and four
times the stratification over half the thickness gives the same speed. -/
example {r : DA (Fl ℝ)} (hr : calcWaveSpeed (twoLevels (1 / 9)) (DA.scalar (fin 100)) = .ok r) :
    ∃ c, r.get (fun _ => 0) = fin c ∧
      Real.sqrt (1 / 9) * (∑ _k ∈ Finset.range 2, (100 : ℝ)) / Real.pi ≤ c ∧
      c ≤ Real.sqrt 1 * (∑ _k ∈ Finset.range 2, (100 : ℝ)) / Real.pi :=
  C119_bounds (twoLevels_input _) (by norm_num) hr (twoLevels_point _) (twoLevels_column (by norm_num) 100)
    (fun _ _ => by norm_num) (fun k _ => by by_cases h : k = 0 <;> simp [h]; norm_num)
    (fun k _ => by by_cases h : k = 0 <;> simp [h]; norm_num)

example {r r' : DA (Fl ℝ)} (hr : calcWaveSpeed (twoLevels (1 / 9)) (DA.scalar (fin 100)) = .ok r)
    (hr' : calcWaveSpeed (twoLevels (1 / 9)) (DA.scalar (fin 50)) = .ok r') :
    ∃ c, r.get (fun _ => 0) = fin c ∧ r'.get (fun _ => 0) = fin (Real.sqrt 1 * (1 / 2) * c) := by
  refine C119_scale (twoLevels_input _) (twoLevels_input _) (by norm_num) hr hr' zero_le_one (twoLevels_point _)
    (twoLevels_point _) (twoLevels_column (by norm_num) 100) ?_
  have h := twoLevels_column (b := 1 / 9) (by norm_num) 50
  norm_num at h ⊢
  exact h

end Momlevel.Props
