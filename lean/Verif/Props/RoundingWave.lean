import Verif.Model.RoundingWave
import Verif.Model.Coriolis
import Verif.Props.RoundingAverage
import Verif.Props.WaveSpeed
import Mathlib.Tactic.GCongr

/-! # C131: wave speed and Rossby radius in floating point -/

set_option linter.unusedSectionVars false

namespace Momlevel.Props
open Momlevel Momlevel.Fl Momlevel.Spec

variable {ρ : ℝ → ℝ} {u : ℝ}

/-- Two roundings in a row. -/
theorem twice_error (hr : Rounds u 0 ρ) (hu : 0 ≤ u) (x y : ℝ) :
    |ρ (ρ x * y) - x * y| ≤ ((1 + u) ^ 2 - 1) * |x * y| := by
  have h1 := hr x
  have h2 := hr (ρ x * y)
  rw [max_eq_left (abs_nonneg _)] at h1 h2
  have h3 : |ρ x * y - x * y| ≤ u * |x * y| := by
    rw [← sub_mul, abs_mul, abs_mul, ← mul_assoc]
    exact mul_le_mul_of_nonneg_right h1 (abs_nonneg _)
  have h4 : |ρ x * y| ≤ (1 + u) * |x * y| := by
    have := abs_sub_abs_le_abs_sub (ρ x * y) (x * y)
    linarith
  have h5 := abs_sub_le (ρ (ρ x * y)) (ρ x * y) (x * y)
  have h6 := mul_le_mul_of_nonneg_left h4 hu
  nlinarith

/-- Division by a rounded number, rounded. -/
theorem quotient_error' (hr : Rounds u 0 ρ) (hu : 0 ≤ u) (hu1 : u < 1) {g S S' M W : ℝ} (hW : 0 < W)
    (hg : 1 ≤ g) (hM : |S| ≤ M) (h : |S' - S| ≤ (g - 1) * M) :
    |ρ (S' / ρ W) - S / W| ≤ ((1 + u) * g / (1 - u) - 1) * (M / W) := by
  have hW' := hr W
  rw [max_eq_left (abs_nonneg _), abs_of_pos hW] at hW'
  have h1u : 0 < 1 - u := by linarith
  have hlow : (1 - u) * W ≤ ρ W := by have := (abs_le.1 hW').1; linarith
  have hpos : 0 < ρ W := lt_of_lt_of_le (mul_pos h1u hW) hlow
  have hM0 : 0 ≤ M := (abs_nonneg _).trans hM
  have hS' : |S'| ≤ g * M := by
    have := abs_sub_abs_le_abs_sub S' S
    linarith
  -- the quotient before it is rounded
  have hq : |S' / ρ W - S / W| ≤ (g / (1 - u) - 1) * (M / W) := by
    have e : S' / ρ W - S / W = (S' * (W - ρ W) / W + (S' - S) * (ρ W / W)) / ρ W := by
      field_simp; ring
    rw [e, abs_div, abs_of_pos hpos, div_le_iff₀ hpos]
    have a1 : |S' * (W - ρ W) / W| ≤ g * M * u := by
      rw [abs_div, abs_mul, abs_of_pos hW, div_le_iff₀ hW, abs_sub_comm W, mul_assoc]
      exact mul_le_mul hS' hW' (abs_nonneg _) (by positivity)
    have a2 : |(S' - S) * (ρ W / W)| ≤ (g - 1) * M * (ρ W / W) := by
      rw [abs_mul, abs_of_pos (div_pos hpos hW)]
      exact mul_le_mul_of_nonneg_right h (div_pos hpos hW).le
    have a3 := abs_add_le (S' * (W - ρ W) / W) ((S' - S) * (ρ W / W))
    have a4 : g * M * u ≤ g * M * (u / (1 - u)) * (ρ W / W) := by
      rw [mul_assoc (g * M)]
      refine mul_le_mul_of_nonneg_left ?_ (by positivity)
      rw [div_mul_div_comm, le_div_iff₀ (by positivity)]
      exact mul_le_mul_of_nonneg_left hlow hu
    have a5 : (g / (1 - u) - 1) * (M / W) * ρ W = (g - 1) * M * (ρ W / W) + g * M * (u / (1 - u)) * (ρ W / W) := by
      field_simp; ring
    linarith
  have h1 := hr (S' / ρ W)
  rw [max_eq_left (abs_nonneg _)] at h1
  have hb : |S / W| ≤ M / W := by
    rw [abs_div, abs_of_pos hW]
    exact div_le_div_of_nonneg_right hM hW.le
  have h2 : |S' / ρ W| ≤ g / (1 - u) * (M / W) := by
    have := abs_sub_abs_le_abs_sub (S' / ρ W) (S / W)
    linarith
  have h3 := abs_sub_le (ρ (S' / ρ W)) (S' / ρ W) (S / W)
  have h4 := mul_le_mul_of_nonneg_left h2 hu
  have e : ((1 + u) * g / (1 - u) - 1) * (M / W) = u * (g / (1 - u) * (M / W)) + (g / (1 - u) - 1) * (M / W) := by
    ring
  linarith

/-- The model of one column, in floating point. -/
noncomputable def waveRd (ρ : ℝ → ℝ) (N D : ℕ → Fl ℝ) (order : SumTree ℕ) : ℝ :=
  (waveColumn (Rd.sqrt Real.sqrt) (⟨ρ Real.pi⟩ : Rd ρ) (fun k => ⟨val0 (N k)⟩) (fun k => ⟨val0 (D k)⟩) order).val

theorem waveTerm_val0 {a d : Fl ℝ} (ha : FN a) (hd : a ≠ nan → FN d) :
    waveTerm a d = Real.sqrt (val0 a) * val0 d := by
  obtain rfl | ⟨x, rfl⟩ := ha
  · cases d <;> simp [waveTerm, val0]
  · obtain rfl | ⟨y, rfl⟩ := hd (by simp)
    · simp [waveTerm, val0]
    · simp [waveTerm, val0]

theorem perm_range_sum {n : ℕ} {l : List ℕ} (ho : l.Perm (List.range n)) (g : ℕ → ℝ) :
    (l.map g).sum = ∑ k ∈ Finset.range n, g k := by
  rw [(ho.map g).sum_eq]
  clear ho
  induction n with
  | zero => simp
  | succ n ih => simp [List.range_succ, Finset.sum_range_succ, ih]

/-- Error of the sum over the levels divided by π. -/
theorem wave_error (hr : Rounds u 0 ρ) (hu : 0 ≤ u) (hu1 : u < 1) (N D : ℕ → Fl ℝ) {n : ℕ} {order : SumTree ℕ}
    (ho : order.leaves.Perm (List.range n)) :
    |waveRd ρ N D order - (∑ k ∈ Finset.range n, Real.sqrt (val0 (N k)) * val0 (D k)) / Real.pi|
      ≤ ((1 + u) ^ (order.depth + 3) / (1 - u) - 1)
        * ((∑ k ∈ Finset.range n, Real.sqrt (val0 (N k)) * |val0 (D k)|) / Real.pi) := by
  set f : ℕ → ℝ := fun k => Real.sqrt (val0 (N k)) * val0 (D k)
  set B : ℕ → ℝ := fun k => Real.sqrt (val0 (N k)) * |val0 (D k)|
  have hB : ∀ i, |f i| = B i := fun i => by
    simp only [f, B, abs_mul, abs_of_nonneg (Real.sqrt_nonneg _)]
  have hsum := perm_range_sum ho
  obtain ⟨k1, k2, -⟩ := SumTree.sum_error hr hu le_rfl
    (fun k => Rd.sqrt Real.sqrt (⟨val0 (N k)⟩ : Rd ρ) * ⟨val0 (D k)⟩) f (fun i => ((1 + u) ^ 2 - 1) * B i) B order
    (fun b _ => by rw [← hB]; exact twice_error hr hu _ _) (fun b _ => (hB b).le)
  simp only [add_zero] at k1
  rw [List.sum_map_mul_left] at k1
  have e1 : (1 + u) ^ order.depth * (((1 + u) ^ 2 - 1) * (order.leaves.map B).sum)
      + ((1 + u) ^ order.depth - 1) * (order.leaves.map B).sum
      = ((1 + u) ^ (order.depth + 2) - 1) * (order.leaves.map B).sum := by ring
  rw [e1] at k1
  have key := quotient_error' hr hu hu1 Real.pi_pos (one_le_pow₀ (by linarith)) k2 k1
  have e2 : (1 + u) * (1 + u) ^ (order.depth + 2) = (1 + u) ^ (order.depth + 3) := by ring
  rw [SumTree.sum_leaves, hsum f, hsum B, e2] at key
  exact key

theorem SumTree.depth_lt {β : Type*} (t : SumTree β) : t.depth < t.leaves.length := by
  induction t with
  | leaf b => simp [SumTree.depth, SumTree.leaves]
  | node l r ihl ihr =>
    have h1 := l.leaves_pos
    have h2 := r.leaves_pos
    simp only [SumTree.depth, SumTree.leaves, List.length_append]
    omega

theorem exists_order {n : ℕ} (hn : n ≠ 0) : ∃ o : SumTree ℕ, o.leaves.Perm (List.range n) := by
  obtain ⟨m, rfl⟩ := Nat.exists_eq_succ_of_ne_zero hn
  clear hn
  induction m with
  | zero => exact ⟨.leaf 0, by simp [SumTree.leaves]⟩
  | succ m ih =>
    obtain ⟨o, ho⟩ := ih
    refine ⟨.node o (.leaf (m + 1)), ?_⟩
    rw [List.range_succ]
    exact ho.append_right _

theorem layer_bounds {n2 : DA (Fl ℝ)} {n : Nat} {rest : List (String × Nat)}
    (hd : n2.dims = ("z_l", n) :: rest) (hnd : n2.dimNames.Nodup) {e : Env}
    (he : (n2.isel "z_l" 0).InBounds e) {k : Nat} (hk : k < n) : n2.InBounds (Function.update e "z_l" k) := by
  intro p hp
  by_cases h : p.1 = "z_l"
  · have : p.2 = n := by
      have h1 := DA.size_of_mem hnd hp
      have h2 := DA.size_of_mem hnd (p := ("z_l", n)) (by rw [hd]; simp)
      rw [← h1, h, h2]
    rw [h, Function.update_self, this]; exact hk
  · rw [Function.update_of_ne h]
    exact he p (by
      show p ∈ n2.dims.filter _
      rw [List.mem_filter]
      exact ⟨hp, by simpa using h⟩)

/-- The wave speed that `calc_wave_speed` returns and the one column written with the operations of any
number type: without rounding they are the same. -/
theorem C131_model {n2 dz : DA (Fl ℝ)} {n : Nat} {rest : List (String × Nat)}
    (hd : n2.dims = ("z_l", n) :: rest) (hn : n ≠ 0) (hnd : n2.dimNames.Nodup)
    (hv : ∀ e, n2.InBounds e → FN (n2.get e)) :
    ∃ r adj, calcWaveSpeed n2 dz = .ok r ∧ adjustNegativeN2 n2 = .ok adj ∧
      ∀ e, (n2.isel "z_l" 0).InBounds e →
        (∀ k < n, column n2 "z_l" e k ≠ nan → FN (column dz "z_l" e k)) →
        n2.get (Function.update e "z_l" 0) ≠ nan →
        ∀ order : SumTree ℕ, order.leaves.Perm (List.range n) →
          r.get e = fin (waveColumn Real.sqrt Real.pi (fun k => val0 (column adj "z_l" e k))
            (fun k => val0 (column dz "z_l" e k)) order) := by
  obtain ⟨r, adj, h1, h2, h3⟩ := C14_formula (dz := dz) hd hn hnd hv
  obtain ⟨adj', a1, a2, a3⟩ := C12_positive hd hn hv
  obtain rfl : adj' = adj := Except.ok.inj (a1.symm.trans h2)
  refine ⟨r, adj', h1, h2, fun e he hdz htop order ho => ?_⟩
  have ht : ∀ k < n, waveTerm (column adj' "z_l" e k) (column dz "z_l" e k)
      = Real.sqrt (val0 (column adj' "z_l" e k)) * val0 (column dz "z_l" e k) := by
    intro k hk
    obtain ⟨b1, b2⟩ := a3 _ (layer_bounds hd hnd he hk)
    by_cases h : column n2 "z_l" e k = nan
    · have h' : column adj' "z_l" e k = nan := b1.2 h
      rw [h']
      cases column dz "z_l" e k <;> simp [waveTerm, val0]
    · obtain ⟨y, -, hy⟩ := b2 h
      exact waveTerm_val0 (Or.inr ⟨y, hy⟩) (fun _ => hdz k hk h)
  rw [(h3 e he hdz).2 htop]
  unfold waveColumn
  rw [SumTree.sum_leaves, perm_range_sum ho]
  congr 2
  exact Finset.sum_congr rfl (fun k hk => ht k (Finset.mem_range.1 hk))

/-- Where the wave speed is not missing, the value computed in floating point is within
`(1+u)^(d+3) / (1-u) - 1` of it, relative to it; `d` is the number of additions a layer goes through. -/
theorem C131_wave (hr : Rounds u 0 ρ) (hu : 0 ≤ u) (hu1 : u < 1)
    {n2 dz : DA (Fl ℝ)} {n : Nat} {rest : List (String × Nat)}
    (hd : n2.dims = ("z_l", n) :: rest) (hn : n ≠ 0) (hnd : n2.dimNames.Nodup)
    (hv : ∀ e, n2.InBounds e → FN (n2.get e)) :
    ∃ r adj, calcWaveSpeed n2 dz = .ok r ∧ adjustNegativeN2 n2 = .ok adj ∧
      ∀ e, (n2.isel "z_l" 0).InBounds e →
        (∀ k < n, column n2 "z_l" e k ≠ nan →
          column dz "z_l" e k = nan ∨ ∃ h, 0 ≤ h ∧ column dz "z_l" e k = fin h) →
        n2.get (Function.update e "z_l" 0) ≠ nan →
        ∃ c, r.get e = fin c ∧ 0 ≤ c ∧ ∀ order : SumTree ℕ, order.leaves.Perm (List.range n) →
          |waveRd ρ (column adj "z_l" e) (column dz "z_l" e) order - c|
            ≤ ((1 + u) ^ (order.depth + 3) / (1 - u) - 1) * c := by
  obtain ⟨r, adj, h1, h2, h3⟩ := C131_model (dz := dz) hd hn hnd hv
  obtain ⟨adj', a1, a2, a3⟩ := C12_positive hd hn hv
  obtain rfl : adj' = adj := Except.ok.inj (a1.symm.trans h2)
  refine ⟨r, adj', h1, h2, fun e he hdz htop => ?_⟩
  have hdz' : ∀ k < n, column n2 "z_l" e k ≠ nan → FN (column dz "z_l" e k) := fun k hk h =>
    (hdz k hk h).elim Or.inl (fun ⟨x, _, hx⟩ => Or.inr ⟨x, hx⟩)
  have hterm : ∀ k ∈ Finset.range n, Real.sqrt (val0 (column adj' "z_l" e k)) * |val0 (column dz "z_l" e k)|
      = Real.sqrt (val0 (column adj' "z_l" e k)) * val0 (column dz "z_l" e k) := by
    intro k hk
    have hk := Finset.mem_range.1 hk
    by_cases h : column n2 "z_l" e k = nan
    · have h' : column adj' "z_l" e k = nan := (a3 _ (layer_bounds hd hnd he hk)).1.2 h
      simp [h', val0]
    · obtain h' | ⟨x, hx, h'⟩ := hdz k hk h
      · simp [h', val0]
      · simp [h', val0, abs_of_nonneg hx]
  have hc : ∀ order : SumTree ℕ, order.leaves.Perm (List.range n) →
      waveColumn Real.sqrt Real.pi (fun k => val0 (column adj' "z_l" e k))
        (fun k => val0 (column dz "z_l" e k)) order
      = (∑ k ∈ Finset.range n, Real.sqrt (val0 (column adj' "z_l" e k)) * val0 (column dz "z_l" e k))
        / Real.pi := by
    intro order ho
    unfold waveColumn
    rw [SumTree.sum_leaves, perm_range_sum ho]
  obtain ⟨o, ho⟩ := exists_order hn
  refine ⟨_, (h3 e he hdz' htop o ho).trans (congrArg fin (hc o ho)), ?_, fun order ho => ?_⟩
  · refine div_nonneg (Finset.sum_nonneg (fun k hk => ?_)) Real.pi_pos.le
    rw [← hterm k hk]
    positivity
  · have := wave_error hr hu hu1 (column adj' "z_l" e) (column dz "z_l" e) ho
    rwa [Finset.sum_congr rfl hterm] at this

/-- The Rossby radius, from the computed wave speed and a Coriolis parameter that is not zero: one more
rounding. -/
theorem C131_radius (hr : Rounds u 0 ρ) (hu : 0 ≤ u) {wave coriolis : DA (Fl ℝ)} {e : Env} {c c' f g : ℝ}
    (hc : wave.get e = fin c) (hf : coriolis.get e = fin f) (hf0 : f ≠ 0) (h0 : 0 ≤ c)
    (h : |c' - c| ≤ (g - 1) * c) :
    ∃ R, (calcRossbyRd wave coriolis).get e = fin R ∧ 0 ≤ R ∧
      |(rossbyPoint Rd.absolute (⟨c'⟩ : Rd ρ) ⟨f⟩).val - R| ≤ ((1 + u) * g - 1) * R := by
  have hf' : 0 < |f| := abs_pos.2 hf0
  refine ⟨c / |f|, ?_, div_nonneg h0 hf'.le, ?_⟩
  · simp only [calcRossbyRd, DA.get_div, DA.get_map, hc, hf]
    show fin c / fin |f| = _
    exact fin_div_of_ne _ hf'.ne'
  · have := quotient_error hr hu hf' (abs_of_nonneg h0).le h
    exact this

/-- Double precision and at most 75 levels: the wave speed is correct to `10⁻¹⁴` of its value, in whatever
order the levels are added up, and the radius to `10⁻¹⁴` of its. -/
theorem C131_double {n2 dz : DA (Fl ℝ)} {n : Nat} {rest : List (String × Nat)}
    (hd : n2.dims = ("z_l", n) :: rest) (hn : n ≠ 0) (hn75 : n ≤ 75) (hnd : n2.dimNames.Nodup)
    (hv : ∀ e, n2.InBounds e → FN (n2.get e)) :
    ∃ r adj, calcWaveSpeed n2 dz = .ok r ∧ adjustNegativeN2 n2 = .ok adj ∧
      ∀ e, (n2.isel "z_l" 0).InBounds e →
        (∀ k < n, column n2 "z_l" e k ≠ nan →
          column dz "z_l" e k = nan ∨ ∃ h, 0 ≤ h ∧ column dz "z_l" e k = fin h) →
        n2.get (Function.update e "z_l" 0) ≠ nan →
        ∃ c, r.get e = fin c ∧ ∀ order : SumTree ℕ, order.leaves.Perm (List.range n) →
          |waveRd (nearest 53) (column adj "z_l" e) (column dz "z_l" e) order - c| ≤ 1e-14 * c ∧
          ∀ (coriolis : DA (Fl ℝ)) (f : ℝ), coriolis.get e = fin f → f ≠ 0 →
            ∃ R, (calcRossbyRd r coriolis).get e = fin R ∧
              |(rossbyPoint Rd.absolute
                (⟨waveRd (nearest 53) (column adj "z_l" e) (column dz "z_l" e) order⟩ : Rd (nearest 53)) ⟨f⟩).val
                - R| ≤ 1e-14 * R := by
  have hr := C91_nearest 53
  have hu : (0 : ℝ) ≤ 2⁻¹ ^ 53 := by positivity
  have hu1 : (2⁻¹ : ℝ) ^ 53 < 1 := by norm_num
  obtain ⟨r, adj, h1, h2, h3⟩ := C131_wave (dz := dz) hr hu hu1 hd hn hnd hv
  refine ⟨r, adj, h1, h2, fun e he hdz htop => ?_⟩
  obtain ⟨c, hc, h0, herr⟩ := h3 e he hdz htop
  refine ⟨c, hc, fun order ho => ?_⟩
  have hdep : order.depth ≤ 74 := by
    have h := SumTree.depth_lt order
    rw [ho.length_eq, List.length_range] at h
    omega
  have hpow : (1 + (2⁻¹ : ℝ) ^ 53) ^ (order.depth + 3) ≤ (1 + (2⁻¹ : ℝ) ^ 53) ^ 77 :=
    pow_le_pow_right₀ (by linarith) (by omega)
  have hden : (0 : ℝ) < 1 - 2⁻¹ ^ 53 := by linarith
  have hle := div_le_div_of_nonneg_right hpow hden.le
  have num1 : (1 + (2⁻¹ : ℝ) ^ 53) ^ 77 / (1 - 2⁻¹ ^ 53) - 1 ≤ 1e-14 := by norm_num
  have num2 : (1 + (2⁻¹ : ℝ) ^ 53) * ((1 + (2⁻¹ : ℝ) ^ 53) ^ 77 / (1 - 2⁻¹ ^ 53)) - 1 ≤ 1e-14 := by norm_num
  refine ⟨(herr order ho).trans (mul_le_mul_of_nonneg_right (by linarith) h0), fun coriolis f hf hf0 => ?_⟩
  obtain ⟨R, k1, k2, k3⟩ := C131_radius hr hu hc hf hf0 h0 (herr order ho)
  refine ⟨R, k1, k3.trans (mul_le_mul_of_nonneg_right ?_ k2)⟩
  have := mul_le_mul_of_nonneg_left hle (by linarith : (0 : ℝ) ≤ 1 + 2⁻¹ ^ 53)
  linarith

/-- Non-vacuity: two levels, the lower one unstable, dry below. -/
example :
    let n2 : DA (Fl ℝ) := ⟨[("z_l", 3), ("x", 1)], fun e => if e "z_l" = 2 then nan else fin (1 - 2 * e "z_l")⟩
    let dz : DA (Fl ℝ) := ⟨[("z_l", 3)], fun e => fin (e "z_l" + 1)⟩
    n2.dims = ("z_l", 3) :: [("x", 1)] ∧ n2.dimNames.Nodup ∧ (∀ e, n2.InBounds e → FN (n2.get e))
      ∧ (n2.isel "z_l" 0).InBounds (fun _ => 0)
      ∧ (∀ k < 3, column dz "z_l" (fun _ => 0) k = nan ∨ ∃ h, 0 ≤ h ∧ column dz "z_l" (fun _ => 0) k = fin h)
      ∧ n2.get (Function.update (fun _ => 0) "z_l" 0) ≠ nan
      ∧ (SumTree.node (.node (.leaf 0) (.leaf 2)) (.leaf 1)).leaves.Perm (List.range 3) := by
  refine ⟨rfl, by simp [DA.dimNames], fun e _ => ?_, ?_, fun k _ => Or.inr ⟨_, ?_, rfl⟩, by simp, by decide⟩
  · show FN (if e "z_l" = 2 then nan else fin _)
    split
    · exact FN_nan
    · exact FN_fin _
  · intro p hp
    simp [DA.isel] at hp
    subst hp
    norm_num
  · positivity

end Momlevel.Props
