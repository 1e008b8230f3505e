import Verif.Props.N2
import Mathlib.Tactic.IntervalCases

/-! # C98: buoyancy frequency of stably stratified columns -/

set_option linter.unusedSectionVars false

namespace Momlevel.Props
open Momlevel Momlevel.Fl Momlevel.Eos

section Grid

variable {K : Type} [Field K] [LinearOrder K] [IsStrictOrderedRing K]

/-- At an inner node the discrete derivative is the mean of the two slopes, each weighted by the other spacing. -/
theorem derivAt_inner {n : Nat} {x f : Nat → K} {i : Nat} (h0 : 0 < i) (hn : i + 1 < n)
    (h1 : x (i - 1) < x i) (h2 : x i < x (i + 1)) :
    Spec.derivAt n x f i * (x (i + 1) - x (i - 1))
      = (x (i + 1) - x i) * ((f i - f (i - 1)) / (x i - x (i - 1)))
        + (x i - x (i - 1)) * ((f (i + 1) - f i) / (x (i + 1) - x i)) := by
  have hs : Spec.stencil n i = i - 1 := by
    unfold Spec.stencil
    rw [if_neg (by omega), if_neg (by omega)]
  have e1 : i - 1 + 1 = i := by omega
  have e2 : i - 1 + 2 = i + 1 := by omega
  unfold Spec.derivAt Spec.parabolaDeriv
  simp only [hs, e1, e2]
  generalize x (i - 1) = a at *
  generalize x i = b at *
  generalize x (i + 1) = c at *
  have n1 : b - a ≠ 0 := by linarith
  have n2 : c - b ≠ 0 := by linarith
  have n3 : c - a ≠ 0 := by linarith
  have m1 : a - b ≠ 0 := by linarith
  have m2 : b - c ≠ 0 := by linarith
  have m3 : a - c ≠ 0 := by linarith
  have k1 : a - b = -(b - a) := by ring
  have k2 : b - c = -(c - b) := by ring
  have k3 : a - c = -(c - a) := by ring
  rw [k1, k2, k3]
  field_simp
  ring

/-- At the first node: the first slope, extrapolated by the change of slope. -/
theorem derivAt_top {n : Nat} {x f : Nat → K} (h1 : x 0 < x 1) (h2 : x 1 < x 2) :
    Spec.derivAt n x f 0 * (x 2 - x 0)
      = (x 2 - x 0 + (x 1 - x 0)) * ((f 1 - f 0) / (x 1 - x 0)) - (x 1 - x 0) * ((f 2 - f 1) / (x 2 - x 1)) := by
  unfold Spec.derivAt Spec.parabolaDeriv Spec.stencil
  simp only [if_true, Nat.zero_add]
  generalize x 0 = a at *
  generalize x 1 = b at *
  generalize x 2 = c at *
  have n1 : b - a ≠ 0 := by linarith
  have n2 : c - b ≠ 0 := by linarith
  have n3 : c - a ≠ 0 := by linarith
  have k1 : a - b = -(b - a) := by ring
  have k2 : b - c = -(c - b) := by ring
  have k3 : a - c = -(c - a) := by ring
  rw [k1, k2, k3]
  field_simp
  ring

/-- At the last node: the last slope, extrapolated by the change of slope. -/
theorem derivAt_bottom {m : Nat} {x f : Nat → K} (h1 : x m < x (m + 1)) (h2 : x (m + 1) < x (m + 2)) :
    Spec.derivAt (m + 3) x f (m + 2) * (x (m + 2) - x m)
      = (x (m + 2) - x m + (x (m + 2) - x (m + 1))) * ((f (m + 2) - f (m + 1)) / (x (m + 2) - x (m + 1)))
        - (x (m + 2) - x (m + 1)) * ((f (m + 1) - f m) / (x (m + 1) - x m)) := by
  have hs : Spec.stencil (m + 3) (m + 2) = m := by
    unfold Spec.stencil
    rw [if_neg (by omega)]
    split_ifs <;> omega
  unfold Spec.derivAt Spec.parabolaDeriv
  simp only [hs]
  generalize x m = a at *
  generalize x (m + 1) = b at *
  generalize x (m + 2) = c at *
  have n1 : b - a ≠ 0 := by linarith
  have n2 : c - b ≠ 0 := by linarith
  have n3 : c - a ≠ 0 := by linarith
  have k1 : a - b = -(b - a) := by ring
  have k2 : b - c = -(c - b) := by ring
  have k3 : a - c = -(c - a) := by ring
  rw [k1, k2, k3]
  field_simp
  ring

theorem derivAt_inner_nonneg {n : Nat} {x f : Nat → K} {i : Nat} (h0 : 0 < i) (hn : i + 1 < n)
    (h1 : x (i - 1) < x i) (h2 : x i < x (i + 1)) (f1 : f (i - 1) ≤ f i) (f2 : f i ≤ f (i + 1)) :
    0 ≤ Spec.derivAt n x f i ∧ (f (i - 1) < f (i + 1) → 0 < Spec.derivAt n x f i) := by
  have hd := derivAt_inner (f := f) h0 hn h1 h2
  have p1 : 0 < x i - x (i - 1) := by linarith
  have p2 : 0 < x (i + 1) - x i := by linarith
  have p3 : 0 < x (i + 1) - x (i - 1) := by linarith
  have s1 : 0 ≤ (f i - f (i - 1)) / (x i - x (i - 1)) := div_nonneg (by linarith) p1.le
  have s2 : 0 ≤ (f (i + 1) - f i) / (x (i + 1) - x i) := div_nonneg (by linarith) p2.le
  have t1 := mul_nonneg p2.le s1
  have t2 := mul_nonneg p1.le s2
  constructor
  · by_contra hneg
    have := mul_neg_of_neg_of_pos (not_le.1 hneg) p3
    linarith
  · intro hlt
    by_contra hneg
    have h3 := mul_nonpos_of_nonpos_of_nonneg (not_lt.1 hneg) p3.le
    rcases lt_or_ge (f (i - 1)) (f i) with h4 | h4
    · have := mul_pos p2 (div_pos (by linarith : 0 < f i - f (i - 1)) p1)
      linarith
    · have := mul_pos p1 (div_pos (by linarith : 0 < f (i + 1) - f i) p2)
      linarith

theorem derivAt_neg (n : Nat) (x f : Nat → K) (i : Nat) :
    Spec.derivAt n x (fun k => -f k) i = -Spec.derivAt n x f i := by
  have := derivAt_linear n x f f (-1) 0 i
  simpa using this

end Grid

/-- Depths in the order of the levels, increasing at the level `i`. -/
def Deeper (x : Nat → ℝ) (i : Nat) : Prop := x (i - 1) < x i ∧ x i < x (i + 1)

theorem wright_coeffs {T S p : ℝ} (h : Spec.Wright.Ocean T S p) (hl : 4.5 - 0.23 * S ≤ T) :
    ∃ a b : ℝ, 0 < a ∧ 0 < b ∧ Wright.alpha (fin T) (fin S) (fin p) = fin a ∧
      Wright.beta (fin T) (fin S) (fin p) = fin b := by
  have hp := C03_pos h
  have hlin : Linear.density T S p ≠ 0 := by
    rw [C02_linear_density]
    obtain ⟨h1, h2, h3, h4, -⟩ := h
    have : 0 < 1000 - T / 5 + 4 / 5 * S := by linarith
    exact this.ne'
  obtain ⟨e1, e2, -⟩ := C02_float_finite T S p hp.1.ne' hp.2.ne' hlin
  exact ⟨_, _, C04_alpha_pos h hl, C03_beta_pos h, e1, e2⟩

/-- With Wright's equation `N²` is a negative multiple of `a T_z - b S_z` with positive `a` and `b`. -/
theorem wright_n2 {th so : DA (Fl ℝ)} {z : Nat → Fl ℝ} {e : Env} {n : Nat} {x T S : Nat → ℝ}
    (c : TSColumn th so z "z_l" e n x T S)
    (ho : Spec.Wright.Ocean (T (e "z_l")) (S (e "z_l")) (x (e "z_l") * 10 ^ 4 + 101325))
    (hl : 4.5 - 0.23 * S (e "z_l") ≤ T (e "z_l")) :
    ∃ r a b, calcN2 th so z = .ok r ∧ 0 < a ∧ 0 < b ∧
      r.get e = fin (b * Spec.derivAt n x S (e "z_l") - a * Spec.derivAt n x T (e "z_l")) := by
  obtain ⟨a, b, ha, hb, h1, h2⟩ := wright_coeffs ho hl
  have fa : eosFuncFromStr "Wright" "alpha" = .ok (fun T S p : Fl ℝ => Wright.alpha T S p) := rfl
  have fb : eosFuncFromStr "Wright" "beta" = .ok (fun T S p : Fl ℝ => Wright.beta T S p) := rfl
  obtain ⟨r, hr, hv⟩ := C19_formula c fa fb (-(49 / 5)) (DA.scalar (fin 101325)) (by simp) 101325 rfl
  rw [h1, h2] at hv
  refine ⟨r, 49 / 5 * a, 49 / 5 * b, by rw [C19_defaults]; exact hr, by positivity, by positivity, ?_⟩
  rw [hv]
  simp only [fin_mul, fin_sub]
  congr 1
  ring

/-- Away from the ends, temperature that does not rise and salinity that does not fall with depth (one of them
changing) make `N²` positive. -/
theorem C98_inner_partial {th so : DA (Fl ℝ)} {z : Nat → Fl ℝ} {e : Env} {n : Nat} {x T S : Nat → ℝ}
    (c : TSColumn th so z "z_l" e n x T S) {i : Nat} (hi : e "z_l" = i) (h0 : 0 < i) (hn : i + 1 < n)
    (hx : Deeper x i)
    (ho : Spec.Wright.Ocean (T i) (S i) (x i * 10 ^ 4 + 101325)) (hl : 4.5 - 0.23 * S i ≤ T i)
    (hT : T (i + 1) ≤ T i ∧ T i ≤ T (i - 1)) (hS : S (i - 1) ≤ S i ∧ S i ≤ S (i + 1)) :
    ∃ r N, calcN2 th so z = .ok r ∧ r.get e = fin N ∧ 0 ≤ N ∧
      (T (i + 1) < T (i - 1) ∨ S (i - 1) < S (i + 1) → 0 < N) := by
  subst hi
  obtain ⟨r, a, b, hr, ha, hb, hv⟩ := wright_n2 c ho hl
  have ds := derivAt_inner_nonneg (f := S) h0 hn hx.1 hx.2 hS.1 hS.2
  have dt := derivAt_inner_nonneg (f := fun k => -T k) h0 hn hx.1 hx.2 (by simpa using hT.2) (by simpa using hT.1)
  rw [derivAt_neg] at dt
  refine ⟨r, _, hr, hv, ?_, ?_⟩
  · have := mul_nonneg hb.le ds.1
    have := mul_nonneg ha.le dt.1
    linarith
  · rintro (h | h)
    · have := mul_nonneg hb.le ds.1
      have := mul_pos ha (dt.2 (by simpa using h))
      linarith
    · have := mul_pos hb (ds.2 h)
      have := mul_nonneg ha.le dt.1
      linarith

/-- And the other way round, negative. -/
theorem C98_inner_unstable {th so : DA (Fl ℝ)} {z : Nat → Fl ℝ} {e : Env} {n : Nat} {x T S : Nat → ℝ}
    (c : TSColumn th so z "z_l" e n x T S) {i : Nat} (hi : e "z_l" = i) (h0 : 0 < i) (hn : i + 1 < n)
    (hx : Deeper x i)
    (ho : Spec.Wright.Ocean (T i) (S i) (x i * 10 ^ 4 + 101325)) (hl : 4.5 - 0.23 * S i ≤ T i)
    (hT : T i ≤ T (i + 1) ∧ T (i - 1) ≤ T i) (hS : S i ≤ S (i - 1) ∧ S (i + 1) ≤ S i)
    (h : T (i - 1) < T (i + 1) ∨ S (i + 1) < S (i - 1)) :
    ∃ r N, calcN2 th so z = .ok r ∧ r.get e = fin N ∧ N < 0 := by
  subst hi
  obtain ⟨r, a, b, hr, ha, hb, hv⟩ := wright_n2 c ho hl
  have dt := derivAt_inner_nonneg (f := T) h0 hn hx.1 hx.2 hT.2 hT.1
  have ds := derivAt_inner_nonneg (f := fun k => -S k) h0 hn hx.1 hx.2 (by simpa using hS.1) (by simpa using hS.2)
  rw [derivAt_neg] at ds
  refine ⟨r, _, hr, hv, ?_⟩
  rcases h with h | h
  · have := mul_nonneg hb.le ds.1
    have := mul_pos ha (dt.2 h)
    linarith
  · have := mul_pos hb (ds.2 (by simpa using h))
    have := mul_nonneg ha.le dt.1
    linarith

/-- At the surface, with uniform salinity, the sign is that of an extrapolation: `N²` is positive exactly if the
drop of temperature between the first two levels is large enough compared with the next one. -/
theorem C98_surface_iff {th so : DA (Fl ℝ)} {z : Nat → Fl ℝ} {e : Env} {n : Nat} {x T S : Nat → ℝ}
    (c : TSColumn th so z "z_l" e n x T S) (hi : e "z_l" = 0) (h1 : x 0 < x 1) (h2 : x 1 < x 2)
    (ho : Spec.Wright.Ocean (T 0) (S 0) (x 0 * 10 ^ 4 + 101325)) (hl : 4.5 - 0.23 * S 0 ≤ T 0)
    (hS : ∀ k, S k = S 0) :
    ∃ r N, calcN2 th so z = .ok r ∧ r.get e = fin N ∧
      (0 < N ↔ (x 1 - x 0) * ((T 1 - T 2) / (x 2 - x 1))
        < (x 2 - x 0 + (x 1 - x 0)) * ((T 0 - T 1) / (x 1 - x 0))) := by
  obtain ⟨r, a, b, hr, ha, hb, hv⟩ := wright_n2 c (by rw [hi]; exact ho) (by rw [hi]; exact hl)
  have es : S = fun _ => S 0 := funext hS
  have hds : Spec.derivAt n x S (e "z_l") = 0 := by
    rw [es]; exact derivAt_const c.hn c.inj c.he _
  have hdt := derivAt_top (n := n) (f := T) h1 h2
  rw [hds, hi] at hv
  refine ⟨r, _, hr, hv, ?_⟩
  generalize Spec.derivAt n x T 0 = D at *
  have p : 0 < x 2 - x 0 := by linarith
  have q1 : (T 1 - T 0) / (x 1 - x 0) = -((T 0 - T 1) / (x 1 - x 0)) := by rw [← neg_div]; ring
  have q2 : (T 2 - T 1) / (x 2 - x 1) = -((T 1 - T 2) / (x 2 - x 1)) := by rw [← neg_div]; ring
  rw [q1, q2] at hdt
  constructor
  · intro h
    have hD : D < 0 := by
      by_contra hc
      have := mul_nonneg ha.le (not_lt.1 hc)
      linarith
    have := mul_neg_of_neg_of_pos hD p
    linarith
  · intro h
    have hD : D < 0 := by
      by_contra hc
      have := mul_nonneg (not_lt.1 hc) p.le
      linarith
    have := mul_pos_of_neg_of_neg hD (neg_neg_of_pos ha)
    linarith

/-- The same at the deepest of `m + 3` levels. -/
theorem C98_bottom_iff {th so : DA (Fl ℝ)} {z : Nat → Fl ℝ} {e : Env} {m : Nat} {x T S : Nat → ℝ}
    (c : TSColumn th so z "z_l" e (m + 3) x T S) (hi : e "z_l" = m + 2) (h1 : x m < x (m + 1))
    (h2 : x (m + 1) < x (m + 2))
    (ho : Spec.Wright.Ocean (T (m + 2)) (S (m + 2)) (x (m + 2) * 10 ^ 4 + 101325))
    (hl : 4.5 - 0.23 * S (m + 2) ≤ T (m + 2)) (hS : ∀ k, S k = S 0) :
    ∃ r N, calcN2 th so z = .ok r ∧ r.get e = fin N ∧
      (0 < N ↔ (x (m + 2) - x (m + 1)) * ((T m - T (m + 1)) / (x (m + 1) - x m))
        < (x (m + 2) - x m + (x (m + 2) - x (m + 1)))
          * ((T (m + 1) - T (m + 2)) / (x (m + 2) - x (m + 1)))) := by
  obtain ⟨r, a, b, hr, ha, hb, hv⟩ := wright_n2 c (by rw [hi]; exact ho) (by rw [hi]; exact hl)
  have es : S = fun _ => S 0 := funext hS
  have hds : Spec.derivAt (m + 3) x S (e "z_l") = 0 := by
    rw [es]; exact derivAt_const c.hn c.inj c.he _
  have hdt := derivAt_bottom (f := T) h1 h2
  rw [hds, hi] at hv
  refine ⟨r, _, hr, hv, ?_⟩
  generalize Spec.derivAt (m + 3) x T (m + 2) = D at *
  have p : 0 < x (m + 2) - x m := by linarith
  have q1 : (T (m + 2) - T (m + 1)) / (x (m + 2) - x (m + 1))
      = -((T (m + 1) - T (m + 2)) / (x (m + 2) - x (m + 1))) := by rw [← neg_div]; ring
  have q2 : (T (m + 1) - T m) / (x (m + 1) - x m) = -((T m - T (m + 1)) / (x (m + 1) - x m)) := by
    rw [← neg_div]; ring
  rw [q1, q2] at hdt
  constructor
  · intro h
    have hD : D < 0 := by
      by_contra hc
      have := mul_nonneg ha.le (not_lt.1 hc)
      linarith
    have := mul_neg_of_neg_of_pos hD p
    linarith
  · intro h
    have hD : D < 0 := by
      by_contra hc
      have := mul_nonneg (not_lt.1 hc) p.le
      linarith
    have := mul_pos_of_neg_of_neg hD (neg_neg_of_pos ha)
    linarith

/-- A mixed layer over a thermocline: 20, 19.9 and 10 degrees at 5, 15 and 25 metres, uniform salinity. -/
noncomputable def mixT : Nat → ℝ := fun k => if k = 0 then 20 else if k = 1 then 19.9 else 10
noncomputable def mixTh : DA (Fl ℝ) := ⟨[("z_l", 3)], fun e => fin (mixT (e "z_l"))⟩
noncomputable def mixSo : DA (Fl ℝ) := ⟨[("z_l", 3)], fun _ => fin 35⟩
noncomputable def mixX : Nat → ℝ := fun k => 10 * k + 5

theorem mixColumn (k : Nat) (hk : k < 3) :
    TSColumn mixTh mixSo (fun k => fin (mixX k)) "z_l" (fun _ => k) 3 mixX mixT (fun _ => 35) where
  hn := le_rfl
  inj := fun a _ b _ h => by
    unfold mixX at h
    have : (a : ℝ) = b := by linarith
    exact_mod_cast this
  hz := rfl
  tz := by simp [mixTh, DA.dimNames]
  sz := by simp [mixSo, DA.dimNames]
  tn := rfl
  sn := rfl
  hT := fun k _ => by simp [mixTh]
  hS := fun k _ => rfl
  he := hk

/-- The full claim is false: the column is stably stratified (temperature falls with depth everywhere, salinity is
uniform), but at the surface `N²` is negative. -/
theorem C98_surface_counterexample :
    ∃ r N, calcN2 mixTh mixSo (fun k => fin (mixX k)) = .ok r ∧ r.get (fun _ => 0) = fin N ∧ N < 0 ∧
      mixT 2 < mixT 1 ∧ mixT 1 < mixT 0 := by
  have ho : Spec.Wright.Ocean (mixT 0) 35 (mixX 0 * 10 ^ 4 + 101325) := by
    unfold Spec.Wright.Ocean mixT mixX; norm_num
  obtain ⟨r, a, b, hr, ha, hb, hv⟩ := wright_n2 (mixColumn 0 (by norm_num)) ho (by unfold mixT; norm_num)
  refine ⟨r, _, hr, hv, ?_, by unfold mixT; norm_num, by unfold mixT; norm_num⟩
  rw [derivAt_const (mixColumn 0 (by norm_num)).hn (mixColumn 0 (by norm_num)).inj (by norm_num)]
  have hd := derivAt_top (n := 3) (x := mixX) (f := mixT) (by unfold mixX; norm_num) (by unfold mixX; norm_num)
  have hD : Spec.derivAt 3 mixX mixT 0 = 12 / 25 := by
    unfold mixX mixT at hd ⊢
    norm_num at hd ⊢
    linarith
  rw [hD]
  linarith

/-- The inner level of the same column meets the hypotheses of `C98_inner_partial`. -/
example : ∃ r N, calcN2 mixTh mixSo (fun k => fin (mixX k)) = .ok r ∧ r.get (fun _ => 1) = fin N ∧ 0 < N := by
  obtain ⟨r, N, h1, h2, -, h3⟩ := C98_inner_partial (mixColumn 1 (by norm_num)) rfl (by norm_num) (by norm_num)
    (by unfold Deeper mixX; norm_num) (by unfold Spec.Wright.Ocean mixT mixX; norm_num) (by unfold mixT; norm_num)
    (by unfold mixT; norm_num) (by norm_num)
  exact ⟨r, N, h1, h2, h3 (Or.inl (by unfold mixT; norm_num))⟩

/-- And its surface those of `C98_surface_iff`. -/
example : ∃ r N, calcN2 mixTh mixSo (fun k => fin (mixX k)) = .ok r ∧ r.get (fun _ => 0) = fin N ∧ ¬ 0 < N := by
  obtain ⟨r, N, h1, h2, h3⟩ := C98_surface_iff (mixColumn 0 (by norm_num)) rfl (by unfold mixX; norm_num)
    (by unfold mixX; norm_num) (by unfold Spec.Wright.Ocean mixT mixX; norm_num) (by unfold mixT; norm_num)
    (fun _ => rfl)
  refine ⟨r, N, h1, h2, ?_⟩
  rw [h3]
  unfold mixX mixT
  norm_num

/-- The bottom of the same column meets the hypotheses of `C98_bottom_iff`. -/
example : ∃ r N, calcN2 mixTh mixSo (fun k => fin (mixX k)) = .ok r ∧ r.get (fun _ => 2) = fin N ∧ 0 < N := by
  obtain ⟨r, N, h1, h2, h3⟩ := C98_bottom_iff (m := 0) (mixColumn 2 (by norm_num)) rfl (by unfold mixX; norm_num)
    (by unfold mixX; norm_num) (by unfold Spec.Wright.Ocean mixT mixX; norm_num) (by unfold mixT; norm_num)
    (fun _ => rfl)
  refine ⟨r, N, h1, h2, h3.2 ?_⟩
  unfold mixX mixT
  norm_num

/-! ### The sign at every level, with varying temperature and salinity -/

/-- Density along a straight line in the temperature-salinity plane. -/
theorem hasDerivAt_rho_line (T S p a b : ℝ) (h : Spec.Wright.denom T S p ≠ 0) :
    HasDerivAt (fun s => Spec.Wright.rho (T + s * a) (S + s * b) p)
      (Wright.drho_dtemp T S p * a + Wright.drho_dsal T S p * b) 0 := by
  have hu : HasDerivAt (fun s : ℝ => T + s * a) a 0 := by
    simpa using ((hasDerivAt_id (0 : ℝ)).mul_const a).const_add T
  have hv : HasDerivAt (fun s : ℝ => S + s * b) b 0 := by
    simpa using ((hasDerivAt_id (0 : ℝ)).mul_const b).const_add S
  have hp : HasDerivAt (fun s => p + Spec.Wright.p0 (T + s * a) (S + s * b))
      (Wright.p0T T S * a + (Wright.B4 + Wright.B5 * T) * b) 0 := by
    unfold Spec.Wright.p0
    have := ((((((hu.const_mul 3516535).const_add 579074900).sub ((hu.pow 2).const_mul (4002714 / 100))).add
      ((hu.pow 3).const_mul (2084372 / 10 ^ 4))).add (hv.const_mul (5944068 / 10))).sub
      ((hv.const_mul (9643486 / 1000)).mul hu)).const_add p
    refine this.congr_deriv ?_
    simp only [Wright.p0T, Wright.B1, Wright.B2, Wright.B3, Wright.B4, Wright.B5]
    norm_num
    ring
  have hL : HasDerivAt (fun s => Spec.Wright.lam (T + s * a) (S + s * b))
      (Wright.lamT T S * a + (Wright.C4 + Wright.C5 * T) * b) 0 := by
    unfold Spec.Wright.lam
    have := ((((((hu.const_mul (7904722 / 10 ^ 4)).const_add (1704853 / 10)).sub
      ((hu.pow 2).const_mul (7984422 / 10 ^ 6))).add
      ((hu.pow 3).const_mul (5140652 / 10 ^ 8))).sub (hv.const_mul (2302158 / 10 ^ 4))).sub
      ((hv.const_mul (3079464 / 10 ^ 6)).mul hu))
    refine this.congr_deriv ?_
    simp only [Wright.lamT, Wright.C1, Wright.C2, Wright.C3, Wright.C4, Wright.C5]
    norm_num
    ring
  have ha : HasDerivAt (fun s => Spec.Wright.al0 (T + s * a) (S + s * b))
      (Wright.A1 * a + Wright.A2 * b) 0 := by
    unfold Spec.Wright.al0
    have := (((hu.const_mul (3480336 / 10 ^ 13)).const_add (7057924 / 10 ^ 10)).sub
      (hv.const_mul (1112733 / 10 ^ 13)))
    refine this.congr_deriv ?_
    simp only [Wright.A1, Wright.A2]
    norm_num
    ring
  have h0 : Spec.Wright.lam (T + 0 * a) (S + 0 * b) + Spec.Wright.al0 (T + 0 * a) (S + 0 * b)
      * (p + Spec.Wright.p0 (T + 0 * a) (S + 0 * b)) ≠ 0 := by simpa [Spec.Wright.denom] using h
  have := Wright.hasDerivAt_ratio hp hL ha h0
  refine this.congr_deriv ?_
  rw [Wright.drho_dtemp_eq, Wright.drho_dsal_eq]
  simp only [zero_mul, add_zero, Spec.Wright.denom]
  ring

/-- At every level, and for all profiles of temperature and salinity, `N²` is 9.8 times the relative rate of change
of Wright's density, at the pressure of the level, in the direction given by the discrete derivatives of temperature
and salinity.  So it is positive exactly if the density rises in that direction. -/
theorem C98_value {th so : DA (Fl ℝ)} {z : Nat → Fl ℝ} {e : Env} {n : Nat} {x T S : Nat → ℝ}
    (c : TSColumn th so z "z_l" e n x T S) {i : Nat} (hi : e "z_l" = i) {p : ℝ} (hp : p = x i * 10 ^ 4 + 101325)
    (ho : Spec.Wright.Ocean (T i) (S i) p) :
    ∃ r N d, calcN2 th so z = .ok r ∧ r.get e = fin N ∧
      HasDerivAt (fun s => Spec.Wright.rho (T i + s * Spec.derivAt n x T i) (S i + s * Spec.derivAt n x S i) p) d 0 ∧
      N = 49 / 5 * (d / Spec.Wright.rho (T i) (S i) p) ∧ (0 < N ↔ 0 < d) ∧ (N = 0 ↔ d = 0) := by
  subst hi hp
  have hpos := C03_pos ho
  have hlin : Linear.density (T (e "z_l")) (S (e "z_l")) (x (e "z_l") * 10 ^ 4 + 101325) ≠ 0 := by
    rw [C02_linear_density]
    obtain ⟨h1, h2, h3, h4, -⟩ := ho
    have : 0 < 1000 - T (e "z_l") / 5 + 4 / 5 * S (e "z_l") := by linarith
    exact this.ne'
  obtain ⟨e1, e2, -⟩ := C02_float_finite _ _ _ hpos.1.ne' hpos.2.ne' hlin
  have fa : eosFuncFromStr "Wright" "alpha" = .ok (fun T S p : Fl ℝ => Wright.alpha T S p) := rfl
  have fb : eosFuncFromStr "Wright" "beta" = .ok (fun T S p : Fl ℝ => Wright.beta T S p) := rfl
  obtain ⟨r, hr, hv⟩ := C19_formula c fa fb (-(49 / 5)) (DA.scalar (fin 101325)) (by simp) 101325 rfl
  rw [e1, e2] at hv
  simp only [fin_mul, fin_sub] at hv
  have hd := hasDerivAt_rho_line (T (e "z_l")) (S (e "z_l")) (x (e "z_l") * 10 ^ 4 + 101325)
    (Spec.derivAt n x T (e "z_l")) (Spec.derivAt n x S (e "z_l")) hpos.1.ne'
  have hρ := hpos.2
  rw [C01_density_formula] at hρ
  have hN : -(49 / 5) * (Wright.alpha (T (e "z_l")) (S (e "z_l")) (x (e "z_l") * 10 ^ 4 + 101325)
        * Spec.derivAt n x T (e "z_l")
      - Wright.beta (T (e "z_l")) (S (e "z_l")) (x (e "z_l") * 10 ^ 4 + 101325) * Spec.derivAt n x S (e "z_l"))
      = 49 / 5 * ((Wright.drho_dtemp (T (e "z_l")) (S (e "z_l")) (x (e "z_l") * 10 ^ 4 + 101325)
        * Spec.derivAt n x T (e "z_l")
      + Wright.drho_dsal (T (e "z_l")) (S (e "z_l")) (x (e "z_l") * 10 ^ 4 + 101325) * Spec.derivAt n x S (e "z_l"))
        / Spec.Wright.rho (T (e "z_l")) (S (e "z_l")) (x (e "z_l") * 10 ^ 4 + 101325)) := by
    simp only [Wright.alpha, Wright.beta]
    rw [C01_density_formula]
    norm_num
    ring
  refine ⟨r, _, _, by rw [C19_defaults]; exact hr, hv, hd, hN, ?_, ?_⟩
  · rw [hN, mul_pos_iff_of_pos_left (by norm_num : (0 : ℝ) < 49 / 5), div_pos_iff_of_pos_right hρ]
  · rw [hN]
    simp [hρ.ne']

/-- The first level: the direction written out with the differences of the first three levels. -/
theorem C98_surface_direction {n : Nat} {x f : Nat → ℝ} (h1 : x 0 < x 1) (h2 : x 1 < x 2) :
    Spec.derivAt n x f 0 = ((x 2 - x 0 + (x 1 - x 0)) * ((f 1 - f 0) / (x 1 - x 0))
      - (x 1 - x 0) * ((f 2 - f 1) / (x 2 - x 1))) / (x 2 - x 0) := by
  rw [eq_div_iff (by linarith)]
  exact derivAt_top h1 h2

/-- The last of `m + 3` levels: the direction written out with the differences of the last three levels. -/
theorem C98_bottom_direction {m : Nat} {x f : Nat → ℝ} (h1 : x m < x (m + 1)) (h2 : x (m + 1) < x (m + 2)) :
    Spec.derivAt (m + 3) x f (m + 2) = ((x (m + 2) - x m + (x (m + 2) - x (m + 1)))
        * ((f (m + 2) - f (m + 1)) / (x (m + 2) - x (m + 1)))
      - (x (m + 2) - x (m + 1)) * ((f (m + 1) - f m) / (x (m + 1) - x m))) / (x (m + 2) - x m) := by
  rw [eq_div_iff (by linarith)]
  exact derivAt_bottom h1 h2

/-- The three levels of the mixed layer all meet the hypotheses of `C98_value`. -/
example (k : Nat) (hk : k < 3) : ∃ r N d, calcN2 mixTh mixSo (fun k => fin (mixX k)) = .ok r ∧
    r.get (fun _ => k) = fin N ∧
    HasDerivAt (fun s => Spec.Wright.rho (mixT k + s * Spec.derivAt 3 mixX mixT k)
      (35 + s * Spec.derivAt 3 mixX (fun _ => 35) k) (mixX k * 10 ^ 4 + 101325)) d 0 ∧
    N = 49 / 5 * (d / Spec.Wright.rho (mixT k) 35 (mixX k * 10 ^ 4 + 101325)) ∧ (0 < N ↔ 0 < d) ∧
    (N = 0 ↔ d = 0) :=
  C98_value (mixColumn k hk) rfl rfl (by
    unfold Spec.Wright.Ocean mixT mixX
    interval_cases k <;> norm_num)

/-- Temperatures 10, 15 and 20 degrees at 5, 15 and 25 metres. -/
noncomputable def invT : Nat → ℝ := fun k => 10 + 5 * k
noncomputable def invTh : DA (Fl ℝ) := ⟨[("z_l", 3)], fun e => fin (invT (e "z_l"))⟩

/-- The hypotheses of `C98_inner_unstable` are met by water that warms with depth. -/
example : ∃ r N, calcN2 invTh mixSo (fun k => fin (mixX k)) = .ok r ∧ r.get (fun _ => 1) = fin N ∧ N < 0 := by
  have c : TSColumn invTh mixSo (fun k => fin (mixX k)) "z_l" (fun _ => 1) 3 mixX invT (fun _ => 35) :=
    { mixColumn 1 (by norm_num) with
      tz := by simp [invTh, DA.dimNames]
      tn := rfl
      hT := fun k _ => by simp [invTh] }
  exact C98_inner_unstable c rfl (by norm_num) (by norm_num)
    (by unfold Deeper mixX; norm_num) (by unfold Spec.Wright.Ocean invT mixX; norm_num) (by unfold invT; norm_num)
    (by unfold invT; norm_num) (by norm_num) (Or.inl (by unfold invT; norm_num))

end Momlevel.Props
