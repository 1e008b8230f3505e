import Verif.Props.Bottom
import Verif.Props.Stability

/-! # C149: the stability angle over a sea floor and the regimes of double diffusion -/

set_option linter.unusedSectionVars false

namespace Momlevel.Props
open Momlevel Momlevel.Fl Momlevel.Eos

/-- Over a sea floor the angle is missing at the lowest wet level, and in columns with fewer than three wet levels,
as N² is (C109); elsewhere it is that of the density ratio `b s / (a t)`. -/
theorem C149_floor {th so : DA (Fl ℝ)} {z : Nat → Fl ℝ} {zc : String} {e : Env} {n m : Nat}
    {x T S : Nat → ℝ} (c : OverFloor th so z zc e n m x T S) {eos : String} {fa fb : EosFn (Fl ℝ)}
    (ha : eosFuncFromStr eos "alpha" = .ok fa) (hb : eosFuncFromStr eos "beta" = .ok fb)
    (pres : DA (Fl ℝ)) (hpd : ∀ p ∈ pres.dims, p.1 ∈ th.dimNames) {a b : ℝ}
    (hfa : e zc < m → fa (fin (T (e zc))) (fin (S (e zc))) (pres.get e) = fin a)
    (hfb : e zc < m → fb (fin (T (e zc))) (fin (S (e zc))) (pres.get e) = fin b) :
    ∃ r, calcStabilityAngle th so pres z eos zc = .ok r ∧
      let t := Spec.derivAt n x T (e zc)
      let s := Spec.derivAt n x S (e zc)
      (¬ (m = n ∨ (e zc + 1 < m ∧ 3 ≤ m)) → r.get e = nan) ∧
      (m = n ∨ (e zc + 1 < m ∧ 3 ≤ m) →
        (a * t = 0 → r.get e = nan) ∧
        (a * t ≠ 0 → b * s / (a * t) = 1 → r.get e = fin 90) ∧
        (a * t ≠ 0 → b * s / (a * t) ≠ 1 → r.get e = fin (turner (b * s / (a * t))))) := by
  obtain ⟨dt, h1, -, h1g⟩ := differentiate_floor c.hn c.hm c.inj c.tz c.tn c.hT c.he
  obtain ⟨ds, h2, -, h2g⟩ := differentiate_floor c.hn c.hm c.inj c.sz c.sn c.hS c.he
  rw [← c.hz] at h1 h2
  have hTe := c.hT (e zc) c.he
  have hSe := c.hS (e zc) c.he
  rw [Function.update_eq_self] at hTe hSe
  refine ⟨_, by
    simp only [calcStabilityAngle, ok_bind, calcAlpha, calcBeta, applyEos_ok ha th so _ hpd,
      applyEos_ok hb th so _ hpd, h1, h2]
    rfl, ?_⟩
  intro t s
  have hp := Real.pi_pos
  have one : (1 : Fl ℝ) = fin 1 := rfl
  simp only [DA.get_map, DA.get_div, DA.get_mul, DA.get_zip3, h1g, h2g]
  refine ⟨fun h => ?_, fun hk => ?_⟩
  · simp only [if_neg h, mul_nan, nan_div, add_nan]
    rfl
  have hw : e zc < m := by have := c.he; omega
  simp only [if_pos hk, hTe, hSe, if_pos hw, hfa hw, hfb hw, fin_mul]
  refine ⟨fun h => ?_, fun h hR => ?_, fun h hR => ?_⟩
  · rw [show a * Spec.derivAt n x T (e zc) = 0 from h, fin_div, if_pos rfl]
    unfold infOfSign
    split
    · rfl
    · split <;> rfl
  · rw [fin_div_of_ne _ h, show b * Spec.derivAt n x S (e zc) / (a * Spec.derivAt n x T (e zc)) = 1
      from hR, one, fin_add, fin_sub, sub_self, fin_div, if_pos rfl]
    have : infOfSign (1 + 1 : ℝ) = pinf := by unfold infOfSign; rw [if_pos (by norm_num)]
    rw [this]
    simp only [npArctan, npDegrees, fin_mul]
    congr 1
    field_simp; norm_num
  · rw [fin_div_of_ne _ h, one, fin_add, fin_sub]
    have h0 : 1 - b * Spec.derivAt n x S (e zc) / (a * Spec.derivAt n x T (e zc)) ≠ 0 :=
      fun h => hR (by linarith)
    rw [fin_div_of_ne _ h0]
    simp only [npArctan, npDegrees, fin_mul, turner]
    rfl

/-- The regimes at a point of stable stratification (`calc_n2` positive) with positive coefficients; `t`, `s` are the
derivatives with depth.  Within ±45°: warm fresh water over cold salty water, stable in both respects.  Above 45°: warm
salty water over cold fresh water, where salt fingers grow.  Below -45°: colder, fresher water over warmer, saltier
water, the diffusive regime.  Missing without a temperature gradient. -/
theorem C149_regimes {th so : DA (Fl ℝ)} {z : Nat → Fl ℝ} {zc : String} {e : Env} {n m : Nat}
    {x T S : Nat → ℝ} (c : OverFloor th so z zc e n m x T S) {eos : String} {fa fb : EosFn (Fl ℝ)}
    (ha : eosFuncFromStr eos "alpha" = .ok fa) (hb : eosFuncFromStr eos "beta" = .ok fb)
    (pres patm : DA (Fl ℝ)) (hpd : ∀ p ∈ pres.dims, p.1 ∈ th.dimNames) (hpa : ∀ p ∈ patm.dims, p.1 ∈ th.dimNames)
    {p0 g a b N : ℝ} (hp0 : patm.get e = fin p0) (hpr : pres.get e = fin (x (e zc) * 10 ^ 4 + p0)) (hg : g < 0)
    (h0a : 0 < a) (h0b : 0 < b)
    (hfa : e zc < m → fa (fin (T (e zc))) (fin (S (e zc))) (pres.get e) = fin a)
    (hfb : e zc < m → fb (fin (T (e zc))) (fin (S (e zc))) (pres.get e) = fin b)
    {n2 : DA (Fl ℝ)} (hn2 : calcN2 th so z eos (fin g) patm zc = .ok n2) (hN : n2.get e = fin N) (hpos : 0 < N) :
    ∃ r, calcStabilityAngle th so pres z eos zc = .ok r ∧
      let t := Spec.derivAt n x T (e zc)
      let s := Spec.derivAt n x S (e zc)
      (t = 0 → r.get e = nan) ∧
      (t ≠ 0 → ∃ A, r.get e = fin A ∧ -90 < A ∧ A < 90 ∧
        (-45 < A ∧ A < 45 ↔ t < 0 ∧ 0 < s) ∧ (45 < A ↔ t < 0 ∧ s < 0) ∧ (A < -45 ↔ 0 < t ∧ 0 < s) ∧
        (A = 45 ↔ s = 0)) := by
  obtain ⟨n2', q1, q2⟩ := C109_partial c ha hb g patm hpa p0 hp0 (a := a) (b := b) (by rw [← hpr]; exact hfa)
    (by rw [← hpr]; exact hfb)
  cases hn2.symm.trans q1
  rw [hN] at q2
  have hk : m = n ∨ (e zc + 1 < m ∧ 3 ≤ m) := by
    by_contra h
    rw [if_neg h] at q2
    cases q2
  rw [if_pos hk] at q2
  injection q2 with q2
  obtain ⟨r, hr, -, h⟩ := C149_floor c ha hb pres hpd hfa hfb
  obtain ⟨h1, -, h3⟩ := h hk
  refine ⟨r, hr, ?_⟩
  intro t s
  have hst : a * t < b * s := by
    by_contra hh
    rw [q2] at hpos
    have := mul_nonpos_of_nonpos_of_nonneg hg.le (sub_nonneg.2 (not_lt.1 hh))
    linarith
  refine ⟨fun ht => h1 (by show a * t = 0; rw [ht, mul_zero]), fun ht => ?_⟩
  have hat : a * t ≠ 0 := mul_ne_zero h0a.ne' ht
  have hR : b * s / (a * t) ≠ 1 := by
    intro hh
    rw [div_eq_one_iff_eq hat] at hh
    exact hst.ne' hh
  obtain ⟨g1, g2, g3, g4, g5, g6⟩ := C20_turner_regimes hR
  refine ⟨_, h3 hat hR, g5, g6, ?_, ?_, ?_, ?_⟩
  · rw [g1]
    rcases lt_or_gt_of_ne ht with h | h
    · have hA : a * t < 0 := mul_neg_of_pos_of_neg h0a h
      rw [div_neg_iff]
      constructor
      · rintro (⟨u, -⟩ | ⟨-, u⟩)
        · exact ⟨h, pos_of_mul_pos_right u h0b.le⟩
        · exact absurd u (not_lt.2 hA.le)
      · rintro ⟨-, u⟩
        exact Or.inl ⟨mul_pos h0b u, hA⟩
    · have hA : 0 < a * t := mul_pos h0a h
      constructor
      · intro u
        exact absurd u (not_lt.2 (div_nonneg (hA.trans hst).le hA.le))
      · rintro ⟨u, -⟩
        exact absurd u (not_lt.2 h.le)
  · rw [g2]
    rcases lt_or_gt_of_ne ht with h | h
    · have hA : a * t < 0 := mul_neg_of_pos_of_neg h0a h
      constructor
      · rintro ⟨u, -⟩
        rw [div_pos_iff] at u
        rcases u with ⟨-, u⟩ | ⟨u, -⟩
        · exact absurd u (not_lt.2 hA.le)
        · refine ⟨h, ?_⟩
          by_contra hs
          exact absurd u (not_lt.2 (mul_nonneg h0b.le (not_lt.1 hs)))
      · rintro ⟨-, u⟩
        have hB : b * s < 0 := mul_neg_of_pos_of_neg h0b u
        refine ⟨div_pos_of_neg_of_neg hB hA, ?_⟩
        rw [div_lt_one_of_neg hA]
        exact hst
    · have hA : 0 < a * t := mul_pos h0a h
      constructor
      · rintro ⟨-, u⟩
        rw [div_lt_one hA] at u
        exact absurd u (not_lt.2 hst.le)
      · rintro ⟨u, -⟩
        exact absurd u (not_lt.2 h.le)
  · rw [g3]
    rcases lt_or_gt_of_ne ht with h | h
    · have hA : a * t < 0 := mul_neg_of_pos_of_neg h0a h
      constructor
      · intro u
        rw [one_lt_div_of_neg hA] at u
        exact absurd u (not_lt.2 hst.le)
      · rintro ⟨u, -⟩
        exact absurd u (not_lt.2 h.le)
    · have hA : 0 < a * t := mul_pos h0a h
      have hB : 0 < b * s := hA.trans hst
      constructor
      · intro _
        exact ⟨h, pos_of_mul_pos_right hB h0b.le⟩
      · intro _
        rw [one_lt_div hA]
        exact hst
  · rw [g4, div_eq_zero_iff]
    constructor
    · rintro (u | u)
      · exact (mul_eq_zero.1 u).resolve_left h0b.ne'
      · exact absurd u hat
    · intro u
      left
      show b * s = 0
      rw [u, mul_zero]

/-! ## Warm salty water over cold fresh water, three wet levels of four -/

noncomputable section

/-- 20, 12, 4 degrees at 0, 1 and 2 m, then the sea floor. -/
def sfT : DA (Fl ℝ) := ⟨[("z_l", 4)], fun e => if e "z_l" < 3 then fin (20 - 8 * (e "z_l" : ℝ)) else nan⟩
/-- 35, 34, 33. -/
def sfS : DA (Fl ℝ) := ⟨[("z_l", 4)], fun e => if e "z_l" < 3 then fin (35 - (e "z_l" : ℝ)) else nan⟩
/-- The pressures `calc_n2` uses. -/
def sfP : DA (Fl ℝ) := ⟨[("z_l", 4)], fun e => fin ((e "z_l" : ℝ) * 10 ^ 4 + 101325)⟩

theorem sfOver (i : Nat) (hi : i < 4) : OverFloor sfT sfS (fun k => fin (k : ℝ)) "z_l" (fun _ => i) 4 3
    (fun k => (k : ℝ)) (fun k => 20 - 8 * (k : ℝ)) (fun k => 35 - (k : ℝ)) :=
  ⟨by norm_num, by norm_num, fun a _ b _ h => Nat.cast_injective h, rfl, by simp [sfT, DA.dimNames],
    by simp [sfS, DA.dimNames], rfl, rfl, fun k _ => by simp [sfT], fun k _ => by simp [sfS], hi⟩

/-- The docstring ("unstable with respect to salt fingering if the angle is less than -45 degrees") has the sign
wrong.  In this stably stratified column the water above is warmer and saltier at every level, and the angle is above
45°.  At the lowest wet level and below it is missing. -/
theorem C149_salt_fingers : ∃ r n2, calcStabilityAngle sfT sfS sfP (fun k => fin (k : ℝ)) "linear" = .ok r ∧
    calcN2 sfT sfS (fun k => fin (k : ℝ)) "linear" = .ok n2 ∧
    (∃ N A, n2.get (fun _ => 1) = fin N ∧ 0 < N ∧ r.get (fun _ => 1) = fin A ∧ 45 < A) ∧
    r.get (fun _ => 2) = nan ∧ r.get (fun _ => 3) = nan := by
  have hl : pyLower "linear" = "linear".toList := rfl
  have ha : eosFuncFromStr "linear" "alpha" = .ok (fun T S p : Fl ℝ => Linear.alpha T S p) := by
    simp only [eosFuncFromStr, hl, if_true]; rfl
  have hb : eosFuncFromStr "linear" "beta" = .ok (fun T S p : Fl ℝ => Linear.beta T S p) := by
    simp only [eosFuncFromStr, hl, if_true]; rfl
  have hρ : linRho ((20 : ℝ) - 8 * ((1 : ℕ) : ℝ)) (35 - ((1 : ℕ) : ℝ)) = 5124 / 5 := by norm_num [linRho]
  have hc := fun p => linear_coeffs ((20 : ℝ) - 8 * ((1 : ℕ) : ℝ)) (35 - ((1 : ℕ) : ℝ)) p (by rw [hρ]; norm_num)
  rw [hρ] at hc
  have g1 : (-9.8 : Fl ℝ) = fin (-(49 / 5)) := by rw [ofSci, fin_neg]; norm_num
  have g2 : (101325.0 : Fl ℝ) = fin 101325 := by rw [ofSci]; norm_num
  have dT : Spec.derivAt 4 (fun k => (k : ℝ)) (fun k => 20 - 8 * (k : ℝ)) 1 = -8 := by
    norm_num [Spec.derivAt, Spec.stencil, Spec.parabolaDeriv]
  have dS : Spec.derivAt 4 (fun k => (k : ℝ)) (fun k => 35 - (k : ℝ)) 1 = -1 := by
    norm_num [Spec.derivAt, Spec.stencil, Spec.parabolaDeriv]
  obtain ⟨n2, q1, q2⟩ := C109_partial (sfOver 1 (by norm_num)) ha hb (-(49 / 5)) (DA.scalar (fin 101325)) (by simp)
    101325 rfl (fun _ => (hc _).1) (fun _ => (hc _).2)
  rw [if_pos (by norm_num)] at q2
  have hpd : ∀ p ∈ sfP.dims, p.1 ∈ sfT.dimNames := by
    intro p hp; simp [sfP] at hp; subst hp; simp [sfT, DA.dimNames]
  obtain ⟨r, h1, -, h2⟩ := C149_regimes (sfOver 1 (by norm_num)) ha hb sfP (DA.scalar (fin 101325)) hpd (by simp)
    (p0 := 101325) (g := -(49 / 5)) rfl rfl (by norm_num) (by norm_num) (by norm_num) (fun _ => (hc _).1)
    (fun _ => (hc _).2) q1 q2 (by rw [dT, dS]; norm_num)
  simp only [dT, dS] at h2 q2
  obtain ⟨A, A1, -, -, -, A2, -⟩ := h2 (by norm_num)
  refine ⟨r, n2, h1, by rw [g1, g2]; exact q1, ⟨_, A, q2, by norm_num, A1, A2.2 (by norm_num)⟩, ?_, ?_⟩
  · have hc2 := fun p => linear_coeffs ((20 : ℝ) - 8 * ((2 : ℕ) : ℝ)) (35 - ((2 : ℕ) : ℝ)) p (by norm_num [linRho])
    obtain ⟨r', k1, k2, -⟩ := C149_floor (sfOver 2 (by norm_num)) ha hb sfP hpd (fun _ => (hc2 _).1) (fun _ => (hc2 _).2)
    cases h1.symm.trans k1
    exact k2 (by norm_num)
  · obtain ⟨r', k1, k2, -⟩ := C149_floor (a := 0) (b := 0) (sfOver 3 (by norm_num)) ha hb sfP hpd (fun h => by omega)
      (fun h => by omega)
    cases h1.symm.trans k1
    exact k2 (by norm_num)

/-- `C149_floor` at the lowest wet level and `C149_regimes` at the level above it, as used in the proof above: the
missing value, and an angle that is not below -45° where salt fingers grow. -/
example : ∃ r A, calcStabilityAngle sfT sfS sfP (fun k => fin (k : ℝ)) "linear" = .ok r ∧ r.get (fun _ => 2) = nan ∧
    r.get (fun _ => 1) = fin A ∧ ¬ A < -45 := by
  obtain ⟨r, n2, h1, -, ⟨N, A, -, -, h2, h3⟩, h4, -⟩ := C149_salt_fingers
  exact ⟨r, A, h1, h4, h2, by linarith⟩

end

end Momlevel.Props
