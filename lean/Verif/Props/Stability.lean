import Verif.Props.N2

/-! # C20: stability (Turner) angle -/

set_option linter.unusedSectionVars false

namespace Momlevel.Props
open Momlevel Momlevel.Fl Momlevel.Eos

/-- Angle, in degrees, belonging to a density ratio `R ≠ 1`. -/
noncomputable def turner (R : ℝ) : ℝ := Real.arctan ((1 + R) / (1 - R)) * (180 / Real.pi)

theorem arctan_deg_lt {x : ℝ} : Real.arctan x * (180 / Real.pi) < 90 := by
  have := Real.arctan_lt_pi_div_two x
  have hp := Real.pi_pos
  calc Real.arctan x * (180 / Real.pi) < Real.pi / 2 * (180 / Real.pi) :=
        mul_lt_mul_of_pos_right this (by positivity)
    _ = 90 := by field_simp; norm_num

theorem arctan_deg_gt {x : ℝ} : -90 < Real.arctan x * (180 / Real.pi) := by
  have := Real.neg_pi_div_two_lt_arctan x
  have hp := Real.pi_pos
  calc (-90 : ℝ) = -(Real.pi / 2) * (180 / Real.pi) := by field_simp; norm_num
    _ < _ := mul_lt_mul_of_pos_right this (by positivity)

theorem deg_mono {x y : ℝ} : Real.arctan x * (180 / Real.pi) < Real.arctan y * (180 / Real.pi) ↔ x < y := by
  have hp := Real.pi_pos
  rw [mul_lt_mul_iff_left₀ (by positivity)]
  exact Real.arctan_lt_arctan_iff

theorem deg_one : Real.arctan 1 * (180 / Real.pi) = 45 := by
  have hp := Real.pi_pos
  rw [Real.arctan_one]; field_simp; norm_num

theorem deg_neg_one : Real.arctan (-1) * (180 / Real.pi) = -45 := by
  rw [Real.arctan_neg, neg_mul, deg_one]

/-- Meaning of the angle in terms of the density ratio `R`: within ±45° exactly for `R < 0`, above
45° for `0 < R < 1`, below -45° for `R > 1`, 45° for `R = 0`. -/
theorem C20_turner_regimes {R : ℝ} (h1 : R ≠ 1) :
    (-45 < turner R ∧ turner R < 45 ↔ R < 0) ∧ (45 < turner R ↔ 0 < R ∧ R < 1) ∧
      (turner R < -45 ↔ 1 < R) ∧ (turner R = 45 ↔ R = 0) ∧ -90 < turner R ∧ turner R < 90 := by
  have hlt : turner R < 45 ↔ (1 + R) / (1 - R) < 1 := by
    unfold turner; rw [← deg_one]; exact deg_mono
  have hgt : 45 < turner R ↔ 1 < (1 + R) / (1 - R) := by
    unfold turner; rw [← deg_one]; exact deg_mono
  have hlt' : turner R < -45 ↔ (1 + R) / (1 - R) < -1 := by
    unfold turner; rw [← deg_neg_one]; exact deg_mono
  have hgt' : -45 < turner R ↔ -1 < (1 + R) / (1 - R) := by
    unfold turner; rw [← deg_neg_one]; exact deg_mono
  rcases lt_or_gt_of_ne h1 with h | h
  · have hd : 0 < 1 - R := by linarith
    have a1 : (1 + R) / (1 - R) < 1 ↔ R < 0 := by
      rw [div_lt_one hd]; constructor <;> intro <;> linarith
    have a2 : 1 < (1 + R) / (1 - R) ↔ 0 < R := by
      rw [one_lt_div hd]; constructor <;> intro <;> linarith
    have a3 : -1 < (1 + R) / (1 - R) := by
      rw [lt_div_iff₀ hd]; linarith
    refine ⟨?_, ?_, ?_, ?_, arctan_deg_gt, arctan_deg_lt⟩
    · rw [hgt', hlt, a1]; exact ⟨fun h => h.2, fun h => ⟨a3, h⟩⟩
    · rw [hgt, a2]; exact ⟨fun h' => ⟨h', h⟩, fun h' => h'.1⟩
    · rw [hlt']
      constructor
      · intro h'; exact absurd h' (not_lt.2 a3.le)
      · intro h'; exact absurd h' (not_lt.2 h.le)
    · constructor
      · intro h'
        by_contra hR
        rcases lt_or_gt_of_ne hR with h2 | h2
        · exact absurd h' (hlt.2 (a1.2 h2)).ne
        · exact absurd h' (hgt.2 (a2.2 h2)).ne'
      · rintro rfl
        unfold turner; rw [← deg_one]; norm_num
  · have hd : 1 - R < 0 := by linarith
    have a3 : (1 + R) / (1 - R) < -1 := by
      rw [div_lt_iff_of_neg hd]; linarith
    refine ⟨?_, ?_, ?_, ?_, arctan_deg_gt, arctan_deg_lt⟩
    · constructor
      · intro h'; exact absurd (hlt'.2 a3) (not_lt.2 h'.1.le)
      · intro h'; linarith
    · constructor
      · intro h'; have := hlt'.2 a3; linarith
      · intro h'; linarith [h'.2]
    · exact ⟨fun _ => h, fun _ => hlt'.2 a3⟩
    · constructor
      · intro h'; have := hlt'.2 a3; linarith
      · intro h'; linarith

/-- Complete description of the result at a point whose expansion coefficients `a` (thermal) and `b`
(haline) are finite; `t`, `s` are the vertical derivatives and `R = b s / (a t)`. -/
theorem C20_angle {th so : DA (Fl ℝ)} {z : Nat → Fl ℝ} {zc : String} {e : Env} {n : Nat}
    {x T S : Nat → ℝ} (c : TSColumn th so z zc e n x T S) {eos : String} {fa fb : EosFn (Fl ℝ)}
    (ha : eosFuncFromStr eos "alpha" = .ok fa) (hb : eosFuncFromStr eos "beta" = .ok fb)
    (pres : DA (Fl ℝ)) (hpd : ∀ p ∈ pres.dims, p.1 ∈ th.dimNames) (a b : ℝ)
    (hfa : fa (fin (T (e zc))) (fin (S (e zc))) (pres.get e) = fin a)
    (hfb : fb (fin (T (e zc))) (fin (S (e zc))) (pres.get e) = fin b) :
    ∃ r, calcStabilityAngle th so pres z eos zc = .ok r ∧
      let t := Spec.derivAt n x T (e zc)
      let s := Spec.derivAt n x S (e zc)
      (a * t = 0 → r.get e = nan) ∧
      (a * t ≠ 0 → b * s / (a * t) = 1 → r.get e = fin 90) ∧
      (a * t ≠ 0 → b * s / (a * t) ≠ 1 → r.get e = fin (turner (b * s / (a * t)))) := by
  obtain ⟨dt, h1, -, h1g⟩ := differentiate_eq c.hn c.inj c.tz c.tn c.hT c.he
  obtain ⟨ds, h2, -, h2g⟩ := differentiate_eq c.hn c.inj c.sz c.sn c.hS c.he
  rw [← c.hz] at h1 h2
  have hTe := c.hT (e zc) c.he
  have hSe := c.hS (e zc) c.he
  rw [Function.update_eq_self] at hTe hSe
  refine ⟨_, by
    simp only [calcStabilityAngle, ok_bind, calcAlpha, calcBeta, applyEos_ok ha th so _ hpd,
      applyEos_ok hb th so _ hpd, h1, h2]
    rfl, ?_⟩
  intro t s
  have hp := Real.pi_pos
  have one : (1 : Fl ℝ) = fin 1 := rfl
  simp only [DA.get_map, DA.get_div, DA.get_mul, DA.get_zip3, h1g, h2g, hTe, hSe, hfa, hfb, fin_mul]
  refine ⟨fun h => ?_, fun h hR => ?_, fun h hR => ?_⟩
  · rw [show a * Spec.derivAt n x T (e zc) = 0 from h, fin_div, if_pos rfl]
    unfold infOfSign
    split
    · rfl
    · split <;> rfl
  · rw [fin_div_of_ne _ h, show b * Spec.derivAt n x S (e zc) / (a * Spec.derivAt n x T (e zc)) = 1
      from hR, one, fin_add, fin_sub, sub_self, fin_div, if_pos rfl]
    have : infOfSign (1 + 1 : ℝ) = pinf := by unfold infOfSign; rw [if_pos (by norm_num)]
    rw [this]
    simp only [npArctan, npDegrees, fin_mul]
    congr 1
    field_simp; norm_num
  · rw [fin_div_of_ne _ h, one, fin_add, fin_sub]
    have h0 : 1 - b * Spec.derivAt n x S (e zc) / (a * Spec.derivAt n x T (e zc)) ≠ 0 :=
      fun h => hR (by linarith)
    rw [fin_div_of_ne _ h0]
    simp only [npArctan, npDegrees, fin_mul, turner]
    rfl

/-- Range and meaning: when defined the angle is a number in (-90, 90] and lies strictly within
±45° exactly when the density ratio is negative. -/
theorem C20_range {th so : DA (Fl ℝ)} {z : Nat → Fl ℝ} {zc : String} {e : Env} {n : Nat}
    {x T S : Nat → ℝ} (c : TSColumn th so z zc e n x T S) {eos : String} {fa fb : EosFn (Fl ℝ)}
    (ha : eosFuncFromStr eos "alpha" = .ok fa) (hb : eosFuncFromStr eos "beta" = .ok fb)
    (pres : DA (Fl ℝ)) (hpd : ∀ p ∈ pres.dims, p.1 ∈ th.dimNames) (a b : ℝ)
    (hfa : fa (fin (T (e zc))) (fin (S (e zc))) (pres.get e) = fin a)
    (hfb : fb (fin (T (e zc))) (fin (S (e zc))) (pres.get e) = fin b) :
    ∃ r, calcStabilityAngle th so pres z eos zc = .ok r ∧
      let t := Spec.derivAt n x T (e zc)
      let s := Spec.derivAt n x S (e zc)
      (r.get e = nan ↔ a * t = 0) ∧
      (a * t ≠ 0 → ∃ A, r.get e = fin A ∧ -90 < A ∧ A ≤ 90 ∧
        (-45 < A ∧ A < 45 ↔ b * s / (a * t) < 0)) := by
  obtain ⟨r, h1, h2, h3, h4⟩ := C20_angle c ha hb pres hpd a b hfa hfb
  refine ⟨r, h1, ?_⟩
  intro t s
  have key : a * t ≠ 0 → ∃ A, r.get e = fin A ∧ -90 < A ∧ A ≤ 90 ∧
        (-45 < A ∧ A < 45 ↔ b * s / (a * t) < 0) := by
    intro h
    by_cases hR : b * s / (a * t) = 1
    · refine ⟨90, h3 h hR, by norm_num, le_rfl, ?_⟩
      rw [hR]; norm_num
    · obtain ⟨k1, -, -, -, k2, k3⟩ := C20_turner_regimes hR
      exact ⟨_, h4 h hR, k2, k3.le, k1⟩
  refine ⟨⟨fun h => ?_, h2⟩, key⟩
  by_contra h0
  obtain ⟨A, hA, -⟩ := key h0
  rw [hA] at h; cases h

/-- The angle is blind to the sign of the stratification: reversing both vertical gradients (same
local coefficients) gives the same result. -/
theorem C20_sign_blind {th so th' so' : DA (Fl ℝ)} {z z' : Nat → Fl ℝ} {zc : String} {e : Env}
    {n : Nat} {x T S x' T' S' : Nat → ℝ} (c : TSColumn th so z zc e n x T S)
    (c' : TSColumn th' so' z' zc e n x' T' S') {eos : String} {fa fb : EosFn (Fl ℝ)}
    (ha : eosFuncFromStr eos "alpha" = .ok fa) (hb : eosFuncFromStr eos "beta" = .ok fb)
    (pres pres' : DA (Fl ℝ)) (hpd : ∀ p ∈ pres.dims, p.1 ∈ th.dimNames)
    (hpd' : ∀ p ∈ pres'.dims, p.1 ∈ th'.dimNames) (a b : ℝ)
    (hfa : fa (fin (T (e zc))) (fin (S (e zc))) (pres.get e) = fin a)
    (hfb : fb (fin (T (e zc))) (fin (S (e zc))) (pres.get e) = fin b)
    (hfa' : fa (fin (T' (e zc))) (fin (S' (e zc))) (pres'.get e) = fin a)
    (hfb' : fb (fin (T' (e zc))) (fin (S' (e zc))) (pres'.get e) = fin b)
    (hT : Spec.derivAt n x' T' (e zc) = -Spec.derivAt n x T (e zc))
    (hS : Spec.derivAt n x' S' (e zc) = -Spec.derivAt n x S (e zc)) :
    ∃ r r', calcStabilityAngle th so pres z eos zc = .ok r ∧
      calcStabilityAngle th' so' pres' z' eos zc = .ok r' ∧ r.get e = r'.get e := by
  obtain ⟨r, h1, h2, h3, h4⟩ := C20_angle c ha hb pres hpd a b hfa hfb
  obtain ⟨r', k1, k2, k3, k4⟩ := C20_angle c' ha hb pres' hpd' a b hfa' hfb'
  refine ⟨r, r', h1, k1, ?_⟩
  simp only [hT, hS, mul_neg, neg_div_neg_eq, neg_eq_zero, ne_eq] at k2 k3 k4
  by_cases h : a * Spec.derivAt n x T (e zc) = 0
  · rw [h2 h, k2 h]
  · by_cases hR : b * Spec.derivAt n x S (e zc) / (a * Spec.derivAt n x T (e zc)) = 1
    · rw [h3 h hR, k3 h hR]
    · rw [h4 h hR, k4 h hR]

/-- Witness: three levels, temperature rising and salinity falling with depth (light water below
heavy water). -/
noncomputable def uTh : DA (Fl ℝ) := ⟨[("z_l", 3)], fun e => fin (10 + e "z_l")⟩
noncomputable def uSo : DA (Fl ℝ) := ⟨[("z_l", 3)], fun e => fin (35 - e "z_l")⟩

theorem uColumn : TSColumn uTh uSo (fun k => fin (k : ℝ)) "z_l" (fun _ => 1) 3 (fun k => (k : ℝ))
    (fun k => 10 + k) (fun k => 35 - k) :=
  ⟨le_rfl, fun a _ b _ h => Nat.cast_injective h, rfl, by simp [uTh, DA.dimNames],
    by simp [uSo, DA.dimNames], rfl, rfl, fun k _ => by simp [uTh], fun k _ => by simp [uSo],
    by norm_num⟩

/-- The documented reading ("the water column is considered stable if the angle is between -45 and
45 degrees") is false: a gravitationally unstable column (`N² < 0`, density decreasing downwards)
gets an angle strictly inside ±45°. -/
theorem C20_docstring_counterexample :
    ∃ r N A, calcStabilityAngle uTh uSo (DA.scalar (fin 0)) (fun k => fin (k : ℝ)) "linear" = .ok r ∧
      r.get (fun _ => 1) = fin A ∧ -45 < A ∧ A < 45 ∧
      (∃ n2, calcN2 uTh uSo (fun k => fin (k : ℝ)) "linear" = .ok n2 ∧ n2.get (fun _ => 1) = fin N) ∧
      N < 0 := by
  have hρ : linRho ((10 : ℝ) + ((1 : ℕ) : ℝ)) (35 - ((1 : ℕ) : ℝ)) = 1025 := by
    norm_num [linRho]
  have hl : pyLower "linear" = "linear".toList := rfl
  have ha : eosFuncFromStr "linear" "alpha" = .ok (fun T S p : Fl ℝ => Linear.alpha T S p) := by
    simp only [eosFuncFromStr, hl, if_true]; rfl
  have hb : eosFuncFromStr "linear" "beta" = .ok (fun T S p : Fl ℝ => Linear.beta T S p) := by
    simp only [eosFuncFromStr, hl, if_true]; rfl
  have hc := linear_coeffs ((10 : ℝ) + ((1 : ℕ) : ℝ)) (35 - ((1 : ℕ) : ℝ)) 0
    (by rw [hρ]; norm_num)
  rw [hρ] at hc
  obtain ⟨r, h1, h2, h3⟩ := C20_range uColumn ha hb (DA.scalar (fin 0)) (by simp) _ _ hc.1 hc.2
  have dT : Spec.derivAt 3 (fun k => (k : ℝ)) (fun k => 10 + (k : ℝ)) 1 = 1 := by
    norm_num [Spec.derivAt, Spec.stencil, Spec.parabolaDeriv]
  have dS : Spec.derivAt 3 (fun k => (k : ℝ)) (fun k => 35 - (k : ℝ)) 1 = -1 := by
    norm_num [Spec.derivAt, Spec.stencil, Spec.parabolaDeriv]
  simp only [dT, dS] at h2 h3
  obtain ⟨A, hA, -, -, hA2⟩ := h3 (by norm_num)
  have hA3 := hA2.2 (by norm_num)
  obtain ⟨n2, N, m1, m2, m3, m4⟩ := C19_linear_sign uColumn (by
    show 0 < linRho ((10 : ℝ) + ((1 : ℕ) : ℝ)) (35 - ((1 : ℕ) : ℝ)); rw [hρ]; norm_num)
  refine ⟨r, N, A, h1, hA, hA3.1, hA3.2, ⟨n2, m1, m2⟩, ?_⟩
  have dR : Spec.derivAt 3 (fun k => (k : ℝ)) (fun k => linRho (10 + (k : ℝ)) (35 - (k : ℝ))) 1 = -1 := by
    norm_num [Spec.derivAt, Spec.stencil, Spec.parabolaDeriv, linRho]
  simp only [dR] at m3 m4
  rcases lt_trichotomy N 0 with h | h | h
  · exact h
  · exact absurd (m4.1 h) (by norm_num)
  · exact absurd (m3.1 h) (by norm_num)

/-- `C20_range` holds of the column above (it is how the previous theorem is proved): its angle is a number. -/
example : ∃ r A, calcStabilityAngle uTh uSo (DA.scalar (fin 0)) (fun k => fin (k : ℝ)) "linear" = .ok r ∧
    r.get (fun _ => 1) = fin A ∧ -90 < A ∧ A ≤ 90 := by
  obtain ⟨r, N, A, h1, h2, h3, h4, -⟩ := C20_docstring_counterexample
  exact ⟨r, A, h1, h2, by linarith, by linarith⟩

end Momlevel.Props
