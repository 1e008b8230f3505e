import Verif.Lemmas.WrightSalt
import Verif.Props.N2Error
import Verif.Props.N2Sign

/-! # C168: errors in temperature and salinity, and buoyancy frequency -/

set_option linter.unusedSectionVars false

namespace Momlevel.Props
open Momlevel Momlevel.Eos Momlevel.Fl

theorem quot_diff {a a' r r' A : ℝ} (hr : 980 ≤ r) (hr' : 980 ≤ r') (hA : |a| ≤ A) :
    |a' / r' - a / r| ≤ |a' - a| / 980 + A * |r' - r| / 960400 := by
  have h0 : 0 < r := by linarith
  have h0' : 0 < r' := by linarith
  have e : a' / r' - a / r = (a' - a) / r' - a * (r' - r) / (r * r') := by field_simp; ring
  rw [e]
  refine (abs_sub _ _).trans (add_le_add ?_ ?_)
  · rw [abs_div, abs_of_pos h0']
    exact div_le_div_of_nonneg_left (abs_nonneg _) (by norm_num) hr'
  · rw [abs_div, abs_mul, abs_of_pos (mul_pos h0 h0')]
    refine div_le_div₀ (mul_nonneg ((abs_nonneg _).trans hA) (abs_nonneg _))
      (mul_le_mul_of_nonneg_right hA (abs_nonneg _)) (by norm_num) ?_
    nlinarith

/-- **C168 (coefficients)** Wright's expansion coefficients change by at most 2.1·10⁻⁵ and 5.1·10⁻⁶ per degree, and
5.1·10⁻⁶ and 1.8·10⁻⁶ per unit of salinity. -/
theorem C168_coefficients {T T' S S' p : ℝ} (h : Spec.Wright.Ocean T S p) (h' : Spec.Wright.Ocean T' S' p) :
    |Wright.alpha T' S' p - Wright.alpha T S p| ≤ 0.000021 * |T' - T| + 0.0000051 * |S' - S| ∧
      |Wright.beta T' S' p - Wright.beta T S p| ≤ 0.0000051 * |T' - T| + 0.0000018 * |S' - S| := by
  have r := Wright.rho_lo h
  have r' := Wright.rho_lo h'
  have d := Wright.abs_diff_rho h h'
  have t := Wright.abs_diff_dT h h'
  have s := Wright.abs_diff_dS h h'
  have bT := Wright.dT_bounds h
  have bS := Wright.dS_bounds h
  have q1 := quot_diff (a := Wright.drho_dtemp T S p) (a' := Wright.drho_dtemp T' S' p) (A := 0.48) r r'
    (abs_le.2 ⟨bT.1, bT.2.trans (by norm_num)⟩)
  have q2 := quot_diff (a := Wright.drho_dsal T S p) (a' := Wright.drho_dsal T' S' p) (A := 0.82) r r'
    (abs_le.2 ⟨(by norm_num : (-0.82 : ℝ) ≤ 0.676).trans bS.1, bS.2⟩)
  have n1 := abs_nonneg (T' - T)
  have n2 := abs_nonneg (S' - S)
  rw [alpha_eq, alpha_eq, beta_eq, beta_eq, neg_sub_neg, abs_sub_comm (_ / _)]
  constructor
  · refine q1.trans ?_
    linarith
  · refine q2.trans ?_
    linarith

/-- Surface water of 20 and 21 degrees: the expansion coefficient differs by at most 2.1·10⁻⁵. -/
example : |Wright.alpha (21 : ℝ) 35 101325 - Wright.alpha 20 35 101325| ≤ 0.000021 := by
  have h := (C168_coefficients (T := 20) (T' := 21) (S := 35) (S' := 35) (p := 101325)
    (by unfold Spec.Wright.Ocean; norm_num) (by unfold Spec.Wright.Ocean; norm_num)).1
  norm_num at h ⊢
  exact h

theorem C168_sizes {T S p : ℝ} (h : Spec.Wright.Ocean T S p) :
    |Wright.alpha T S p| ≤ 0.00049 ∧ |Wright.beta T S p| ≤ 0.00084 := by
  have r := Wright.rho_lo h
  have bT := Wright.dT_bounds h
  have bS := Wright.dS_bounds h
  have q : ∀ {a A : ℝ}, |a| ≤ A → |a / Spec.Wright.rho T S p| ≤ A / 980 := fun {a A} ha => by
    rw [abs_div, abs_of_pos (by linarith : 0 < Spec.Wright.rho T S p)]
    exact div_le_div₀ ((abs_nonneg _).trans ha) ha (by norm_num) r
  rw [alpha_eq, beta_eq, abs_neg]
  exact ⟨(q (abs_le.2 ⟨bT.1, bT.2.trans (by norm_num)⟩)).trans (by norm_num),
    (q (abs_le.2 ⟨(by norm_num : (-0.82 : ℝ) ≤ 0.676).trans bS.1, bS.2⟩)).trans (by norm_num)⟩

/-- `np.gradient` and errors: twice the error over the smallest spacing within the column, six times at its ends. -/
noncomputable def gradFactor (n i : Nat) : ℝ := if i = 0 ∨ i + 1 = n then 6 else 2

theorem slope_le {a b h M x y : ℝ} (hh : 0 < h) (ha : |a| ≤ M) (hb : |b| ≤ M) (hx : h ≤ y - x) :
    |(b - a) / (y - x)| ≤ 2 * M / h := by
  have h0 : 0 < y - x := by linarith
  have hM : 0 ≤ M := (abs_nonneg _).trans ha
  rw [abs_div, abs_of_pos h0]
  refine div_le_div₀ (by linarith) ?_ hh hx
  calc |b - a| ≤ |b| + |a| := abs_sub _ _
    _ ≤ 2 * M := by linarith

theorem mean_le {D p q u w Q : ℝ} (hp : 0 < p) (hq : 0 < q) (e : D * (p + q) = q * u + p * w) (hu : |u| ≤ Q)
    (hw : |w| ≤ Q) : |D| ≤ Q := by
  have h : |D| * (p + q) ≤ Q * (p + q) := by
    rw [← abs_of_pos (add_pos hp hq), ← abs_mul, e, abs_of_pos (add_pos hp hq)]
    refine (abs_add_le _ _).trans ?_
    rw [abs_mul, abs_mul, abs_of_pos hp, abs_of_pos hq]
    linarith [mul_le_mul_of_nonneg_left hu hq.le, mul_le_mul_of_nonneg_left hw hp.le]
  exact le_of_mul_le_mul_right h (add_pos hp hq)

theorem extrapolated_le {D p q u w Q : ℝ} (hp : 0 < p) (hq : 0 < q) (e : D * (p + q) = (p + q + p) * u - p * w)
    (hu : |u| ≤ Q) (hw : |w| ≤ Q) : |D| ≤ 3 * Q := by
  have hQ : 0 ≤ Q := (abs_nonneg _).trans hu
  have hr : 0 < p + q + p := by linarith
  have h : |D| * (p + q) ≤ 3 * Q * (p + q) := by
    rw [← abs_of_pos (add_pos hp hq), ← abs_mul, e, abs_of_pos (add_pos hp hq)]
    refine (abs_sub _ _).trans ?_
    rw [abs_mul, abs_mul, abs_of_pos hp, abs_of_pos hr]
    linarith [mul_le_mul_of_nonneg_left hu hr.le, mul_le_mul_of_nonneg_left hw hp.le, mul_nonneg hQ hq.le]
  exact le_of_mul_le_mul_right h (add_pos hp hq)

theorem derivAt_size {n : Nat} (hn : 3 ≤ n) {x f : Nat → ℝ} {h M : ℝ} (hh : 0 < h)
    (hx : ∀ k, k + 1 < n → h ≤ x (k + 1) - x k) (hM : ∀ k < n, |f k| ≤ M) {i : Nat} (hi : i < n) :
    |Spec.derivAt n x f i| ≤ gradFactor n i * M / h := by
  have sl : ∀ k, k + 1 < n → |(f (k + 1) - f k) / (x (k + 1) - x k)| ≤ 2 * M / h := fun k hk =>
    slope_le hh (hM k (by omega)) (hM _ hk) (hx k hk)
  have hM0 : 0 ≤ M := (abs_nonneg _).trans (hM i hi)
  have q0 : 0 ≤ 2 * M / h := by positivity
  have e6 : 6 * M / h = 3 * (2 * M / h) := by ring
  unfold gradFactor
  by_cases h0 : i = 0
  · subst h0
    rw [if_pos (Or.inl rfl), e6]
    have d1 := hx 0 (by omega)
    have d2 := hx 1 (by omega)
    have e := derivAt_top (n := n) (f := f) (x := x) (by linarith) (by linarith)
    refine extrapolated_le (p := x 1 - x 0) (q := x 2 - x 1) (by linarith) (by linarith) ?_ (sl 0 (by omega))
      (sl 1 (by omega))
    rw [show x 1 - x 0 + (x 2 - x 1) = x 2 - x 0 by ring, e]
  by_cases h1 : i + 1 = n
  · rw [if_pos (Or.inr h1), e6]
    obtain ⟨m, rfl⟩ : ∃ m, n = m + 3 := ⟨n - 3, by omega⟩
    obtain rfl : i = m + 2 := by omega
    have d1 := hx m (by omega)
    have d2 := hx (m + 1) (by omega)
    have e := derivAt_bottom (m := m) (f := f) (x := x) (by linarith) (by linarith)
    refine extrapolated_le (p := x (m + 2) - x (m + 1)) (q := x (m + 1) - x m) (by linarith) (by linarith) ?_
      (sl (m + 1) (by omega)) (sl m (by omega))
    rw [show x (m + 2) - x (m + 1) + (x (m + 1) - x m) = x (m + 2) - x m by ring, e]
  · rw [if_neg (by omega)]
    obtain ⟨k, rfl⟩ : ∃ k, i = k + 1 := ⟨i - 1, by omega⟩
    have d1 := hx k (by omega)
    have d2 := hx (k + 1) (by omega)
    have e := derivAt_inner (n := n) (f := f) (x := x) (i := k + 1) (by omega) (by omega)
      (by simp only [Nat.add_sub_cancel]; linarith) (by linarith)
    simp only [Nat.add_sub_cancel] at e
    refine mean_le (p := x (k + 1) - x k) (q := x (k + 1 + 1) - x (k + 1)) (by linarith) (by linarith) ?_
      (sl k (by omega)) (sl (k + 1) (by omega))
    rw [show x (k + 1) - x k + (x (k + 1 + 1) - x (k + 1)) = x (k + 1 + 1) - x k by ring, e]

theorem derivAt_errors {n : Nat} (hn : 3 ≤ n) {x f f' : Nat → ℝ} {h ε : ℝ} (hh : 0 < h)
    (hx : ∀ k, k + 1 < n → h ≤ x (k + 1) - x k) (hM : ∀ k < n, |f' k - f k| ≤ ε) {i : Nat} (hi : i < n) :
    |Spec.derivAt n x f' i - Spec.derivAt n x f i| ≤ gradFactor n i * ε / h := by
  have e : Spec.derivAt n x f' i - Spec.derivAt n x f i = Spec.derivAt n x (fun k => f' k - f k) i := by
    unfold Spec.derivAt Spec.parabolaDeriv
    ring
  rw [e]
  exact derivAt_size hn hh hx hM hi

/-- **C168** Temperatures to `εT` and salinities to `εS` on levels at least `h` apart: `calc_n2` (Wright, defaults) is
right to `(0.0049 εT + 0.0083 εS) c/h`, with `c = 2` within the column and `c = 6` at its ends, plus what the changed
expansion coefficients make of the gradients. -/
theorem C168_n2 {th so th' so' : DA (Fl ℝ)} {e : Env} {n : Nat} {x T S T' S' : Nat → ℝ}
    (c : TSColumn th so (fun k => fin (x k)) "z_l" e n x T S)
    (c' : TSColumn th' so' (fun k => fin (x k)) "z_l" e n x T' S')
    {h εT εS : ℝ} (hh : 0 < h) (hx : ∀ k, k + 1 < n → h ≤ x (k + 1) - x k)
    (hT : ∀ k < n, |T' k - T k| ≤ εT) (hS : ∀ k < n, |S' k - S k| ≤ εS)
    (ho : Spec.Wright.Ocean (T (e "z_l")) (S (e "z_l")) (x (e "z_l") * 10 ^ 4 + 101325))
    (ho' : Spec.Wright.Ocean (T' (e "z_l")) (S' (e "z_l")) (x (e "z_l") * 10 ^ 4 + 101325)) :
    ∃ r r' y y', calcN2 th so (fun k => fin (x k)) = .ok r ∧ calcN2 th' so' (fun k => fin (x k)) = .ok r' ∧
      r.get e = fin y ∧ r'.get e = fin y' ∧
      |y' - y| ≤ (0.0049 * εT + 0.0083 * εS) * ((if e "z_l" = 0 ∨ e "z_l" + 1 = n then 6 else 2) / h)
        + (0.00021 * εT + 0.00005 * εS) * |Spec.derivAt n x T (e "z_l")|
        + (0.00005 * εT + 0.00002 * εS) * |Spec.derivAt n x S (e "z_l")| := by
  have val : ∀ {th so : DA (Fl ℝ)} {T S : Nat → ℝ}, TSColumn th so (fun k => fin (x k)) "z_l" e n x T S →
      Spec.Wright.Ocean (T (e "z_l")) (S (e "z_l")) (x (e "z_l") * 10 ^ 4 + 101325) →
      ∃ r, calcN2 th so (fun k => fin (x k)) = .ok r ∧ r.get e = fin (-(49 / 5) *
        (Wright.alpha (T (e "z_l")) (S (e "z_l")) (x (e "z_l") * 10 ^ 4 + 101325) * Spec.derivAt n x T (e "z_l")
        - Wright.beta (T (e "z_l")) (S (e "z_l")) (x (e "z_l") * 10 ^ 4 + 101325) * Spec.derivAt n x S (e "z_l"))) := by
    intro th so T S c ho
    have hpos := C03_pos ho
    have hlin : Linear.density (T (e "z_l")) (S (e "z_l")) (x (e "z_l") * 10 ^ 4 + 101325) ≠ 0 := by
      rw [C02_linear_density]
      obtain ⟨h1, h2, h3, h4, -⟩ := ho
      have : 0 < 1000 - T (e "z_l") / 5 + 4 / 5 * S (e "z_l") := by linarith
      exact this.ne'
    obtain ⟨e1, e2, -⟩ := C02_float_finite _ _ _ hpos.1.ne' hpos.2.ne' hlin
    have fa : eosFuncFromStr "Wright" "alpha" = .ok (fun T S p : Fl ℝ => Wright.alpha T S p) := rfl
    have fb : eosFuncFromStr "Wright" "beta" = .ok (fun T S p : Fl ℝ => Wright.beta T S p) := rfl
    obtain ⟨r, h1, h2⟩ := C19_formula c fa fb (-(49 / 5)) (DA.scalar (fin 101325)) (by simp) 101325 rfl
    refine ⟨r, by rw [C19_defaults]; exact h1, ?_⟩
    rw [h2, e1, e2, fin_mul, fin_mul, fin_sub, fin_mul]
  obtain ⟨r, h1, h2⟩ := val c ho
  obtain ⟨r', h1', h2'⟩ := val c' ho'
  refine ⟨r, r', _, _, h1, h1', h2, h2', ?_⟩
  have co := C168_coefficients ho ho'
  have gT := derivAt_errors c.hn hh hx hT c.he
  have gS := derivAt_errors c.hn hh hx hS c.he
  have eT := hT _ c.he
  have eS := hS _ c.he
  rw [mul_div_assoc] at gT gS
  change _ ≤ (0.0049 * εT + 0.0083 * εS) * (gradFactor n (e "z_l") / h) + _ + _
  have gq : gradFactor n (e "z_l") * (εT / h) = gradFactor n (e "z_l") / h * εT := by ring
  have gq' : gradFactor n (e "z_l") * (εS / h) = gradFactor n (e "z_l") / h * εS := by ring
  rw [gq] at gT
  rw [gq'] at gS
  have g0 : 0 ≤ gradFactor n (e "z_l") / h := div_nonneg (by unfold gradFactor; split <;> norm_num) hh.le
  have ba := C168_sizes ho' |>.1
  have bb := C168_sizes ho' |>.2
  generalize gradFactor n (e "z_l") / h = G at *
  generalize Wright.alpha (T' (e "z_l")) (S' (e "z_l")) (x (e "z_l") * 10 ^ 4 + 101325) = a' at *
  generalize Wright.beta (T' (e "z_l")) (S' (e "z_l")) (x (e "z_l") * 10 ^ 4 + 101325) = b' at *
  generalize Wright.alpha (T (e "z_l")) (S (e "z_l")) (x (e "z_l") * 10 ^ 4 + 101325) = a at *
  generalize Wright.beta (T (e "z_l")) (S (e "z_l")) (x (e "z_l") * 10 ^ 4 + 101325) = b at *
  generalize Spec.derivAt n x T' (e "z_l") = t' at *
  generalize Spec.derivAt n x S' (e "z_l") = s' at *
  generalize Spec.derivAt n x T (e "z_l") = t at *
  generalize Spec.derivAt n x S (e "z_l") = s at *
  have id : -(49 / 5) * (a' * t' - b' * s') - -(49 / 5) * (a * t - b * s)
      = -(49 / 5) * (a' * (t' - t) + (a' - a) * t - (b' * (s' - s) + (b' - b) * s)) := by ring
  have m1 : |a' * (t' - t)| ≤ 0.00049 * (G * εT) := by
    rw [abs_mul]; exact mul_le_mul ba gT (abs_nonneg _) (by norm_num)
  have m2 : |b' * (s' - s)| ≤ 0.00084 * (G * εS) := by
    rw [abs_mul]; exact mul_le_mul bb gS (abs_nonneg _) (by norm_num)
  have m3 : |(a' - a) * t| ≤ (0.000021 * εT + 0.0000051 * εS) * |t| := by
    rw [abs_mul]
    refine mul_le_mul_of_nonneg_right (co.1.trans ?_) (abs_nonneg _)
    linarith
  have m4 : |(b' - b) * s| ≤ (0.0000051 * εT + 0.0000018 * εS) * |s| := by
    rw [abs_mul]
    refine mul_le_mul_of_nonneg_right (co.2.trans ?_) (abs_nonneg _)
    linarith
  have eT0 : 0 ≤ εT := (abs_nonneg _).trans eT
  have eS0 : 0 ≤ εS := (abs_nonneg _).trans eS
  have p1 : 0 ≤ εT * |t| := mul_nonneg eT0 (abs_nonneg _)
  have p2 : 0 ≤ εS * |t| := mul_nonneg eS0 (abs_nonneg _)
  have p3 : 0 ≤ εT * |s| := mul_nonneg eT0 (abs_nonneg _)
  have p4 : 0 ≤ εS * |s| := mul_nonneg eS0 (abs_nonneg _)
  have p5 : 0 ≤ G * εT := mul_nonneg g0 eT0
  have p6 : 0 ≤ G * εS := mul_nonneg g0 eS0
  have tri : |a' * (t' - t) + (a' - a) * t - (b' * (s' - s) + (b' - b) * s)|
      ≤ |a' * (t' - t)| + |(a' - a) * t| + (|b' * (s' - s)| + |(b' - b) * s|) :=
    (abs_sub _ _).trans (add_le_add (abs_add_le _ _) (abs_add_le _ _))
  rw [id, abs_mul, show |(-(49 / 5) : ℝ)| = 49 / 5 by norm_num [abs_of_pos]]
  linarith

/-- Temperatures that fall by a degree from level to level, 10 m apart, and the same with errors of 0.01. -/
example : let th : ℝ → DA (Fl ℝ) := fun c => ⟨[("z_l", 3)], fun e => fin (20 - (e "z_l" : ℝ) + c)⟩
    let so : DA (Fl ℝ) := ⟨[("z_l", 3)], fun _ => fin 35⟩
    ∃ r r' y y', calcN2 (th 0) so (fun k => fin (10 * (k : ℝ))) = .ok r ∧
      calcN2 (th 0.01) so (fun k => fin (10 * (k : ℝ))) = .ok r' ∧
      r.get (fun _ => 1) = fin y ∧ r'.get (fun _ => 1) = fin y' ∧ |y' - y| ≤ 0.0000102 := by
  intro th so
  have col : ∀ d : ℝ, TSColumn (th d) so (fun k => fin (10 * (k : ℝ))) "z_l" (fun _ => 1) 3 (fun k => 10 * (k : ℝ))
      (fun k => 20 - (k : ℝ) + d) (fun _ => 35) := fun d =>
    ⟨by norm_num, fun i _ j _ h => by
        have : (i : ℝ) = j := by simpa using h
        exact_mod_cast this, rfl, by simp [th, DA.dimNames],
      by simp [so, DA.dimNames], rfl, rfl, fun k _ => by simp [th], fun k _ => rfl, by norm_num⟩
  obtain ⟨r, r', y, y', h1, h2, h3, h4, h5⟩ := C168_n2 (col 0) (col 0.01) (h := 10) (εT := 0.01) (εS := 0) (by norm_num)
    (fun k _ => by push_cast; linarith) (fun k _ => by norm_num [abs_of_pos]) (fun k _ => by norm_num)
    (by unfold Spec.Wright.Ocean; norm_num) (by unfold Spec.Wright.Ocean; norm_num)
  refine ⟨r, r', y, y', h1, h2, h3, h4, h5.trans ?_⟩
  norm_num [Spec.derivAt, Spec.parabolaDeriv, Spec.stencil, abs_of_neg]

end Momlevel.Props
