import Verif.Lemmas.WrightDiff

/-! # Derivatives of Wright's density along salinity -/

set_option linter.unusedSectionVars false

namespace Momlevel.Eos.Wright
open Spec.Wright

section
variable {α : Type*} [Add α] [Sub α] [Mul α] [Div α] [Neg α] [OfScientific α]

def wDS (T S p : α) : α := (C4 + C5 * T) + A2 * wP T S p + wAl T S * (B4 + B5 * T)
def wNSS (T S p : α) : α := (C4 + C5 * T) * (B4 + B5 * T)
  - ((B4 + B5 * T) * (wP T S p * A2 + (C4 + C5 * T)) + wP T S p * ((B4 + B5 * T) * A2))
def wNTS (T S p : α) : α := (C4 + C5 * T) * wPT T S + wL T S * B5
  - ((B4 + B5 * T) * (wP T S p * A1 + wLT T S) + wP T S p * ((B4 + B5 * T) * A1 + C5))
/-- Numerator of `∂²ρ/∂S²` over `D³`. -/
def wKSS (T S p : α) : α := wNSS T S p * wD T S p - 2.0 * wNS T S p * wDS T S p

end

theorem hasDerivAt_lin (a b S : ℝ) : HasDerivAt (fun s : ℝ => a + b * s) b S := by
  simpa using ((hasDerivAt_id S).const_mul b).const_add a

theorem hasDerivAt_of_lin {f : ℝ → ℝ} (a b : ℝ) {S : ℝ} (h : ∀ s, f s = a + b * s) : HasDerivAt f b S := by
  have : f = fun s => a + b * s := funext h
  rw [this]; exact hasDerivAt_lin a b S

theorem hasDerivAt_wP_S (T S p : ℝ) : HasDerivAt (fun s => wP T s p) (B4 + B5 * T) S :=
  hasDerivAt_of_lin (p + (B0 + T * (B1 + T * (B2 + B3 * T)))) _ (fun s => by unfold wP; ring)

theorem hasDerivAt_wL_S (T S : ℝ) : HasDerivAt (fun s => wL T s) (C4 + C5 * T) S :=
  hasDerivAt_of_lin (C0 + T * (C1 + T * (C2 + C3 * T))) _ (fun s => by unfold wL; ring)

theorem hasDerivAt_wAl_S (T S : ℝ) : HasDerivAt (fun s : ℝ => wAl T s) A2 S :=
  hasDerivAt_of_lin (A0 + A1 * T) _ (fun s => by unfold wAl; ring)

theorem hasDerivAt_wPT_S (T S : ℝ) : HasDerivAt (fun s : ℝ => wPT T s) B5 S :=
  hasDerivAt_lin (B1 + T * (2.0 * B2 + 3.0 * B3 * T)) B5 S

theorem hasDerivAt_wLT_S (T S : ℝ) : HasDerivAt (fun s : ℝ => wLT T s) C5 S :=
  hasDerivAt_lin (C1 + T * (C2 * 2.0 + C3 * 3.0 * T)) C5 S

theorem hasDerivAt_wD_S (T S p : ℝ) : HasDerivAt (fun s => wD T s p) (wDS T S p) S := by
  refine ((hasDerivAt_wL_S T S).add ((hasDerivAt_wAl_S T S).mul (hasDerivAt_wP_S T S p))).congr_deriv ?_
  unfold wDS; ring

theorem hasDerivAt_wNS_S (T S p : ℝ) : HasDerivAt (fun s => wNS T s p) (wNSS T S p) S :=
  ((hasDerivAt_wL_S T S).mul_const (B4 + B5 * T)).sub ((hasDerivAt_wP_S T S p).mul
    (((hasDerivAt_wP_S T S p).mul_const A2).add_const (C4 + C5 * T)))

theorem hasDerivAt_wNT_S (T S p : ℝ) : HasDerivAt (fun s => wNT T s p) (wNTS T S p) S :=
  ((hasDerivAt_wL_S T S).mul (hasDerivAt_wPT_S T S)).sub ((hasDerivAt_wP_S T S p).mul
    (((hasDerivAt_wP_S T S p).mul_const A1).add (hasDerivAt_wLT_S T S)))

theorem hasDerivAt_dS_S (T S p : ℝ) (h : wD T S p ≠ 0) :
    HasDerivAt (fun s => drho_dsal T s p) (wKSS T S p / wD T S p ^ 3) S := by
  simp only [drho_dsal_eq']
  exact hasDerivAt_quot (hasDerivAt_wNS_S T S p) (hasDerivAt_wD_S T S p) h

theorem wKTS_eq (T S p : ℝ) : wNTS T S p * wD T S p - 2.0 * wNT T S p * wDS T S p = wKST T S p := by
  unfold wKST wNTS wNST wNS wNT wDS wDT wD wPT wLT wAl wP wL
  norm_num
  ring

theorem hasDerivAt_dT_S (T S p : ℝ) (h : wD T S p ≠ 0) :
    HasDerivAt (fun s => drho_dtemp T s p) (wKST T S p / wD T S p ^ 3) S := by
  simp only [drho_dtemp_eq']
  rw [← wKTS_eq]
  exact hasDerivAt_quot (hasDerivAt_wNT_S T S p) (hasDerivAt_wD_S T S p) h

theorem o_SS_lo {T S p : ℝ} (h : Ocean T S p) : 0 ≤ wKSS T S p + 0.001 * (wD T S p * wD T S p * wD T S p) := by
  have h1 := o_nonneg h (wKSS eT eS eP + 0.001 * (wD eT eS eP * wD eT eS eP * wD eT eS eP)) (by decide +kernel)
  exact h1

theorem o_SS_hi {T S p : ℝ} (h : Ocean T S p) : 0 ≤ 0.001 * (wD T S p * wD T S p * wD T S p) - wKSS T S p := by
  have h1 := o_nonneg h (0.001 * (wD eT eS eP * wD eT eS eP * wD eT eS eP) - wKSS eT eS eP) (by decide +kernel)
  exact h1

/-- `|∂²ρ/∂S²| ≤ 0.001` -/
theorem SS_bounds {T S p : ℝ} (h : Ocean T S p) :
    -0.001 ≤ wKSS T S p / wD T S p ^ 3 ∧ wKSS T S p / wD T S p ^ 3 ≤ 0.001 := by
  have hd := wD_pos h
  have h1 := o_SS_lo h
  have h2 := o_SS_hi h
  have e : wD T S p ^ 3 = wD T S p * wD T S p * wD T S p := by ring
  rw [le_div_iff₀ (pow_pos hd 3), div_le_iff₀ (pow_pos hd 3), e]
  exact ⟨by linarith, by linarith⟩

/-- A function whose slopes lie between `-c` and `c`. -/
theorem abs_of_slopes {g g' : ℝ → ℝ} {a b c : ℝ} (hd : ∀ x, min a b ≤ x → x ≤ max a b → HasDerivAt g (g' x) x)
    (hb : ∀ x, min a b ≤ x → x ≤ max a b → -c ≤ g' x ∧ g' x ≤ c) : |g b - g a| ≤ c * |b - a| := by
  rcases le_total a b with h | h
  · rw [min_eq_left h, max_eq_right h] at hd hb
    have := mvt_bounds h hd hb
    rw [abs_of_nonneg (sub_nonneg.2 h), abs_le]
    exact ⟨by linarith [this.1], this.2⟩
  · rw [min_eq_right h, max_eq_left h] at hd hb
    have := mvt_bounds h hd hb
    rw [abs_sub_comm b, abs_of_nonneg (sub_nonneg.2 h), abs_sub_comm, abs_le]
    exact ⟨by linarith [this.1], this.2⟩

theorem ocean_min_T {T T' S p x : ℝ} (h : Ocean T S p) (h' : Ocean T' S p) (h1 : min T T' ≤ x) (h2 : x ≤ max T T') :
    Ocean x S p := by
  rcases le_total T T' with t | t
  · rw [min_eq_left t] at h1; rw [max_eq_right t] at h2; exact ocean_T h h' h1 h2
  · rw [min_eq_right t] at h1; rw [max_eq_left t] at h2; exact ocean_T h' h h1 h2

theorem ocean_min_S {T S S' p x : ℝ} (h : Ocean T S p) (h' : Ocean T S' p) (h1 : min S S' ≤ x) (h2 : x ≤ max S S') :
    Ocean T x p := by
  rcases le_total S S' with t | t
  · rw [min_eq_left t] at h1; rw [max_eq_right t] at h2; exact ocean_S h h' h1 h2
  · rw [min_eq_right t] at h1; rw [max_eq_left t] at h2; exact ocean_S h' h h1 h2

theorem ocean_corner {T T' S S' p : ℝ} (h : Ocean T S p) (h' : Ocean T' S' p) : Ocean T S' p :=
  ⟨h.1, h.2.1, h'.2.2⟩

/-- Changes of `∂ρ/∂T`. -/
theorem abs_diff_dT {T T' S S' p : ℝ} (h : Ocean T S p) (h' : Ocean T' S' p) :
    |drho_dtemp T' S' p - drho_dtemp T S p| ≤ 0.02 * |T' - T| + 0.0045 * |S' - S| := by
  have m := ocean_corner h h'
  have a := abs_of_slopes (g := fun t => drho_dtemp t S' p) (a := T) (b := T') (c := 0.02)
    (fun x h1 h2 => hasDerivAt_dT x S' p (wD_pos (ocean_min_T m h' h1 h2)).ne')
    (fun x h1 h2 => by
      have := TT_bounds (ocean_min_T m h' h1 h2)
      exact ⟨this.1, this.2.trans (by norm_num)⟩)
  have b := abs_of_slopes (g := fun s => drho_dtemp T s p) (a := S) (b := S') (c := 0.0045)
    (fun x h1 h2 => hasDerivAt_dT_S T x p (wD_pos (ocean_min_S h m h1 h2)).ne')
    (fun x h1 h2 => by
      have := ST_bounds (ocean_min_S h m h1 h2)
      exact ⟨this.1, this.2.le.trans (by norm_num)⟩)
  calc _ ≤ |drho_dtemp T' S' p - drho_dtemp T S' p| + |drho_dtemp T S' p - drho_dtemp T S p| := abs_sub_le _ _ _
    _ ≤ _ := add_le_add a b

/-- Changes of `∂ρ/∂S`. -/
theorem abs_diff_dS {T T' S S' p : ℝ} (h : Ocean T S p) (h' : Ocean T' S' p) :
    |drho_dsal T' S' p - drho_dsal T S p| ≤ 0.0045 * |T' - T| + 0.001 * |S' - S| := by
  have m := ocean_corner h h'
  have a := abs_of_slopes (g := fun t => drho_dsal t S' p) (a := T) (b := T') (c := 0.0045)
    (fun x h1 h2 => hasDerivAt_dS x S' p (wD_pos (ocean_min_T m h' h1 h2)).ne')
    (fun x h1 h2 => by
      have := ST_bounds (ocean_min_T m h' h1 h2)
      exact ⟨this.1, this.2.le.trans (by norm_num)⟩)
  have b := abs_of_slopes (g := fun s => drho_dsal T s p) (a := S) (b := S') (c := 0.001)
    (fun x h1 h2 => hasDerivAt_dS_S T x p (wD_pos (ocean_min_S h m h1 h2)).ne')
    (fun x h1 h2 => SS_bounds (ocean_min_S h m h1 h2))
  calc _ ≤ |drho_dsal T' S' p - drho_dsal T S' p| + |drho_dsal T S' p - drho_dsal T S p| := abs_sub_le _ _ _
    _ ≤ _ := add_le_add a b

/-- Changes of density. -/
theorem abs_diff_rho {T T' S S' p : ℝ} (h : Ocean T S p) (h' : Ocean T' S' p) :
    |rho T' S' p - rho T S p| ≤ 0.48 * |T' - T| + 0.82 * |S' - S| := by
  have m := ocean_corner h h'
  calc _ ≤ |rho T' S' p - rho T S' p| + |rho T S' p - rho T S p| := abs_sub_le _ _ _
    _ ≤ _ := add_le_add (abs_diff_T m h') (abs_diff_S h m)

end Momlevel.Eos.Wright
