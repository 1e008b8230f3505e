import Verif.Model.RoundingSurface
import Verif.Props.Rounding
import Verif.Props.Mass

/-! # C143: inverse barometer and potential density in floating point -/

set_option linter.unusedSectionVars false

namespace Momlevel.Props
open Momlevel Momlevel.Spec Momlevel.Eos Momlevel.Fl

variable {ρ : ℝ → ℝ} {u w : ℝ}

/-- Temperature, salinity, surface pressure up to 1200 hPa, gravity between 9.7 and 9.9. -/
def surfaceBox : ℕ → ℚ × ℚ
  | 0 => (-2, 40)
  | 1 => (0, 42)
  | 2 => (0, 120000)
  | _ => (97 / 10, 99 / 10)

/-- Temperature, salinity, level between 0 and 7500 m, surface pressure up to 10 bar. -/
def levelBox : ℕ → ℚ × ℚ
  | 0 => (-2, 40)
  | 1 => (0, 42)
  | 2 => (0, 7500)
  | _ => (0, 1000000)

def fourVars (a b c d : ℝ) : ℕ → ℝ
  | 0 => a
  | 1 => b
  | 2 => c
  | _ => d

theorem four_box {I : ℕ → ℚ × ℚ} {a b c d : ℝ} (h0 : ((I 0).1 : ℝ) ≤ a ∧ a ≤ (I 0).2)
    (h1 : ((I 1).1 : ℝ) ≤ b ∧ b ≤ (I 1).2) (h2 : ((I 2).1 : ℝ) ≤ c ∧ c ≤ (I 2).2)
    (h3 : ∀ k, ((I (k + 3)).1 : ℝ) ≤ d ∧ d ≤ (I (k + 3)).2) (i : ℕ) :
    ((I i).1 : ℝ) ≤ fourVars a b c d i ∧ fourVars a b c d i ≤ (I i).2 := by
  match i with
  | 0 => exact h0
  | 1 => exact h1
  | 2 => exact h2
  | n + 3 => exact h3 n

/-- Rounding error of the inverse barometer height, at most 611 units of roundoff (in metres) with Wright's equation
of state and 79 with the linear one.  The exact height is that of C23. -/
theorem C143_barometer (F : Format u w ρ) {T S p g : ℝ} (hT : -2 ≤ T ∧ T ≤ 40) (hS : 0 ≤ S ∧ S ≤ 42)
    (hp : 0 ≤ p ∧ p ≤ 120000) (hg : 9.7 ≤ g ∧ g ≤ 9.9) :
    |(barometerPoint Wright.density (⟨T⟩ : Rd ρ) ⟨S⟩ ⟨p⟩ ⟨g⟩).val - -p / (Spec.Wright.rho T S p * g)| ≤ 611 * u ∧
    |(barometerPoint Linear.density (⟨T⟩ : Rd ρ) ⟨S⟩ ⟨p⟩ ⟨g⟩).val - -p / ((1000 - 0.2 * T + 0.8 * S) * g)|
      ≤ 79 * u := by
  have hb := four_box (I := surfaceBox) (a := T) (b := S) (c := p) (d := g)
    (by simp only [surfaceBox]; push_cast; exact hT) (by simp only [surfaceBox]; push_cast; exact hS)
    (by simp only [surfaceBox]; push_cast; exact hp)
    (fun k => by simp only [surfaceBox]; push_cast; norm_num at hg ⊢; exact hg)
  have h1 := (Ex.check_sound F.rounds F.u0 (U := 1 / 10 ^ 6) (by push_cast; exact F.u1) F.w0 (W := 1 / 10 ^ 30)
    (by push_cast; exact F.w1) hb (barometerPoint Wright.density (.var 0) (.var 1) (.var 2) (.var 3))
    (lo := -20) (hi := 0) (err := 611) (by decide +kernel)).2.2
  have h2 := (Ex.check_sound F.rounds F.u0 (U := 1 / 10 ^ 6) (by push_cast; exact F.u1) F.w0 (W := 1 / 10 ^ 30)
    (by push_cast; exact F.w1) hb (barometerPoint Linear.density (.var 0) (.var 1) (.var 2) (.var 3))
    (lo := -20) (hi := 0) (err := 79) (by decide +kernel)).2.2
  push_cast at h1 h2
  have e1 : Linear.density T S p = 1000 - 0.2 * T + 0.8 * S := by
    unfold Linear.density Linear.RHO_T0_S0 Linear.DRHO_DT Linear.DRHO_DS
    norm_num; ring
  have m1 : ∀ r : ℝ, p * (-1.0 / (r * g)) = -p / (r * g) := fun r => by norm_num; ring
  refine ⟨?_, ?_⟩
  · rw [← m1, ← Wright.density_eq]; exact h1
  · rw [← m1, ← e1]; exact h2

/-- Rounding error of the potential density, for levels between 0 and 7500 m: at most 28948 units of roundoff, as for
the in-situ density. -/
theorem C143_pdens (F : Format u w ρ) {T S level patm : ℝ} (hT : -2 ≤ T ∧ T ≤ 40) (hS : 0 ≤ S ∧ S ≤ 42)
    (hl : 0 ≤ level ∧ level ≤ 7500) (hp : 0 ≤ patm ∧ patm ≤ 10 ^ 6) :
    |(pdensPoint Wright.density (⟨patm⟩ : Rd ρ) ⟨T⟩ ⟨S⟩ ⟨level⟩).val
      - Spec.Wright.rho T S (level * 10 ^ 4 + patm)| ≤ 28948 * u := by
  have hb := four_box (I := levelBox) (a := T) (b := S) (c := level) (d := patm)
    (by simp only [levelBox]; push_cast; exact hT) (by simp only [levelBox]; push_cast; exact hS)
    (by simp only [levelBox]; push_cast; exact hl)
    (fun k => by simp only [levelBox]; push_cast; norm_num at hp ⊢; exact hp)
  have h1 := (Ex.check_sound F.rounds F.u0 (U := 1 / 10 ^ 6) (by push_cast; exact F.u1) F.w0 (W := 1 / 10 ^ 30)
    (by push_cast; exact F.w1) hb (pdensPoint Wright.density (.var 3) (.var 0) (.var 1) (.var 2))
    (lo := 700) (hi := 2000) (err := 28948) (by decide +kernel)).2.2
  push_cast at h1
  have m1 : level * 10 ^ 4 + patm = level * 1.0e4 + patm := by norm_num
  rw [m1, ← Wright.density_eq]
  exact h1

/-- The exact height is the value of `inverse_barometer` (for `calc_pdens` see `C22_value`). -/
theorem C143_exact {tos sos pso : DA (Fl ℝ)} (hpd : ∀ q ∈ pso.dims, q.1 ∈ tos.dimNames) {e : Env} {T S p g : ℝ}
    (hT : tos.get e = fin T) (hS : sos.get e = fin S) (hp : pso.get e = fin p)
    (ho : Spec.Wright.Ocean T S p) (hg : g ≠ 0) :
    ∃ r, inverseBarometer tos sos pso (fin g) "Wright" = .ok r ∧
      r.get e = fin (-p / (Spec.Wright.rho T S p * g)) := by
  have hf : eosFuncFromStr "Wright" "density" = .ok (Wright.density : EosFn (Fl ℝ)) := rfl
  obtain ⟨r, k1, k2⟩ := inverseBarometer_eq (sos := sos) hf hpd (fin g)
  have o := C03_pos ho
  have g1 := (C01_float_finite T S p o.1.ne').1
  refine ⟨r, k1, ?_⟩
  have hne : Spec.Wright.rho T S p * g ≠ 0 := by
    rw [← C01_density_formula]; exact mul_ne_zero o.2.ne' hg
  rw [k2, hT, hS, hp, g1, fin_mul, ← Wright.density_eq, fin_div_of_ne _ (by rw [Wright.density_eq]; exact hne), fin_mul]
  congr 1
  ring

/-- In double precision the inverse barometer is right to 7·10⁻¹⁴ m, in single precision to 4·10⁻⁵ m. -/
theorem C143_precision {T S p g : ℝ} (hT : -2 ≤ T ∧ T ≤ 40) (hS : 0 ≤ S ∧ S ≤ 42)
    (hp : 0 ≤ p ∧ p ≤ 120000) (hg : 9.7 ≤ g ∧ g ≤ 9.9) :
    |(barometerPoint Wright.density (⟨T⟩ : Rd (nearest 53)) ⟨S⟩ ⟨p⟩ ⟨g⟩).val
      - -p / (Spec.Wright.rho T S p * g)| ≤ 7 / 10 ^ 14 ∧
    |(barometerPoint Wright.density (⟨T⟩ : Rd (nearest 24)) ⟨S⟩ ⟨p⟩ ⟨g⟩).val
      - -p / (Spec.Wright.rho T S p * g)| ≤ 4 / 10 ^ 5 :=
  ⟨(C143_barometer (nearest_format (by norm_num)) hT hS hp hg).1.trans (by norm_num),
    (C143_barometer (nearest_format (by norm_num)) hT hS hp hg).1.trans (by norm_num)⟩

/-- `C143_exact`, `C143_precision` and `C143_pdens` at 10 °C, 35 psu, 1013.25 hPa. -/
example : (∃ r, inverseBarometer (DA.scalar (fin 10)) (DA.scalar (fin 35)) (DA.scalar (fin (101325 : ℝ))) (fin 9.8)
      "Wright" = .ok r ∧ r.get (fun _ => 0) = fin (-101325 / (Spec.Wright.rho 10 35 101325 * 9.8))) ∧
    |(barometerPoint Wright.density (⟨10⟩ : Rd (nearest 53)) ⟨35⟩ ⟨101325⟩ ⟨9.8⟩).val
      - -101325 / (Spec.Wright.rho 10 35 101325 * 9.8)| ≤ 7 / 10 ^ 14 ∧
    |(pdensPoint Wright.density (⟨101325⟩ : Rd (nearest 24)) ⟨10⟩ ⟨35⟩ ⟨2000⟩).val
      - Spec.Wright.rho 10 35 (2000 * 10 ^ 4 + 101325)| ≤ 28948 * 2⁻¹ ^ 24 := by
  refine ⟨C143_exact (by simp [DA.scalar]) rfl rfl rfl (by unfold Spec.Wright.Ocean; norm_num) (by norm_num),
    (C143_precision (by norm_num) (by norm_num) (by norm_num) (by norm_num)).1,
    C143_pdens (nearest_format (by norm_num)) (by norm_num) (by norm_num) (by norm_num) (by norm_num)⟩

end Momlevel.Props
