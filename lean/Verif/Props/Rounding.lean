import Verif.Lemmas.Rounding
import Verif.Lemmas.Wright
import Verif.Props.StericSuccess

/-!
# C91, C92: rounded arithmetic

The other properties are about exact arithmetic.  Here every operation rounds.
-/

set_option linter.unusedSectionVars false

namespace Momlevel.Props
open Momlevel Momlevel.Spec Momlevel.Eos

variable {ρ : ℝ → ℝ} {u w : ℝ}

/-- Rounding as in a format with unit roundoff at most 10⁻⁶ and smallest normal number at most
10⁻³⁰ (binary32: 2⁻²⁴ and 2⁻¹²⁶; binary64: 2⁻⁵³ and 2⁻¹⁰²²). -/
structure Format (u w : ℝ) (ρ : ℝ → ℝ) : Prop where
  rounds : Rounds u w ρ
  u0 : 0 ≤ u
  u1 : u ≤ 1 / 10 ^ 6
  w0 : 0 ≤ w
  w1 : w ≤ 1 / 10 ^ 30

/-- The intervals of temperature, salinity and pressure. -/
def oceanBox : ℕ → ℚ × ℚ
  | 0 => (-2, 40)
  | 1 => (0, 42)
  | _ => (0, 10 ^ 8)

def oceanVars (T S p : ℝ) : ℕ → ℝ
  | 0 => T
  | 1 => S
  | _ => p

theorem ocean_box {T S p : ℝ} (h : Spec.Wright.Ocean T S p) (i : ℕ) :
    ((oceanBox i).1 : ℝ) ≤ oceanVars T S p i ∧ oceanVars T S p i ≤ (oceanBox i).2 := by
  obtain ⟨h1, h2, h3, h4, h5, h6⟩ := h
  match i with
  | 0 => exact ⟨by simp only [oceanBox, oceanVars]; push_cast; exact h1,
      by simp only [oceanBox, oceanVars]; push_cast; exact h2⟩
  | 1 => exact ⟨by simp only [oceanBox, oceanVars]; push_cast; exact h3,
      by simp only [oceanBox, oceanVars]; push_cast; exact h4⟩
  | (n + 2) => exact ⟨by simp only [oceanBox, oceanVars]; push_cast; exact h5,
      by simp only [oceanBox, oceanVars]; push_cast; exact h6⟩

theorem ocean_check (F : Format u w ρ) {T S p : ℝ} (h : Spec.Wright.Ocean T S p) (e : Ex)
    {lo hi err : ℚ} (hc : Ex.check (1 / 10 ^ 6) (1 / 10 ^ 30) oceanBox e lo hi err = true) :
    (lo : ℝ) ≤ e.eval (oceanVars T S p) ∧ e.eval (oceanVars T S p) ≤ hi
      ∧ |(e.eval (fun i => (⟨oceanVars T S p i⟩ : Rd ρ))).val - e.eval (oceanVars T S p)| ≤ err * u :=
  Ex.check_sound F.rounds F.u0 (by push_cast; exact F.u1) F.w0 (by push_cast; exact F.w1)
    (ocean_box h) e hc

/-! ## C91 -/

/-- Rounding error of Wright's density on the oceanographic range. -/
theorem C91_wright_density (F : Format u w ρ) {T S p : ℝ} (h : Spec.Wright.Ocean T S p) :
    |(Wright.density (⟨T⟩ : Rd ρ) ⟨S⟩ ⟨p⟩).val - Spec.Wright.rho T S p| ≤ 29071 * u := by
  have := (ocean_check F h (Wright.density (.var 0) (.var 1) (.var 2)) (lo := 0) (hi := 2000)
    (err := 29071) (by decide +kernel)).2.2
  rw [← Wright.density_eq]
  push_cast at this
  exact this

/-- Rounding errors of the derivatives of Wright's density, which are (C01) the derivatives of
`Spec.Wright.rho`. -/
theorem C91_wright_derivatives (F : Format u w ρ) {T S p : ℝ} (h : Spec.Wright.Ocean T S p) :
    (∀ r, HasDerivAt (fun t => Spec.Wright.rho t S p) r T →
      |(Wright.drho_dtemp (⟨T⟩ : Rd ρ) ⟨S⟩ ⟨p⟩).val - r| ≤ 171 * u) ∧
    (∀ r, HasDerivAt (fun s => Spec.Wright.rho T s p) r S →
      |(Wright.drho_dsal (⟨T⟩ : Rd ρ) ⟨S⟩ ⟨p⟩).val - r| ≤ 65 * u) := by
  have h1 := (ocean_check F h (Wright.drho_dtemp (.var 0) (.var 1) (.var 2)) (lo := -4) (hi := 2)
    (err := 171) (by decide +kernel)).2.2
  have h2 := (ocean_check F h (Wright.drho_dsal (.var 0) (.var 1) (.var 2)) (lo := 0) (hi := 2)
    (err := 65) (by decide +kernel)).2.2
  push_cast at h1 h2
  have hd := (C03_pos h).1.ne'
  have e1 := C01_drho_dtemp T S p hd
  have e2 := C01_drho_dsal T S p hd
  simp only [Wright.density_eq] at e1 e2
  refine ⟨fun r hr => ?_, fun r hr => ?_⟩
  · rw [hr.unique e1]; exact h1
  · rw [hr.unique e2]; exact h2

/-- Rounding errors of the expansion coefficients. -/
theorem C91_wright_coefficients (F : Format u w ρ) {T S p : ℝ} (h : Spec.Wright.Ocean T S p) :
    |(Wright.alpha (⟨T⟩ : Rd ρ) ⟨S⟩ ⟨p⟩).val - Wright.alpha T S p| ≤ 0.44 * u ∧
    |(Wright.beta (⟨T⟩ : Rd ρ) ⟨S⟩ ⟨p⟩).val - Wright.beta T S p| ≤ 0.19 * u := by
  have h1 := (ocean_check F h (Wright.alpha (.var 0) (.var 1) (.var 2)) (lo := -1) (hi := 1)
    (err := 44 / 100) (by decide +kernel)).2.2
  have h2 := (ocean_check F h (Wright.beta (.var 0) (.var 1) (.var 2)) (lo := -1) (hi := 1)
    (err := 19 / 100) (by decide +kernel)).2.2
  push_cast at h1 h2
  refine ⟨?_, ?_⟩
  · norm_num at h1 ⊢; exact h1
  · norm_num at h2 ⊢; exact h2

/-- Rounding does not change the sign of the haline contraction coefficient, and the computed
density is positive. -/
theorem C91_signs (F : Format u w ρ) {T S p : ℝ} (h : Spec.Wright.Ocean T S p) :
    0 < (Wright.density (⟨T⟩ : Rd ρ) ⟨S⟩ ⟨p⟩).val ∧ 0 < (Wright.beta (⟨T⟩ : Rd ρ) ⟨S⟩ ⟨p⟩).val ∧
      0 < (Wright.drho_dsal (⟨T⟩ : Rd ρ) ⟨S⟩ ⟨p⟩).val := by
  obtain ⟨a1, -, a3⟩ := ocean_check F h (Wright.density (.var 0) (.var 1) (.var 2)) (lo := 700)
    (hi := 2000) (err := 29071) (by decide +kernel)
  obtain ⟨b1, -, b3⟩ := ocean_check F h (Wright.beta (.var 0) (.var 1) (.var 2)) (lo := 1 / 10 ^ 4)
    (hi := 1) (err := 1) (by decide +kernel)
  obtain ⟨c1, -, c3⟩ := ocean_check F h (Wright.drho_dsal (.var 0) (.var 1) (.var 2)) (lo := 1 / 10)
    (hi := 2) (err := 65) (by decide +kernel)
  push_cast at a1 a3 b1 b3 c1 c3
  have hu := F.u1
  have a4 := (abs_le.1 a3).1
  have b4 := (abs_le.1 b3).1
  have c4 := (abs_le.1 c3).1
  have pos : ∀ {x y e : ℝ}, -e ≤ x - y → e < y → 0 < x := fun h1 h2 => by linarith
  exact ⟨pos a4 (by linarith), pos b4 (by linarith), pos c4 (by linarith)⟩

/-- Rounding errors of the linear equation of state. -/
theorem C91_linear (F : Format u w ρ) {T S p : ℝ} (h : Spec.Wright.Ocean T S p) :
    |(Linear.density (⟨T⟩ : Rd ρ) ⟨S⟩ ⟨p⟩).val - (1000 - 0.2 * T + 0.8 * S)| ≤ 2152 * u ∧
    |(Linear.alpha (⟨T⟩ : Rd ρ) ⟨S⟩ ⟨p⟩).val - 0.2 / (1000 - 0.2 * T + 0.8 * S)| ≤ 0.002 * u ∧
    |(Linear.beta (⟨T⟩ : Rd ρ) ⟨S⟩ ⟨p⟩).val - 0.8 / (1000 - 0.2 * T + 0.8 * S)| ≤ 0.004 * u := by
  have h1 := (ocean_check F h (Linear.density (.var 0) (.var 1) (.var 2)) (lo := 0) (hi := 2000)
    (err := 2152) (by decide +kernel)).2.2
  have h2 := (ocean_check F h (Linear.alpha (.var 0) (.var 1) (.var 2)) (lo := -1) (hi := 1)
    (err := 2 / 1000) (by decide +kernel)).2.2
  have h3 := (ocean_check F h (Linear.beta (.var 0) (.var 1) (.var 2)) (lo := -1) (hi := 1)
    (err := 4 / 1000) (by decide +kernel)).2.2
  have e1 : Linear.density T S p = 1000 - 0.2 * T + 0.8 * S := by
    unfold Linear.density Linear.RHO_T0_S0 Linear.DRHO_DT Linear.DRHO_DS
    norm_num; ring
  have e2 : Linear.alpha T S p = 0.2 / (1000 - 0.2 * T + 0.8 * S) := by
    rw [← e1]; unfold Linear.alpha Linear.fullLike Linear.DRHO_DT
    norm_num; ring
  have e3 : Linear.beta T S p = 0.8 / (1000 - 0.2 * T + 0.8 * S) := by
    rw [← e1]; unfold Linear.beta Linear.fullLike Linear.DRHO_DS
    rfl
  rw [← e1] at *
  rw [← e2, ← e3]
  push_cast at h1 h2 h3
  refine ⟨h1, ?_, ?_⟩
  · norm_num at h2 ⊢; exact h2
  · norm_num at h3 ⊢; exact h3

/-- Rounding to the nearest number of `p` binary digits has unit roundoff `2⁻ᵖ`. -/
theorem C91_nearest (p : ℕ) : Rounds (2⁻¹ ^ p) 0 (nearest p) := by
  intro x
  rw [max_eq_left (abs_nonneg x)]
  by_cases hx : x = 0
  · simp [hx, nearest]
  have hx' : 0 < |x| := abs_pos.2 hx
  have hl := Int.zpow_log_le_self (b := 2) (by norm_num) hx'
  push_cast at hl
  set b := Int.log 2 |x|
  have hs : (0 : ℝ) < 2 ^ (b + 1 - p) := zpow_pos (by norm_num) _
  have h1 := abs_sub_round (x / 2 ^ (b + 1 - p))
  have h2 : nearest p x - x
      = -((x / 2 ^ (b + 1 - p) - round (x / 2 ^ (b + 1 - p))) * 2 ^ (b + 1 - p)) := by
    unfold nearest
    rw [sub_mul, div_mul_cancel₀ _ hs.ne']
    ring
  rw [h2, abs_neg, abs_mul, abs_of_pos hs]
  have h3 : (2 : ℝ) ^ (b + 1 - p) = 2 * (2⁻¹ ^ p * 2 ^ b) := by
    rw [sub_eq_add_neg, zpow_add₀ (by norm_num), zpow_add₀ (by norm_num), zpow_neg, zpow_natCast,
      inv_pow, zpow_one]
    ring
  calc _ ≤ 1 / 2 * 2 ^ (b + 1 - p) := mul_le_mul_of_nonneg_right h1 hs.le
    _ = 2⁻¹ ^ p * 2 ^ b := by rw [h3]; ring
    _ ≤ _ := mul_le_mul_of_nonneg_left hl (by positivity)

/-- Formats with at least 20 binary digits. -/
theorem nearest_format {p : ℕ} (hp : 20 ≤ p) : Format (2⁻¹ ^ p) 0 (nearest p) :=
  ⟨C91_nearest p, by positivity,
    (pow_le_pow_of_le_one (by norm_num) (by norm_num) hp).trans (by norm_num), le_rfl, by norm_num⟩

/-- In double precision (53 digits) the density is right to 4·10⁻¹² kg m⁻³, in single precision
(24 digits) to 0.002 kg m⁻³. -/
theorem C91_precision {T S p : ℝ} (h : Spec.Wright.Ocean T S p) :
    |(Wright.density (⟨T⟩ : Rd (nearest 53)) ⟨S⟩ ⟨p⟩).val - Spec.Wright.rho T S p| ≤ 4 / 10 ^ 12 ∧
    |(Wright.density (⟨T⟩ : Rd (nearest 24)) ⟨S⟩ ⟨p⟩).val - Spec.Wright.rho T S p| ≤ 2 / 10 ^ 3 :=
  ⟨(C91_wright_density (nearest_format (by norm_num)) h).trans (by norm_num),
    (C91_wright_density (nearest_format (by norm_num)) h).trans (by norm_num)⟩

example : Format (2⁻¹ ^ 24) 0 (nearest 24) ∧ Spec.Wright.Ocean 10 35 20000000 :=
  ⟨nearest_format (by norm_num), by unfold Spec.Wright.Ocean; norm_num⟩

/-! ## C92 -/

/-- A cell of the ocean, at rest in the range of validity: at most 9900 m deep, with temperature and
salinity in the oceanographic range at both times. -/
structure OceanCell (c : ColCell ℝ) : Prop where
  dz : 0 ≤ c.dz
  z0 : 0 ≤ c.z
  z1 : c.z ≤ 9900
  T : -2 ≤ c.T ∧ c.T ≤ 40
  S : 0 ≤ c.S ∧ c.S ≤ 42
  Tref : -2 ≤ c.Tref ∧ c.Tref ≤ 40
  Sref : 0 ≤ c.Sref ∧ c.Sref ≤ 42

def columnBox : ℕ → ℚ × ℚ
  | 0 => (-2, 40)
  | 1 => (0, 42)
  | 2 => (0, 9900)
  | _ => (0, 10 ^ 6)

def columnVars (T S z pa : ℝ) : ℕ → ℝ
  | 0 => T
  | 1 => S
  | 2 => z
  | _ => pa

theorem column_box {T S z pa : ℝ} (hT : -2 ≤ T ∧ T ≤ 40) (hS : 0 ≤ S ∧ S ≤ 42)
    (hz : 0 ≤ z ∧ z ≤ 9900) (hp : 0 ≤ pa ∧ pa ≤ 10 ^ 6) (i : ℕ) :
    ((columnBox i).1 : ℝ) ≤ columnVars T S z pa i ∧ columnVars T S z pa i ≤ (columnBox i).2 := by
  match i with
  | 0 => simp only [columnBox, columnVars]; push_cast; exact hT
  | 1 => simp only [columnBox, columnVars]; push_cast; exact hS
  | 2 => simp only [columnBox, columnVars]; push_cast; exact hz
  | (n + 3) => simp only [columnBox, columnVars]; push_cast; exact hp

theorem column_density (F : Format u w ρ) {T S z pa : ℝ} (hT : -2 ≤ T ∧ T ≤ 40)
    (hS : 0 ≤ S ∧ S ≤ 42) (hz : 0 ≤ z ∧ z ≤ 9900) (hp : 0 ≤ pa ∧ pa ≤ 10 ^ 6) :
    |(Wright.density (⟨T⟩ : Rd ρ) ⟨S⟩ (colPressure ⟨pa⟩ ⟨z⟩)).val
      - Wright.density T S (colPressure pa z)| ≤ 30200 * u := by
  have h := (Ex.check_sound F.rounds F.u0 (U := 1 / 10 ^ 6) (by push_cast; exact F.u1) F.w0
    (W := 1 / 10 ^ 30) (by push_cast; exact F.w1) (column_box hT hS hz hp)
    (Wright.density (.var 0) (.var 1) (colPressure (.var 3) (.var 2))) (lo := 0) (hi := 2000)
    (err := 30200) (by decide +kernel)).2.2
  push_cast at h
  exact h

theorem column_delta (F : Format u w ρ) {c : ColCell ℝ} (hc : OceanCell c) {pa D : ℝ}
    (hp : 0 ≤ pa ∧ pa ≤ 10 ^ 6) (hD : |colDelta Wright.density pa c| ≤ D) :
    |(colDelta Wright.density ⟨pa⟩ (c.toRd ρ)).val - colDelta Wright.density pa c|
      ≤ (60401 + D) * u := by
  have h1 := column_density F hc.T hc.S ⟨hc.z0, hc.z1⟩ hp
  have h2 := column_density F hc.Tref hc.Sref ⟨hc.z0, hc.z1⟩ hp
  unfold colDelta at hD ⊢
  set a := Wright.density c.T c.S (colPressure pa c.z)
  set b := Wright.density c.Tref c.Sref (colPressure pa c.z)
  show |ρ ((Wright.density (⟨c.T⟩ : Rd ρ) ⟨c.S⟩ (colPressure ⟨pa⟩ ⟨c.z⟩)).val
    - (Wright.density (⟨c.Tref⟩ : Rd ρ) ⟨c.Sref⟩ (colPressure ⟨pa⟩ ⟨c.z⟩)).val) - (a - b)| ≤ _
  set a' := (Wright.density (⟨c.T⟩ : Rd ρ) ⟨c.S⟩ (colPressure ⟨pa⟩ ⟨c.z⟩)).val
  set b' := (Wright.density (⟨c.Tref⟩ : Rd ρ) ⟨c.Sref⟩ (colPressure ⟨pa⟩ ⟨c.z⟩)).val
  have h3 : |(a' - b') - (a - b)| ≤ 60400 * u := by
    have : (a' - b') - (a - b) = (a' - a) - (b' - b) := by ring
    rw [this]
    refine (abs_sub _ _).trans ?_
    linarith
  have h4 := F.rounds (a' - b')
  have hu := F.u0
  have hu1 := F.u1
  have h5 : max |a' - b'| w ≤ D + 6 / 10 := by
    have h6 := abs_sub_abs_le_abs_sub (a' - b') (a - b)
    have h7 := F.w1
    have h8 := (abs_nonneg _).trans hD
    exact max_le (by linarith) (by linarith)
  have h6 : u * max |a' - b'| w ≤ u * (D + 6 / 10) := mul_le_mul_of_nonneg_left h5 hu
  have h7 := abs_sub_le (ρ (a' - b')) (a' - b') (a - b)
  linarith

/-- The exact height, written out: `-(1/ρ₀) Σ dz (ρ(T, S, p) - ρ(Tref, Sref, p))`. -/
theorem C92_formula (pa rhozero : ℝ) (cell : ℕ → ColCell ℝ) (order : SumTree ℕ) :
    colHeight Wright.density pa rhozero cell order
      = -(1 / rhozero) * (order.leaves.map (fun k => (cell k).dz *
          (Spec.Wright.rho (cell k).T (cell k).S ((cell k).z * 10 ^ 4 + pa)
            - Spec.Wright.rho (cell k).Tref (cell k).Sref ((cell k).z * 10 ^ 4 + pa)))).sum := by
  unfold colHeight colDelta colPressure
  rw [SumTree.sum_leaves]
  simp only [Wright.density_eq]
  norm_num
  ring

/-- Error of the local steric height of a column, for every order of summation.  `H` is the depth of
the water column, `D` (at least 1 kg m⁻³) a bound for the density changes, `order.depth` the largest
number of additions a level goes through. -/
theorem C92_error (F : Format u w ρ) {pa rhozero D H : ℝ} (hp : 0 ≤ pa ∧ pa ≤ 10 ^ 6)
    (hr : 900 ≤ rhozero ∧ rhozero ≤ 1100) (cell : ℕ → ColCell ℝ) (order : SumTree ℕ)
    (hc : ∀ k ∈ order.leaves, OceanCell (cell k)) (hd : order.depth * u ≤ 1 / 100)
    (hD1 : 1 ≤ D) (hD : ∀ k ∈ order.leaves, |colDelta Wright.density pa (cell k)| ≤ D)
    (hH : (order.leaves.map (fun k => (cell k).dz)).sum = H) :
    |(colHeight Wright.density ⟨pa⟩ ⟨rhozero⟩ (fun k => (cell k).toRd ρ) order).val
        - colHeight Wright.density pa rhozero cell order|
      ≤ u * (70 + (8.1 + 1.05 * order.depth) * D / 900) * (H + 1000 * (order.leaves.length * w)) := by
  have h := column_error F.rounds F.u0 F.u1 F.w0 F.w1 (eos' := Wright.density) (E := 60401 + D)
    hr.1 hr.2 (by linarith) hD1 cell order hd (fun k hk => (hc k hk).dz)
    (fun k hk => column_delta F (hc k hk) hp (hD k hk)) hD
  rw [hH] at h
  refine h.trans ?_
  have hH0 : 0 ≤ H := by rw [← hH]; exact SumTree.sum_nonneg (fun k hk => (hc k hk).dz)
  have hw0 : 0 ≤ (order.leaves.length : ℝ) * w := mul_nonneg (Nat.cast_nonneg _) F.w0
  refine mul_le_mul_of_nonneg_right (mul_le_mul_of_nonneg_left ?_ F.u0) (by linarith)
  norm_num
  linarith

/-- If the exact height exceeds the error bound, the computed one has its sign. -/
theorem C92_sign (F : Format u w ρ) {pa rhozero D H : ℝ} (hp : 0 ≤ pa ∧ pa ≤ 10 ^ 6)
    (hr : 900 ≤ rhozero ∧ rhozero ≤ 1100) (cell : ℕ → ColCell ℝ) (order : SumTree ℕ)
    (hc : ∀ k ∈ order.leaves, OceanCell (cell k)) (hd : order.depth * u ≤ 1 / 100)
    (hD1 : 1 ≤ D) (hD : ∀ k ∈ order.leaves, |colDelta Wright.density pa (cell k)| ≤ D)
    (hH : (order.leaves.map (fun k => (cell k).dz)).sum = H)
    (hb : u * (70 + (8.1 + 1.05 * order.depth) * D / 900) * (H + 1000 * (order.leaves.length * w))
      < |colHeight Wright.density pa rhozero cell order|) :
    (0 < (colHeight Wright.density ⟨pa⟩ ⟨rhozero⟩ (fun k => (cell k).toRd ρ) order).val
      ↔ 0 < colHeight Wright.density pa rhozero cell order) := by
  have h := C92_error F hp hr cell order hc hd hD1 hD hH
  set x := colHeight Wright.density pa rhozero cell order
  obtain ⟨h1, h2⟩ := abs_le.1 (h.trans hb.le)
  have h3 := h.trans_lt hb
  rcases abs_cases x with ⟨e, he⟩ | ⟨e, he⟩
  · rw [e] at h3
    have := (abs_lt.1 h3).1
    have hx : 0 < x := by
      rcases he.lt_or_eq with h | h
      · exact h
      · rw [← h] at h3
        exact absurd h3 (not_lt.2 (abs_nonneg _))
    exact ⟨fun _ => hx, fun _ => by linarith⟩
  · rw [e] at h3
    have := (abs_lt.1 h3).2
    exact ⟨fun h => by linarith, fun h => by linarith⟩

/-- Double precision: at most 10⁻⁹ m for any column of the ocean with up to 100 additions per level
and density changes up to 100 kg m⁻³; single precision: at most 6 cm. -/
theorem C92_precision {pa rhozero : ℝ} (hp : 0 ≤ pa ∧ pa ≤ 10 ^ 6)
    (hr : 900 ≤ rhozero ∧ rhozero ≤ 1100) (cell : ℕ → ColCell ℝ) (order : SumTree ℕ)
    (hc : ∀ k ∈ order.leaves, OceanCell (cell k)) (hd : order.depth ≤ 100)
    (hD : ∀ k ∈ order.leaves, |colDelta Wright.density pa (cell k)| ≤ 100)
    (hH : (order.leaves.map (fun k => (cell k).dz)).sum ≤ 11000) :
    |(colHeight Wright.density ⟨pa⟩ ⟨rhozero⟩ (fun k => (cell k).toRd (nearest 53)) order).val
        - colHeight Wright.density pa rhozero cell order| ≤ 1 / 10 ^ 9 ∧
    |(colHeight Wright.density ⟨pa⟩ ⟨rhozero⟩ (fun k => (cell k).toRd (nearest 24)) order).val
        - colHeight Wright.density pa rhozero cell order| ≤ 6 / 100 := by
  have hd' : (order.depth : ℝ) ≤ 100 := by exact_mod_cast hd
  have hH0 : 0 ≤ (order.leaves.map (fun k => (cell k).dz)).sum :=
    SumTree.sum_nonneg (fun k hk => (hc k hk).dz)
  have key : ∀ p : ℕ, 20 ≤ p →
      |(colHeight Wright.density ⟨pa⟩ ⟨rhozero⟩ (fun k => (cell k).toRd (nearest p)) order).val
        - colHeight Wright.density pa rhozero cell order| ≤ 2⁻¹ ^ p * 83 * 11000 := by
    intro p h20
    have F := nearest_format h20
    refine (C92_error F hp hr cell order hc ?_ (by norm_num) hD rfl).trans ?_
    · have := mul_le_mul hd' F.u1 F.u0 (by norm_num)
      refine this.trans (by norm_num)
    · rw [mul_zero, mul_zero, add_zero]
      refine mul_le_mul (mul_le_mul_of_nonneg_left ?_ F.u0) hH hH0
        (mul_nonneg F.u0 (by norm_num))
      norm_num
      linarith
  exact ⟨(key 53 (by norm_num)).trans (by norm_num), (key 24 (by norm_num)).trans (by norm_num)⟩

/-- Where temperature and salinity are those of the reference state, the computed height is exactly
zero: with every rounding that keeps 0, every equation of state and every order of summation. -/
theorem C92_zero (h0 : ρ 0 = 0) (eos : EosFn (Rd ρ)) (pa rhozero : Rd ρ) (cell : ℕ → ColCell (Rd ρ))
    (order : SumTree ℕ)
    (hc : ∀ k ∈ order.leaves, (cell k).T = (cell k).Tref ∧ (cell k).S = (cell k).Sref) :
    (colHeight eos pa rhozero cell order).val = 0 := by
  have hs : (order.sum (fun k => (cell k).dz * colDelta eos pa (cell k))).val = 0 := by
    induction order with
    | leaf k =>
      obtain ⟨h1, h2⟩ := hc k (by simp [SumTree.leaves])
      show ρ ((cell k).dz.val * (colDelta eos pa (cell k)).val) = 0
      have : (colDelta eos pa (cell k)).val = 0 := by
        unfold colDelta
        rw [h1, h2]
        show ρ (_ - _) = 0
        rw [sub_self, h0]
      rw [this, mul_zero, h0]
    | node l r ihl ihr =>
      show ρ ((l.sum (fun k => (cell k).dz * colDelta eos pa (cell k))).val
        + (r.sum (fun k => (cell k).dz * colDelta eos pa (cell k))).val) = 0
      rw [ihl (fun k hk => hc k (by simp [SumTree.leaves, hk])),
        ihr (fun k hk => hc k (by simp [SumTree.leaves, hk])), add_zero, h0]
  show ρ (_ * (order.sum (fun k => (cell k).dz * colDelta eos pa (cell k))).val) = 0
  rw [hs, mul_zero, h0]

example : nearest 53 0 = 0 := by simp [nearest]

/-- A column of two cells: 100 m of water warmed by 1 degree on 3000 m of unchanged water. -/
example : ∃ (cell : ℕ → ColCell ℝ) (order : SumTree ℕ), order.leaves = [0, 1] ∧ order.depth ≤ 100 ∧
    (∀ k ∈ order.leaves, OceanCell (cell k)) ∧
    (∀ k ∈ order.leaves, |colDelta Wright.density 101325 (cell k)| ≤ 100) ∧
    (order.leaves.map (fun k => (cell k).dz)).sum ≤ 11000 ∧
    0 < colHeight Wright.density 101325 1035 cell order := by
  refine ⟨fun k => if k = 0 then ⟨100, 50, 11, 35, 10, 35⟩ else ⟨3000, 1600, 4, 35, 4, 35⟩,
    .node (.leaf 0) (.leaf 1), rfl, by simp [SumTree.depth], ?_, ?_, ?_, ?_⟩
  · intro k hk
    simp only [SumTree.leaves, List.cons_append, List.nil_append, List.mem_cons, List.not_mem_nil,
      or_false] at hk
    rcases hk with rfl | rfl <;> constructor <;> norm_num
  · intro k hk
    simp only [SumTree.leaves, List.cons_append, List.nil_append, List.mem_cons, List.not_mem_nil,
      or_false] at hk
    unfold colDelta colPressure
    simp only [Wright.density_eq]
    rcases hk with rfl | rfl
    · rw [abs_le]
      norm_num [Spec.Wright.rho, Spec.Wright.denom, Spec.Wright.p0, Spec.Wright.lam, Spec.Wright.al0]
    · norm_num
  · simp [SumTree.leaves]; norm_num
  · rw [C92_formula]
    simp only [SumTree.leaves]
    norm_num [Spec.Wright.rho, Spec.Wright.denom, Spec.Wright.p0, Spec.Wright.lam, Spec.Wright.al0]

/-- What the column stands for: a successful local run of `steric` (reference: the first time level)
has at every wet point the exact height of the column with the fields that the variant uses, for
every order of the levels that have a reference volume. -/
theorem C92_steric {d r ref : DS (Fl ℝ)} {cn : DictArg} {rhozero : Fl ℝ} {patm : DA (Fl ℝ)}
    {eos variant domain tc zc zb : String} {strict : Bool}
    (h : steric d .none cn none rhozero patm eos variant domain strict = .ok (r, ref))
    (heos : CaseVariant eos "wright")
    (hd : domain ≠ "global") (hc : defaultCoords cn = .ok (tc, zc, zb))
    {zid : String} {n : Nat} {lev ifc : Nat → ℝ} {depth : DA (Fl ℝ)}
    (G : OceanGrid d zc zb zid n lev ifc depth) {ρ0 pa : ℝ} (hρ : rhozero = .fin ρ0)
    (hpa : patm = DA.scalar (.fin pa))
    {th so vol : DA (Fl ℝ)} (hth : d.getVar "thetao" = .ok th) (hso : d.getVar "so" = .ok so)
    (hvol : d.getVar "volcello" = .ok vol) :
    ∃ a, r.getVar variant = .ok a ∧
      ∀ e, depth.InBounds e → vol.get (cell0 tc zc e 0) ≠ .nan →
        ∀ (col : ℕ → ColCell ℝ) (order : SumTree ℕ),
        order.leaves.Perm ((List.range n).filter (fun k => vol.get (cell0 tc zc e k) ≠ .nan)) →
        (∀ k < n, vol.get (cell0 tc zc e k) ≠ .nan →
          (col k).dz = thickness ifc (Fl.val0 (depth.get e)) k ∧ (col k).z = lev k ∧
          th.get (if variant = "halosteric" then cell0 tc zc e k else cell zc e k) = .fin (col k).T ∧
          so.get (if variant = "thermosteric" then cell0 tc zc e k else cell zc e k) = .fin (col k).S ∧
          th.get (cell0 tc zc e k) = .fin (col k).Tref ∧
          so.get (cell0 tc zc e k) = .fin (col k).Sref ∧
          Spec.Wright.Ocean (col k).T (col k).S (lev k * 10 ^ 4 + pa) ∧
          Spec.Wright.Ocean (col k).Tref (col k).Sref (lev k * 10 ^ 4 + pa)) →
        a.get e = .fin (colHeight Wright.density pa ρ0 col order) := by
  subst hpa
  obtain ⟨a, a1, -, a2⟩ := local_value h hd hc G hρ hth hso hvol (wright_eos heos)
    (fun _ k => .fin (lev k * 10 ^ 4 + pa)) (fun e k _ => by simp)
  refine ⟨a, a1, fun e he hv col order hperm hcol => ?_⟩
  have A := a2 e he (fun k => Spec.Wright.rho (col k).T (col k).S (lev k * 10 ^ 4 + pa))
    (fun k => Spec.Wright.rho (col k).Tref (col k).Sref (lev k * 10 ^ 4 + pa))
    (fun k hk hw => by
      obtain ⟨-, -, q1, q2, -, -, q3, -⟩ := hcol k hk hw
      rw [q1, q2]; exact wright_float q3)
    (fun k hk hw => by
      obtain ⟨-, -, -, -, q1, q2, -, q3⟩ := hcol k hk hw
      rw [q1, q2]; exact wright_float q3)
  rw [if_neg hv] at A
  rw [A, C92_formula]
  congr 2
  rw [(hperm.map _).sum_eq]
  have key : ∀ (l : List ℕ), (∀ k ∈ l, k < n) →
      (l.map (fun k => if vol.get (cell0 tc zc e k) = .nan then (0 : ℝ) else
        thickness ifc (Fl.val0 (depth.get e)) k *
          (Spec.Wright.rho (col k).T (col k).S (lev k * 10 ^ 4 + pa)
            - Spec.Wright.rho (col k).Tref (col k).Sref (lev k * 10 ^ 4 + pa)))).sum
      = ((l.filter (fun k => vol.get (cell0 tc zc e k) ≠ .nan)).map (fun k => (col k).dz *
          (Spec.Wright.rho (col k).T (col k).S ((col k).z * 10 ^ 4 + pa)
            - Spec.Wright.rho (col k).Tref (col k).Sref ((col k).z * 10 ^ 4 + pa)))).sum := by
    intro l hl
    induction l with
    | nil => rfl
    | cons k l ih =>
      have ih' := ih (fun j hj => hl j (List.mem_cons_of_mem _ hj))
      by_cases hk : vol.get (cell0 tc zc e k) = .nan
      · rw [List.map_cons, List.sum_cons, if_pos hk, ih', zero_add,
          List.filter_cons_of_neg (by simp [hk])]
      · obtain ⟨q1, q2, -⟩ := hcol k (hl k List.mem_cons_self) hk
        rw [List.map_cons, List.sum_cons, if_neg hk, ih',
          List.filter_cons_of_pos (by simp [hk]), List.map_cons, List.sum_cons, q1, q2]
  rw [← key _ (fun k hk => List.mem_range.1 hk), Finset.sum_range, ← List.sum_ofFn]
  congr 1
  rw [List.ofFn_eq_map, ← List.map_coe_finRange_eq_range, List.map_map]
  rfl

end Momlevel.Props
