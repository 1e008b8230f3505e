import Verif.Lemmas.Overflow
import Verif.Props.RoundingSurface

/-! # C144: no overflow on the oceanographic range -/

set_option linter.unusedSectionVars false

namespace Momlevel.Props
open Momlevel Momlevel.Spec Momlevel.Eos Momlevel.Fl

variable {ρ : ℝ → ℝ} {u w M : ℝ}

/-- The interval computation for a format with largest number at least 10²⁰. -/
theorem range_check (F : Format u w ρ) (hM : 10 ^ 20 ≤ M) {I : ℕ → ℚ × ℚ} {v : ℕ → ℝ}
    (hv : ∀ i, ((I i).1 : ℝ) ≤ v i ∧ v i ≤ (I i).2) (e : Ex)
    (hc : Ex.inRange (1 / 10 ^ 6) (1 / 10 ^ 30) I (10 ^ 20) e = true) :
    (e.eval (fun i => (⟨fin (v i)⟩ : Fp ρ M))).val = fin (e.eval (fun i => (⟨v i⟩ : Rd ρ))).val := by
  rw [Ex.inRange_sound F.rounds F.u0 (by push_cast; exact F.u1) F.w0 (by push_cast; exact F.w1) hv
    (by push_cast; exact hM) hc]
  rfl

/-- Wright's equation of state, computed with numbers that round and overflow: finite values within the bounds of
C91. -/
theorem C144_wright (F : Format u w ρ) (hM : 10 ^ 20 ≤ M) {T S p : ℝ} (h : Spec.Wright.Ocean T S p) :
    (∃ x, (Wright.density (⟨fin T⟩ : Fp ρ M) ⟨fin S⟩ ⟨fin p⟩).val = fin x ∧
      |x - Spec.Wright.rho T S p| ≤ 29071 * u) ∧
    (∃ x, (Wright.drho_dtemp (⟨fin T⟩ : Fp ρ M) ⟨fin S⟩ ⟨fin p⟩).val = fin x ∧
      ∀ r, HasDerivAt (fun t => Spec.Wright.rho t S p) r T → |x - r| ≤ 171 * u) ∧
    (∃ x, (Wright.drho_dsal (⟨fin T⟩ : Fp ρ M) ⟨fin S⟩ ⟨fin p⟩).val = fin x ∧
      ∀ r, HasDerivAt (fun s => Spec.Wright.rho T s p) r S → |x - r| ≤ 65 * u) ∧
    (∃ x, (Wright.alpha (⟨fin T⟩ : Fp ρ M) ⟨fin S⟩ ⟨fin p⟩).val = fin x ∧
      |x - Wright.alpha T S p| ≤ 0.44 * u) ∧
    (∃ x, (Wright.beta (⟨fin T⟩ : Fp ρ M) ⟨fin S⟩ ⟨fin p⟩).val = fin x ∧
      |x - Wright.beta T S p| ≤ 0.19 * u) := by
  have hb := ocean_box h
  have d := C91_wright_derivatives F h
  have c := C91_wright_coefficients F h
  refine ⟨⟨_, range_check F hM hb (Wright.density (.var 0) (.var 1) (.var 2)) (by decide +kernel),
      C91_wright_density F h⟩,
    ⟨_, range_check F hM hb (Wright.drho_dtemp (.var 0) (.var 1) (.var 2)) (by decide +kernel), d.1⟩,
    ⟨_, range_check F hM hb (Wright.drho_dsal (.var 0) (.var 1) (.var 2)) (by decide +kernel), d.2⟩,
    ⟨_, range_check F hM hb (Wright.alpha (.var 0) (.var 1) (.var 2)) (by decide +kernel), c.1⟩,
    ⟨_, range_check F hM hb (Wright.beta (.var 0) (.var 1) (.var 2)) (by decide +kernel), c.2⟩⟩

/-- The linear equation of state. -/
theorem C144_linear (F : Format u w ρ) (hM : 10 ^ 20 ≤ M) {T S p : ℝ} (h : Spec.Wright.Ocean T S p) :
    (∃ x, (Linear.density (⟨fin T⟩ : Fp ρ M) ⟨fin S⟩ ⟨fin p⟩).val = fin x ∧
      |x - (1000 - 0.2 * T + 0.8 * S)| ≤ 2152 * u) ∧
    (∃ x, (Linear.alpha (⟨fin T⟩ : Fp ρ M) ⟨fin S⟩ ⟨fin p⟩).val = fin x ∧
      |x - 0.2 / (1000 - 0.2 * T + 0.8 * S)| ≤ 0.002 * u) ∧
    (∃ x, (Linear.beta (⟨fin T⟩ : Fp ρ M) ⟨fin S⟩ ⟨fin p⟩).val = fin x ∧
      |x - 0.8 / (1000 - 0.2 * T + 0.8 * S)| ≤ 0.004 * u) := by
  have hb := ocean_box h
  have c := C91_linear F h
  exact ⟨⟨_, range_check F hM hb (Linear.density (.var 0) (.var 1) (.var 2)) (by decide +kernel), c.1⟩,
    ⟨_, range_check F hM hb (Linear.alpha (.var 0) (.var 1) (.var 2)) (by decide +kernel), c.2.1⟩,
    ⟨_, range_check F hM hb (Linear.beta (.var 0) (.var 1) (.var 2)) (by decide +kernel), c.2.2⟩⟩

/-- The inverse barometer height and the potential density. -/
theorem C144_surface (F : Format u w ρ) (hM : 10 ^ 20 ≤ M) {T S : ℝ} (hT : -2 ≤ T ∧ T ≤ 40)
    (hS : 0 ≤ S ∧ S ≤ 42) :
    (∀ p g : ℝ, 0 ≤ p ∧ p ≤ 120000 → 9.7 ≤ g ∧ g ≤ 9.9 →
      ∃ x, (barometerPoint Wright.density (⟨fin T⟩ : Fp ρ M) ⟨fin S⟩ ⟨fin p⟩ ⟨fin g⟩).val = fin x ∧
        |x - -p / (Spec.Wright.rho T S p * g)| ≤ 611 * u) ∧
    (∀ level patm : ℝ, 0 ≤ level ∧ level ≤ 7500 → 0 ≤ patm ∧ patm ≤ 10 ^ 6 →
      ∃ x, (pdensPoint Wright.density (⟨fin patm⟩ : Fp ρ M) ⟨fin T⟩ ⟨fin S⟩ ⟨fin level⟩).val = fin x ∧
        |x - Spec.Wright.rho T S (level * 10 ^ 4 + patm)| ≤ 28948 * u) := by
  refine ⟨fun p g hp hg => ?_, fun level patm hl hp => ?_⟩
  · have hb := four_box (I := surfaceBox) (a := T) (b := S) (c := p) (d := g)
      (by simp only [surfaceBox]; push_cast; exact hT) (by simp only [surfaceBox]; push_cast; exact hS)
      (by simp only [surfaceBox]; push_cast; exact hp)
      (fun k => by simp only [surfaceBox]; push_cast; norm_num at hg ⊢; exact hg)
    exact ⟨_, range_check F hM hb (barometerPoint Wright.density (.var 0) (.var 1) (.var 2) (.var 3))
      (by decide +kernel), (C143_barometer F hT hS hp hg).1⟩
  · have hb := four_box (I := levelBox) (a := T) (b := S) (c := level) (d := patm)
      (by simp only [levelBox]; push_cast; exact hT) (by simp only [levelBox]; push_cast; exact hS)
      (by simp only [levelBox]; push_cast; exact hl)
      (fun k => by simp only [levelBox]; push_cast; norm_num at hp ⊢; exact hp)
    exact ⟨_, range_check F hM hb (pdensPoint Wright.density (.var 3) (.var 0) (.var 1) (.var 2))
      (by decide +kernel), C143_pdens F hT hS hl hp⟩

/-- The cells of a column as numbers of the format. -/
def cellFp (ρ : ℝ → ℝ) (M : ℝ) (c : ColCell ℝ) : ColCell (Fp ρ M) :=
  ⟨⟨fin c.dz⟩, ⟨fin c.z⟩, ⟨fin c.T⟩, ⟨fin c.S⟩, ⟨fin c.Tref⟩, ⟨fin c.Sref⟩⟩

def cellBox : ℕ → ℚ × ℚ
  | 0 => (0, 10 ^ 5)
  | 1 => (0, 9900)
  | 2 => (-2, 40)
  | 3 => (0, 42)
  | 4 => (-2, 40)
  | 5 => (0, 42)
  | _ => (0, 10 ^ 6)

def cellVars (c : ColCell ℝ) (pa : ℝ) : ℕ → ℝ
  | 0 => c.dz
  | 1 => c.z
  | 2 => c.T
  | 3 => c.S
  | 4 => c.Tref
  | 5 => c.Sref
  | _ => pa

theorem cell_box {c : ColCell ℝ} (hc : OceanCell c) (hdz : c.dz ≤ 10 ^ 5) {pa : ℝ} (hp : 0 ≤ pa ∧ pa ≤ 10 ^ 6)
    (i : ℕ) : ((cellBox i).1 : ℝ) ≤ cellVars c pa i ∧ cellVars c pa i ≤ (cellBox i).2 := by
  match i with
  | 0 => simp only [cellBox, cellVars]; push_cast; exact ⟨hc.dz, hdz⟩
  | 1 => simp only [cellBox, cellVars]; push_cast; exact ⟨hc.z0, hc.z1⟩
  | 2 => simp only [cellBox, cellVars]; push_cast; exact hc.T
  | 3 => simp only [cellBox, cellVars]; push_cast; exact hc.S
  | 4 => simp only [cellBox, cellVars]; push_cast; exact hc.Tref
  | 5 => simp only [cellBox, cellVars]; push_cast; exact hc.Sref
  | n + 6 => simp only [cellBox, cellVars]; push_cast; exact hp

/-- One term of the sum over the levels. -/
def cellTerm : Ex :=
  .var 0 * colDelta Wright.density (.var 6) ⟨.var 0, .var 1, .var 2, .var 3, .var 4, .var 5⟩

theorem term_of (F : Format u w ρ) (hM : 10 ^ 20 ≤ M) {c : ColCell ℝ} (hc : OceanCell c) (hdz : c.dz ≤ 10 ^ 5)
    {pa : ℝ} (hp : 0 ≤ pa ∧ pa ≤ 10 ^ 6) :
    ((cellFp ρ M c).dz * colDelta Wright.density ⟨fin pa⟩ (cellFp ρ M c) : Fp ρ M)
      = Fp.of ((c.toRd ρ).dz * colDelta Wright.density ⟨pa⟩ (c.toRd ρ)) ∧
    |((c.toRd ρ).dz * colDelta Wright.density ⟨pa⟩ (c.toRd ρ)).val| ≤ 10 ^ 9 := by
  have hb := cell_box hc hdz hp
  refine ⟨Fp.ext (range_check F hM hb cellTerm (by decide +kernel)), ?_⟩
  have := Ex.fits_sound (B := 10 ^ 9) F.rounds F.u0 (U := 1 / 10 ^ 6) (by push_cast; exact F.u1) F.w0
    (W := 1 / 10 ^ 30) (by push_cast; exact F.w1) hb (e := cellTerm) (by decide +kernel)
  push_cast at this
  exact this

/-- The local steric height of a column of up to a million levels, none thicker than 100 km: every intermediate
result is finite, and the result is that of C92. -/
theorem C144_column (F : Format u w ρ) (hM : 10 ^ 20 ≤ M) {pa rhozero : ℝ} (hp : 0 ≤ pa ∧ pa ≤ 10 ^ 6)
    (hr : 900 ≤ rhozero ∧ rhozero ≤ 1100) (cell : ℕ → ColCell ℝ) (order : SumTree ℕ)
    (hc : ∀ k ∈ order.leaves, OceanCell (cell k)) (hdz : ∀ k ∈ order.leaves, (cell k).dz ≤ 10 ^ 5)
    (hd : order.depth * u ≤ 1 / 100) (hn : order.leaves.length ≤ 10 ^ 6) :
    (colHeight Wright.density (⟨fin pa⟩ : Fp ρ M) ⟨fin rhozero⟩ (fun k => cellFp ρ M (cell k)) order).val
      = fin (colHeight Wright.density (⟨pa⟩ : Rd ρ) ⟨rhozero⟩ (fun k => (cell k).toRd ρ) order).val := by
  have hu := F.u0
  have hg := growth_le hu order.depth hd
  have hg2 : (1 + u) ^ order.depth ≤ 1.0102 := by linarith
  have hw1 := F.w1
  have hw0 := F.w0
  have hB : (1 + u) ^ order.depth * (order.leaves.length * ((10 : ℝ) ^ 9 + w)) ≤ 2 * 10 ^ 15 := by
    have hn' : (order.leaves.length : ℝ) ≤ 10 ^ 6 := by exact_mod_cast hn
    have h1 : (order.leaves.length : ℝ) * ((10 : ℝ) ^ 9 + w) ≤ 10 ^ 6 * (10 ^ 9 + 1) :=
      mul_le_mul hn' (by linarith) (by positivity) (by positivity)
    refine (mul_le_mul hg2 h1 (by positivity) (by norm_num)).trans ?_
    norm_num
  have hs : ∀ k ∈ order.leaves, _ := fun k hk => (term_of F hM (hc k hk) (hdz k hk) hp).2
  have sum_eq := SumTree.sum_of (M := M) F.rounds hu hw0
    (fun k => ((cell k).toRd ρ).dz * colDelta Wright.density ⟨pa⟩ ((cell k).toRd ρ)) order hs
    (f' := fun k => (cellFp ρ M (cell k)).dz * colDelta Wright.density ⟨fin pa⟩ (cellFp ρ M (cell k)))
    (fun k hk => (term_of F hM (hc k hk) (hdz k hk) hp).1) (hB.trans (by linarith))
  have sum_le := (SumTree.sum_size F.rounds hu hw0
    (fun k => ((cell k).toRd ρ).dz * colDelta Wright.density ⟨pa⟩ ((cell k).toRd ρ)) order hs).trans hB
  have hv : ∀ i : ℕ, (((fun _ => (900, 1100) : ℕ → ℚ × ℚ) i).1 : ℝ) ≤ (fun _ => rhozero : ℕ → ℝ) i ∧
      (fun _ => rhozero : ℕ → ℝ) i ≤ ((fun _ => (900, 1100) : ℕ → ℚ × ℚ) i).2 :=
    fun _ => ⟨by push_cast; exact hr.1, by push_cast; exact hr.2⟩
  have coef_eq : (-1.0 / ⟨fin rhozero⟩ : Fp ρ M) = Fp.of (-1.0 / ⟨rhozero⟩) :=
    Fp.ext (range_check F hM hv (-1.0 / Ex.var 0) (by decide +kernel))
  have coef_le := Ex.fits_sound (B := 1) F.rounds F.u0 (U := 1 / 10 ^ 6) (by push_cast; exact F.u1) F.w0
    (W := 1 / 10 ^ 30) (by push_cast; exact F.w1) hv (e := -1.0 / Ex.var 0) (by decide +kernel)
  push_cast at coef_le
  have key : (colHeight Wright.density (⟨fin pa⟩ : Fp ρ M) ⟨fin rhozero⟩ (fun k => cellFp ρ M (cell k)) order)
      = Fp.of (colHeight Wright.density (⟨pa⟩ : Rd ρ) ⟨rhozero⟩ (fun k => (cell k).toRd ρ) order) := by
    unfold colHeight
    rw [coef_eq, sum_eq]
    refine Fp.of_mul ?_
    set c := (-1.0 / ⟨rhozero⟩ : Rd ρ)
    set s := order.sum (fun k => ((cell k).toRd ρ).dz * colDelta Wright.density (⟨pa⟩ : Rd ρ) ((cell k).toRd ρ))
    show |ρ (c.val * s.val)| ≤ M
    have h1 : |c.val * s.val| ≤ 2 * 10 ^ 15 := by
      rw [abs_mul]
      have : |c.val| * |s.val| ≤ 1 * (2 * 10 ^ 15) :=
        mul_le_mul coef_le sum_le (abs_nonneg _) (by norm_num)
      linarith
    have h2 := F.rounds (c.val * s.val)
    have h3 := abs_sub_abs_le_abs_sub (ρ (c.val * s.val)) (c.val * s.val)
    have h4 : max |c.val * s.val| w ≤ 2 * 10 ^ 15 := max_le h1 (by linarith)
    have h5 : u * max |c.val * s.val| w ≤ 1 * (2 * 10 ^ 15) :=
      mul_le_mul (by linarith [F.u1]) h4 (le_max_of_le_right hw0) (by norm_num)
    linarith
  rw [key]
  rfl

/-- In single precision (largest number about 3.4·10³⁸) the computed height of a column of at most 11 km is finite
and right to 6 cm, in double precision to 10⁻⁹ m. -/
theorem C144_precision {M : ℝ} (hM : 10 ^ 20 ≤ M) {pa rhozero : ℝ} (hp : 0 ≤ pa ∧ pa ≤ 10 ^ 6)
    (hr : 900 ≤ rhozero ∧ rhozero ≤ 1100) (cell : ℕ → ColCell ℝ) (order : SumTree ℕ)
    (hc : ∀ k ∈ order.leaves, OceanCell (cell k)) (hd : order.depth ≤ 100) (hn : order.leaves.length ≤ 10 ^ 6)
    (hD : ∀ k ∈ order.leaves, |Spec.Wright.rho (cell k).T (cell k).S ((cell k).z * 10 ^ 4 + pa)
      - Spec.Wright.rho (cell k).Tref (cell k).Sref ((cell k).z * 10 ^ 4 + pa)| ≤ 100)
    (hH : (order.leaves.map (fun k => (cell k).dz)).sum ≤ 11000) :
    (∃ x, (colHeight Wright.density (⟨fin pa⟩ : Fp (nearest 24) M) ⟨fin rhozero⟩
        (fun k => cellFp (nearest 24) M (cell k)) order).val = fin x ∧
      |x - -(1 / rhozero) * (order.leaves.map (fun k => (cell k).dz *
          (Spec.Wright.rho (cell k).T (cell k).S ((cell k).z * 10 ^ 4 + pa)
            - Spec.Wright.rho (cell k).Tref (cell k).Sref ((cell k).z * 10 ^ 4 + pa)))).sum| ≤ 6 / 100) ∧
    (∃ x, (colHeight Wright.density (⟨fin pa⟩ : Fp (nearest 53) M) ⟨fin rhozero⟩
        (fun k => cellFp (nearest 53) M (cell k)) order).val = fin x ∧
      |x - -(1 / rhozero) * (order.leaves.map (fun k => (cell k).dz *
          (Spec.Wright.rho (cell k).T (cell k).S ((cell k).z * 10 ^ 4 + pa)
            - Spec.Wright.rho (cell k).Tref (cell k).Sref ((cell k).z * 10 ^ 4 + pa)))).sum| ≤ 1 / 10 ^ 9) := by
  have hD' : ∀ k ∈ order.leaves, |colDelta Wright.density pa (cell k)| ≤ 100 := fun k hk => by
    have := hD k hk
    unfold colDelta colPressure
    rw [Wright.density_eq, Wright.density_eq, show ((cell k).z * 1.0e4 + pa : ℝ) = (cell k).z * 10 ^ 4 + pa by norm_num]
    exact this
  have hdz : ∀ k ∈ order.leaves, (cell k).dz ≤ 10 ^ 5 := fun k hk => by
    have h1 : (cell k).dz ≤ (order.leaves.map (fun k => (cell k).dz)).sum :=
      List.single_le_sum (by simpa using fun k hk => (hc k hk).dz) _ (List.mem_map.2 ⟨k, hk, rfl⟩)
    linarith
  have hd' : (order.depth : ℝ) ≤ 100 := by exact_mod_cast hd
  have hu : ∀ p : ℕ, 20 ≤ p → (order.depth : ℝ) * 2⁻¹ ^ p ≤ 1 / 100 := fun p h => by
    have h1 := (nearest_format h).u1
    have h2 := (nearest_format h).u0
    have : (order.depth : ℝ) * 2⁻¹ ^ p ≤ 100 * (1 / 10 ^ 6) := mul_le_mul hd' h1 h2 (by norm_num)
    linarith
  have P := C92_precision hp hr cell order hc hd hD' hH
  rw [← C92_formula]
  exact ⟨⟨_, C144_column (nearest_format (by norm_num)) hM hp hr cell order hc hdz (hu 24 (by norm_num)) hn, P.2⟩,
    ⟨_, C144_column (nearest_format (by norm_num)) hM hp hr cell order hc hdz (hu 53 (by norm_num)) hn, P.1⟩⟩

/-! ## Missing values and short formats -/

theorem lim_nan : Fp.lim ρ M nan = nan := rfl

/-- The expression contains the variable `i`. -/
def exUses (i : ℕ) : Ex → Bool
  | .var j => i == j
  | .lit _ _ _ => false
  | .neg a => exUses i a
  | .add a b => exUses i a || exUses i b
  | .sub a b => exUses i a || exUses i b
  | .mul a b => exUses i a || exUses i b
  | .div a b => exUses i a || exUses i b

theorem nan_uses {v : ℕ → Fp ρ M} {i : ℕ} (hv : (v i).val = nan) {e : Ex} (h : exUses i e = true) :
    (e.eval v).val = nan := by
  have step : ∀ {a b : Ex} {f : Fl ℝ → Fl ℝ → Fl ℝ}, (∀ x, f nan x = nan) → (∀ x, f x nan = nan) →
      (exUses i a = true → (a.eval v).val = nan) → (exUses i b = true → (b.eval v).val = nan) →
      (exUses i a || exUses i b) = true → Fp.lim ρ M (f (a.eval v).val (b.eval v).val) = nan := by
    intro a b f h1 h2 ha hb hab
    rcases Bool.or_eq_true _ _ ▸ hab with h | h
    · rw [ha h, h1]; rfl
    · rw [hb h, h2]; rfl
  induction e with
  | var j => rw [exUses, beq_iff_eq] at h; subst h; exact hv
  | lit m s e => exact absurd h (by simp [exUses])
  | neg a ih => show -(a.eval v).val = nan; rw [ih h]; rfl
  | add a b iha ihb => exact step (f := (· + ·)) (fun x => by cases x <;> rfl) (fun x => by cases x <;> rfl) iha ihb h
  | sub a b iha ihb => exact step (f := (· - ·)) (fun x => by cases x <;> rfl) (fun x => by cases x <;> rfl) iha ihb h
  | mul a b iha ihb => exact step (f := (· * ·)) (fun x => by cases x <;> rfl) (fun x => by cases x <;> rfl) iha ihb h
  | div a b iha ihb => exact step (f := (· / ·)) (fun x => by cases x <;> rfl) (fun x => by cases x <;> rfl) iha ihb h

/-- Where temperature, salinity or pressure is missing, so are Wright's density, its derivatives and coefficients,
in every format and whatever the other two values are. -/
theorem C144_missing (T S p : Fp ρ M) (h : T.val = nan ∨ S.val = nan ∨ p.val = nan) :
    (Wright.density T S p).val = nan ∧ (Wright.drho_dtemp T S p).val = nan ∧
    (Wright.drho_dsal T S p).val = nan ∧ (Wright.alpha T S p).val = nan ∧ (Wright.beta T S p).val = nan := by
  let v : ℕ → Fp ρ M := fun i => match i with
    | 0 => T
    | 1 => S
    | _ => p
  have key : ∀ e : Ex, exUses 0 e = true → exUses 1 e = true → exUses 2 e = true → (e.eval v).val = nan := by
    intro e h0 h1 h2
    rcases h with h | h | h
    · exact nan_uses (v := v) (i := 0) h h0
    · exact nan_uses (v := v) (i := 1) h h1
    · exact nan_uses (v := v) (i := 2) h h2
  exact ⟨key (Wright.density (.var 0) (.var 1) (.var 2)) rfl rfl rfl,
    key (Wright.drho_dtemp (.var 0) (.var 1) (.var 2)) rfl rfl rfl,
    key (Wright.drho_dsal (.var 0) (.var 1) (.var 2)) rfl rfl rfl,
    key (Wright.alpha (.var 0) (.var 1) (.var 2)) rfl rfl rfl,
    key (Wright.beta (.var 0) (.var 1) (.var 2)) rfl rfl rfl⟩

/-- NaN or infinite. -/
def NotFinite (v : Fl ℝ) : Prop := v = nan ∨ v = pinf ∨ v = ninf

theorem NotFinite.lim {v : Fl ℝ} (h : NotFinite v) : NotFinite (Fp.lim ρ M v) := by
  rcases h with rfl | rfl | rfl
  · exact .inl rfl
  · exact .inr (.inl rfl)
  · exact .inr (.inr rfl)

theorem infOfSign_notFinite (x : ℝ) : NotFinite (infOfSign x) := by
  unfold infOfSign NotFinite
  split_ifs <;> simp

theorem NotFinite.add_left {a : Fl ℝ} (h : NotFinite a) (b : Fl ℝ) : NotFinite (a + b) := by
  rcases h with rfl | rfl | rfl <;> cases b <;> first | exact .inl rfl | exact .inr (.inl rfl) | exact .inr (.inr rfl)

theorem NotFinite.add_right {a : Fl ℝ} (h : NotFinite a) (b : Fl ℝ) : NotFinite (b + a) := by
  rcases h with rfl | rfl | rfl <;> cases b <;> first | exact .inl rfl | exact .inr (.inl rfl) | exact .inr (.inr rfl)

theorem NotFinite.mul_right {a : Fl ℝ} (h : NotFinite a) (b : Fl ℝ) : NotFinite (b * a) := by
  rcases h with rfl | rfl | rfl <;> cases b <;>
    first | exact .inl rfl | exact .inr (.inl rfl) | exact .inr (.inr rfl) | exact infOfSign_notFinite _

/-- In a format whose largest number is at most 10⁸, such as half precision (65504), Wright's density is missing
everywhere: the constant 5.790749·10⁸ is infinite there. -/
theorem C144_half (hρ : Rounds u w ρ) (hu : u ≤ 1 / 2) (hw : w ≤ 10 ^ 8) (h0 : ρ 0 = 0) (hM : 0 ≤ M)
    (hM8 : M ≤ 10 ^ 8) (T S p : Fp ρ M) : (Wright.density T S p).val = nan := by
  have hb : NotFinite (Wright.B0 : Fp ρ M).val := by
    show NotFinite (Fp.lim ρ M (fin (5.790749e8 : ℝ)))
    have h1 := hρ (5.790749e8 : ℝ)
    have e : |(5.790749e8 : ℝ)| = 5.790749e8 := abs_of_pos (by norm_num)
    have hm : max |(5.790749e8 : ℝ)| w = 5.790749e8 := by rw [e]; exact max_eq_left (hw.trans (by norm_num))
    rw [hm] at h1
    have h2 := abs_sub_abs_le_abs_sub (5.790749e8 : ℝ) (ρ 5.790749e8)
    rw [abs_sub_comm, e] at h2
    have h3 : u * (5.790749e8 : ℝ) ≤ 1 / 2 * 5.790749e8 := mul_le_mul_of_nonneg_right hu (by norm_num)
    have h4 : ¬ |ρ (5.790749e8 : ℝ)| ≤ M := by
      norm_num at h1 h2 h3 hM8 ⊢
      linarith
    unfold Fp.lim
    simp only [if_neg h4]
    exact infOfSign_notFinite _
  unfold Wright.density
  set q : Fp ρ M := p + (Wright.B0 + Wright.B4 * S + T * (Wright.B1 + T * (Wright.B2 + Wright.B3 * T)
    + Wright.B5 * S)) with hq
  have nq : NotFinite q.val :=
    NotFinite.lim (NotFinite.add_right (NotFinite.lim (NotFinite.add_left (NotFinite.lim
      (NotFinite.add_left hb _)) _)) _)
  set d : Fp ρ M := (Wright.C0 + Wright.C4 * S + T * (Wright.C1 + T * (Wright.C2 + Wright.C3 * T)
    + Wright.C5 * S)) + (Wright.A0 + Wright.A1 * T + Wright.A2 * S) * q with hd
  have nd : NotFinite d.val :=
    NotFinite.lim (NotFinite.add_right (NotFinite.lim (NotFinite.mul_right nq _)) _)
  show Fp.lim ρ M (q.val * Fp.lim ρ M ((1.0 : Fp ρ M).val / d.val)) = nan
  generalize (1.0 : Fp ρ M).val = one
  have hz : Fp.lim ρ M (fin 0) = fin 0 := by
    have h := Fp.lim_fin (ρ := ρ) (M := M) (x := 0) (by rw [h0, abs_zero]; exact hM)
    rwa [h0] at h
  have key : Fp.lim ρ M (one / d.val) = nan ∨ Fp.lim ρ M (one / d.val) = fin 0 := by
    rcases nd with h | h | h <;> rw [h] <;> cases one <;>
      first | exact .inl rfl | exact .inr hz
  rcases key with h | h
  · rw [h]
    rcases nq with k | k | k <;> rw [k] <;> rfl
  · rw [h]
    have i0 : infOfSign (0 : ℝ) = nan := by simp [infOfSign]
    have i1 : infOfSign (-0 : ℝ) = nan := by simp [infOfSign]
    rcases nq with k | k | k <;> rw [k]
    · rfl
    · show Fp.lim ρ M (infOfSign 0) = nan
      rw [i0]; rfl
    · show Fp.lim ρ M (infOfSign (-0)) = nan
      rw [i1]; rfl

/-- Half precision (11 digits, largest number 65504) meets the hypotheses of `C144_half`; single precision those of
the other theorems. -/
example : (Wright.density (⟨fin 10⟩ : Fp (nearest 11) 65504) ⟨fin 35⟩ ⟨fin 0⟩).val = nan ∧
    ∃ x, (Wright.density (⟨fin 10⟩ : Fp (nearest 24) (3 * 10 ^ 38)) ⟨fin 35⟩ ⟨fin 0⟩).val = fin x ∧
      |x - Spec.Wright.rho 10 35 0| ≤ 29071 * 2⁻¹ ^ 24 :=
  ⟨C144_half (C91_nearest 11) (by norm_num) (by norm_num) (by simp [nearest]) (by norm_num) (by norm_num) _ _ _,
    (C144_wright (nearest_format (by norm_num)) (by norm_num) (by unfold Spec.Wright.Ocean; norm_num)).1⟩

/-- `C144_precision` for two layers of 100 m and 3900 m that warm by one degree, in single precision. -/
example : ∃ x, (colHeight Wright.density (⟨fin 101325⟩ : Fp (nearest 24) (3 * 10 ^ 38)) ⟨fin 1035⟩
      (fun k => cellFp (nearest 24) (3 * 10 ^ 38) (if k = 0 then ⟨100, 50, 11, 35, 10, 35⟩ else ⟨3900, 2050, 3, 35, 2, 35⟩))
      (.node (.leaf 0) (.leaf 1))).val = fin x := by
  refine ⟨_, C144_column (nearest_format (by norm_num)) (by norm_num) (by norm_num) (by norm_num)
    (fun k => if k = 0 then ⟨100, 50, 11, 35, 10, 35⟩ else ⟨3900, 2050, 3, 35, 2, 35⟩) _ ?_ ?_ ?_ ?_⟩
  · intro k hk
    simp only [SumTree.leaves, List.cons_append, List.nil_append, List.mem_cons, List.not_mem_nil, or_false] at hk
    rcases hk with rfl | rfl <;> constructor <;> norm_num
  · intro k hk
    simp only [SumTree.leaves, List.cons_append, List.nil_append, List.mem_cons, List.not_mem_nil, or_false] at hk
    rcases hk with rfl | rfl <;> norm_num
  · norm_num [SumTree.depth]
  · norm_num [SumTree.leaves]

/-- `C144_missing` where the pressure is known and the temperature is not. -/
example : (Wright.density (⟨nan⟩ : Fp (nearest 24) (3 * 10 ^ 38)) ⟨fin 35⟩ ⟨fin 0⟩).val = nan :=
  (C144_missing _ _ _ (.inl rfl)).1

/-- `C144_linear` and `C144_surface` at 10 °C and 35 psu. -/
example : (∃ x, (Linear.density (⟨fin 10⟩ : Fp (nearest 24) (3 * 10 ^ 38)) ⟨fin 35⟩ ⟨fin 0⟩).val = fin x ∧
      |x - (1000 - 0.2 * 10 + 0.8 * 35)| ≤ 2152 * 2⁻¹ ^ 24) ∧
    ∃ x, (barometerPoint Wright.density (⟨fin 10⟩ : Fp (nearest 24) (3 * 10 ^ 38)) ⟨fin 35⟩ ⟨fin 101325⟩
      ⟨fin 9.8⟩).val = fin x ∧ |x - -101325 / (Spec.Wright.rho 10 35 101325 * 9.8)| ≤ 611 * 2⁻¹ ^ 24 :=
  ⟨(C144_linear (nearest_format (by norm_num)) (by norm_num) (by unfold Spec.Wright.Ocean; norm_num)).1,
    (C144_surface (nearest_format (by norm_num)) (by norm_num) (by norm_num) (by norm_num)).1 _ _ (by norm_num)
      (by norm_num)⟩

end Momlevel.Props
