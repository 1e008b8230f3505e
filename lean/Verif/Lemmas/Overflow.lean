import Verif.Model.Overflow
import Verif.Lemmas.Rounding

/-! # Expressions that stay within the range of a format -/

set_option linter.unusedSectionVars false

namespace Momlevel
open Spec Fl

namespace Fp
variable {ρ : ℝ → ℝ} {M : ℝ}

/-- A finite number. -/
def of (x : Rd ρ) : Fp ρ M := ⟨fin x.val⟩

theorem lim_fin {x : ℝ} (h : |ρ x| ≤ M) : lim ρ M (fin x) = fin (ρ x) := if_pos h

theorem of_add {a b : Rd ρ} (h : |(a + b).val| ≤ M) : (of a + of b : Fp ρ M) = of (a + b) :=
  Fp.ext (lim_fin h)

theorem of_sub {a b : Rd ρ} (h : |(a - b).val| ≤ M) : (of a - of b : Fp ρ M) = of (a - b) :=
  Fp.ext (show lim ρ M (fin a.val - fin b.val) = _ by rw [fin_sub]; exact lim_fin h)

theorem of_mul {a b : Rd ρ} (h : |(a * b).val| ≤ M) : (of a * of b : Fp ρ M) = of (a * b) :=
  Fp.ext (lim_fin h)

theorem of_div {a b : Rd ρ} (hb : b.val ≠ 0) (h : |(a / b).val| ≤ M) : (of a / of b : Fp ρ M) = of (a / b) :=
  Fp.ext (show lim ρ M (fin a.val / fin b.val) = _ by rw [fin_div_of_ne _ hb]; exact lim_fin h)

theorem of_neg {a : Rd ρ} : (-of a : Fp ρ M) = of (-a) := rfl

theorem of_lit {m e : ℕ} {s : Bool} (h : |(OfScientific.ofScientific m s e : Rd ρ).val| ≤ M) :
    (OfScientific.ofScientific m s e : Fp ρ M) = of (OfScientific.ofScientific m s e) :=
  Fp.ext (lim_fin h)

end Fp

namespace Ex

/-- The value of the expression is at most `B`. -/
def fits (U W : ℚ) (I : ℕ → ℚ × ℚ) (B : ℚ) (e : Ex) : Bool :=
  match e.bound U W I with
  | some b => decide (b.mag + b.err * U ≤ B)
  | none => false

/-- Every intermediate result is at most `B`. -/
def inRange (U W : ℚ) (I : ℕ → ℚ × ℚ) (B : ℚ) : Ex → Bool
  | var _ => true
  | lit m s e => fits U W I B (lit m s e)
  | neg a => inRange U W I B a
  | add a b => inRange U W I B a && inRange U W I B b && fits U W I B (add a b)
  | sub a b => inRange U W I B a && inRange U W I B b && fits U W I B (sub a b)
  | mul a b => inRange U W I B a && inRange U W I B b && fits U W I B (mul a b)
  | div a b => inRange U W I B a && inRange U W I B b && fits U W I B (div a b)

variable {ρ : ℝ → ℝ} {u w M : ℝ} {U W B : ℚ} {I : ℕ → ℚ × ℚ} {v : ℕ → ℝ}

theorem fits_sound (hρ : Rounds u w ρ) (hu : 0 ≤ u) (hU : u ≤ U) (hw : 0 ≤ w) (hW : w ≤ W)
    (hv : ∀ i, ((I i).1 : ℝ) ≤ v i ∧ v i ≤ (I i).2) {e : Ex} (h : fits U W I B e = true) :
    |(e.eval (fun i => (⟨v i⟩ : Rd ρ))).val| ≤ B := by
  unfold fits at h
  split at h
  · rename_i b hb
    have hs := bound_sound hρ hu hU hw hW I v hv e b hb
    have h1 := hs.mag
    have h2 := hs.err
    have h3 : (0 : ℝ) ≤ b.err := by exact_mod_cast hs.nn
    have h4 : (b.err : ℝ) * u ≤ b.err * U := mul_le_mul_of_nonneg_left hU h3
    have h5 : ((b.mag : ℚ) : ℝ) + b.err * U ≤ B := by exact_mod_cast of_decide_eq_true h
    have h6 := abs_sub_abs_le_abs_sub (e.eval (fun i => (⟨v i⟩ : Rd ρ))).val (e.eval v)
    linarith
  · exact absurd h (by simp)

/-- An expression whose intermediate results fit has the same value in the format as without a largest number. -/
theorem inRange_sound (hρ : Rounds u w ρ) (hu : 0 ≤ u) (hU : u ≤ U) (hw : 0 ≤ w) (hW : w ≤ W)
    (hv : ∀ i, ((I i).1 : ℝ) ≤ v i ∧ v i ≤ (I i).2) (hM : (B : ℝ) ≤ M) {e : Ex}
    (h : inRange U W I B e = true) :
    e.eval (fun i => (⟨fin (v i)⟩ : Fp ρ M)) = Fp.of (e.eval (fun i => (⟨v i⟩ : Rd ρ))) := by
  induction e with
  | var i => rfl
  | lit m s e => exact Fp.of_lit ((fits_sound hρ hu hU hw hW hv h).trans hM)
  | neg a ih =>
    show -(a.eval _) = _
    rw [ih h]; rfl
  | add a b iha ihb =>
    simp only [inRange, Bool.and_eq_true] at h
    show a.eval _ + b.eval _ = _
    rw [iha h.1.1, ihb h.1.2]
    exact Fp.of_add ((fits_sound hρ hu hU hw hW hv h.2).trans hM)
  | sub a b iha ihb =>
    simp only [inRange, Bool.and_eq_true] at h
    show a.eval _ - b.eval _ = _
    rw [iha h.1.1, ihb h.1.2]
    exact Fp.of_sub ((fits_sound hρ hu hU hw hW hv h.2).trans hM)
  | mul a b iha ihb =>
    simp only [inRange, Bool.and_eq_true] at h
    show a.eval _ * b.eval _ = _
    rw [iha h.1.1, ihb h.1.2]
    exact Fp.of_mul ((fits_sound hρ hu hU hw hW hv h.2).trans hM)
  | div a b iha ihb =>
    simp only [inRange, Bool.and_eq_true] at h
    show a.eval _ / b.eval _ = _
    rw [iha h.1.1, ihb h.1.2]
    refine Fp.of_div ?_ ((fits_sound hρ hu hU hw hW hv h.2).trans hM)
    have h2 := h.2
    unfold fits at h2
    split at h2
    · rename_i c hc
      simp only [bound] at hc
      split at hc
      · rename_i x y hx hy
        split_ifs at hc with hpos
        have hs := bound_sound hρ hu hU hw hW I v hv b y hy
        have e2 := (abs_le.1 hs.err).1
        have l2 := hs.lo
        have n2 : (0 : ℝ) ≤ y.err := by exact_mod_cast hs.nn
        have h6 : (y.err : ℝ) * u ≤ y.err * U := mul_le_mul_of_nonneg_left hU n2
        have hpos' : (0 : ℝ) < y.lo - y.err * U := by exact_mod_cast hpos
        have : 0 < (b.eval (fun i => (⟨v i⟩ : Rd ρ))).val := by linarith
        exact this.ne'
      · exact absurd hc (by simp)
    · exact absurd h2 (by simp)

end Ex

namespace SumTree
variable {ρ : ℝ → ℝ} {u w M : ℝ} {β : Type*}

/-- Size of a sum of rounded numbers. -/
theorem sum_size (hρ : Rounds u w ρ) (hu : 0 ≤ u) (hw : 0 ≤ w) (f : β → Rd ρ) {B : ℝ} (t : SumTree β)
    (hB : ∀ b ∈ t.leaves, |(f b).val| ≤ B) :
    |(t.sum f).val| ≤ (1 + u) ^ t.depth * (t.leaves.length * (B + w)) := by
  induction t with
  | leaf b =>
    simp only [leaves, List.mem_singleton, forall_eq] at hB
    simp only [sum, leaves, depth, pow_zero, List.length_singleton, Nat.cast_one, one_mul]
    linarith
  | node l r ihl ihr =>
    simp only [leaves, List.mem_append] at hB
    have h1 := ihl (fun b hb => hB b (.inl hb))
    have h2 := ihr (fun b hb => hB b (.inr hb))
    have hB0 : 0 ≤ B := by
      obtain ⟨b, hb⟩ := List.exists_mem_of_length_pos l.leaves_pos
      exact (abs_nonneg _).trans (hB b (.inl hb))
    have h1u : (1 : ℝ) ≤ 1 + u := by linarith
    have gl : (1 + u) ^ l.depth ≤ (1 + u) ^ (max l.depth r.depth) := pow_le_pow_right₀ h1u (le_max_left _ _)
    have gr : (1 + u) ^ r.depth ≤ (1 + u) ^ (max l.depth r.depth) := pow_le_pow_right₀ h1u (le_max_right _ _)
    have g1 : (1 : ℝ) ≤ (1 + u) ^ (max l.depth r.depth) := one_le_pow₀ h1u
    simp only [sum, leaves, depth, List.length_append, Nat.cast_add]
    set g := (1 + u) ^ (max l.depth r.depth)
    set nl : ℝ := (l.leaves.length : ℝ)
    set nr : ℝ := (r.leaves.length : ℝ)
    have nl1 : (1 : ℝ) ≤ nl := by simp only [nl]; exact_mod_cast l.leaves_pos
    have nr1 : (1 : ℝ) ≤ nr := by simp only [nr]; exact_mod_cast r.leaves_pos
    have bw : 0 ≤ B + w := by linarith
    have h1' : |(l.sum f).val| ≤ g * (nl * (B + w)) :=
      h1.trans (mul_le_mul_of_nonneg_right gl (by positivity))
    have h2' : |(r.sum f).val| ≤ g * (nr * (B + w)) :=
      h2.trans (mul_le_mul_of_nonneg_right gr (by positivity))
    show |ρ ((l.sum f).val + (r.sum f).val)| ≤ _
    set s := (l.sum f).val + (r.sum f).val
    have hs : |s| ≤ g * ((nl + nr) * (B + w)) := by
      refine (abs_add_le _ _).trans ?_
      linarith
    have hm : max |s| w ≤ g * ((nl + nr) * (B + w)) := by
      refine max_le hs ?_
      have : 1 * (1 * w) ≤ g * ((nl + nr) * (B + w)) :=
        mul_le_mul g1 (mul_le_mul (by linarith) (by linarith) hw (by linarith)) (by linarith) (by linarith)
      linarith
    have h3 := hρ s
    have h4 := abs_sub_abs_le_abs_sub (ρ s) s
    have h5 : u * max |s| w ≤ u * (g * ((nl + nr) * (B + w))) := mul_le_mul_of_nonneg_left hm hu
    rw [pow_succ]
    calc |ρ s| ≤ (1 + u) * (g * ((nl + nr) * (B + w))) := by linarith
      _ = _ := by ring

/-- A sum whose parts fit is the same in the format as without a largest number. -/
theorem sum_of (hρ : Rounds u w ρ) (hu : 0 ≤ u) (hw : 0 ≤ w) (f : β → Rd ρ) {B : ℝ} (t : SumTree β)
    (hB : ∀ b ∈ t.leaves, |(f b).val| ≤ B) {f' : β → Fp ρ M} (hf : ∀ b ∈ t.leaves, f' b = Fp.of (f b))
    (hM : (1 + u) ^ t.depth * (t.leaves.length * (B + w)) ≤ M) : t.sum f' = Fp.of (t.sum f) := by
  induction t with
  | leaf b => exact hf b (by simp [leaves])
  | node l r ihl ihr =>
    have hs := sum_size hρ hu hw f (.node l r) hB
    have hB0 : 0 ≤ B := by
      obtain ⟨b, hb⟩ := List.exists_mem_of_length_pos (SumTree.node l r).leaves_pos
      exact (abs_nonneg _).trans (hB b hb)
    have h1u : (1 : ℝ) ≤ 1 + u := by linarith
    have bw : 0 ≤ B + w := by linarith
    have sub : ∀ s : SumTree β, s.depth ≤ (SumTree.node l r).depth →
        s.leaves.length ≤ (SumTree.node l r).leaves.length →
        (1 + u) ^ s.depth * (s.leaves.length * (B + w)) ≤ M := fun s h1 h2 => by
      refine le_trans ?_ hM
      refine mul_le_mul (pow_le_pow_right₀ h1u h1) (mul_le_mul_of_nonneg_right (by exact_mod_cast h2) bw)
        (by positivity) (by positivity)
    have hl := ihl (fun b hb => hB b (by simp [leaves, hb])) (fun b hb => hf b (by simp [leaves, hb]))
      (sub l ((le_max_left _ _).trans (Nat.le_succ _)) (by simp [leaves]))
    have hr := ihr (fun b hb => hB b (by simp [leaves, hb])) (fun b hb => hf b (by simp [leaves, hb]))
      (sub r ((le_max_right _ _).trans (Nat.le_succ _)) (by simp [leaves]))
    show l.sum f' + r.sum f' = _
    rw [hl, hr]
    exact Fp.of_add (hs.trans hM)

end SumTree

end Momlevel
