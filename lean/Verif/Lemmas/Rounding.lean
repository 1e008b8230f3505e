import Verif.Model.Rounding
import Verif.Spec.Rounding
import Mathlib.Tactic.Linarith
import Mathlib.Tactic.Ring
import Mathlib.Tactic.NormNum
import Mathlib.Tactic.NormNum.OfScientific
import Mathlib.Tactic.Positivity
import Mathlib.Tactic.FieldSimp
import Mathlib.Algebra.Order.Archimedean.Real.Basic
import Mathlib.Data.Rat.Cast.Order
import Mathlib.Tactic.NormNum.Inv
import Mathlib.Tactic.Push
import Mathlib.Algebra.Order.Ring.Pow
import Mathlib.Algebra.Order.BigOperators.Group.List

/-!
# Error bounds for rounded arithmetic

Expressions over three variables, their exact and rounded values, and an interval computation that
bounds both the exact value and the rounding error.  The equations of state are themselves used at
the type of expressions, so that no formula is written twice.
-/

namespace Momlevel
open Spec

/-- Arithmetic expressions with decimal literals. -/
inductive Ex
  | var (i : ℕ)
  | lit (m : ℕ) (s : Bool) (e : ℕ)
  | neg (a : Ex)
  | add (a b : Ex)
  | sub (a b : Ex)
  | mul (a b : Ex)
  | div (a b : Ex)

namespace Ex

instance : Add Ex := ⟨add⟩
instance : Sub Ex := ⟨sub⟩
instance : Mul Ex := ⟨mul⟩
instance : Div Ex := ⟨div⟩
instance : Neg Ex := ⟨neg⟩
instance : OfScientific Ex := ⟨lit⟩

/-- The value of an expression in any number type. -/
def eval {α : Type*} [Add α] [Sub α] [Mul α] [Div α] [Neg α] [OfScientific α] (v : ℕ → α) :
    Ex → α
  | var i => v i
  | lit m s e => OfScientific.ofScientific m s e
  | neg a => -a.eval v
  | add a b => a.eval v + b.eval v
  | sub a b => a.eval v - b.eval v
  | mul a b => a.eval v * b.eval v
  | div a b => a.eval v / b.eval v

/-- Interval of the exact value and error coefficient. -/
structure Bd where
  lo : ℚ
  hi : ℚ
  err : ℚ

/-- Largest magnitude in the interval. -/
def Bd.mag (b : Bd) : ℚ := max |b.lo| |b.hi|

/-- After one more rounding of something in `[lo, hi]` known up to `e`. -/
def Bd.rnd (U W lo hi e : ℚ) : Bd := ⟨lo, hi, e * (1 + U) + max |lo| |hi| + W⟩

/-- The interval computation; `U` and `W` bound the unit roundoff and the smallest normal number,
`v` gives the intervals of the variables. -/
def bound (U W : ℚ) (v : ℕ → ℚ × ℚ) : Ex → Option Bd
  | var i => some ⟨(v i).1, (v i).2, 0⟩
  | lit m s e =>
    let q : ℚ := OfScientific.ofScientific m s e
    some (Bd.rnd U W q q 0)
  | neg a => (a.bound U W v).map fun x => ⟨-x.hi, -x.lo, x.err⟩
  | add a b =>
    match a.bound U W v, b.bound U W v with
    | some x, some y => some (Bd.rnd U W (x.lo + y.lo) (x.hi + y.hi) (x.err + y.err))
    | _, _ => none
  | sub a b =>
    match a.bound U W v, b.bound U W v with
    | some x, some y => some (Bd.rnd U W (x.lo - y.hi) (x.hi - y.lo) (x.err + y.err))
    | _, _ => none
  | mul a b =>
    match a.bound U W v, b.bound U W v with
    | some x, some y =>
      some (Bd.rnd U W
        (min (min (x.lo * y.lo) (x.lo * y.hi)) (min (x.hi * y.lo) (x.hi * y.hi)))
        (max (max (x.lo * y.lo) (x.lo * y.hi)) (max (x.hi * y.lo) (x.hi * y.hi)))
        (x.err * (y.mag + y.err * U) + x.mag * y.err))
    | _, _ => none
  | div a b =>
    match a.bound U W v, b.bound U W v with
    | some x, some y =>
      if 0 < y.lo - y.err * U then
        some (Bd.rnd U W
          (min (min (x.lo / y.lo) (x.lo / y.hi)) (min (x.hi / y.lo) (x.hi / y.hi)))
          (max (max (x.lo / y.lo) (x.lo / y.hi)) (max (x.hi / y.lo) (x.hi / y.hi)))
          ((x.err + x.mag / y.lo * y.err) / (y.lo - y.err * U)))
      else none
    | _, _ => none

end Ex

/-- What the interval computation guarantees. -/
structure Sound (u : ℝ) (b : Ex.Bd) (x x' : ℝ) : Prop where
  lo : (b.lo : ℝ) ≤ x
  hi : x ≤ b.hi
  nn : 0 ≤ b.err
  err : |x' - x| ≤ b.err * u

theorem Sound.mag {u : ℝ} {b : Ex.Bd} {x x' : ℝ} (h : Sound u b x x') : |x| ≤ (b.mag : ℚ) := by
  have h1 := h.lo; have h2 := h.hi
  unfold Ex.Bd.mag
  push_cast
  rcases abs_cases x with ⟨e, _⟩ | ⟨e, _⟩ <;> rw [e]
  · exact le_max_of_le_right (h2.trans (le_abs_self _))
  · exact le_max_of_le_left ((neg_le_neg h1).trans (neg_le_abs _))

theorem mag_of {lo hi : ℚ} {x : ℝ} (h1 : (lo : ℝ) ≤ x) (h2 : x ≤ hi) :
    |x| ≤ ((max |lo| |hi| : ℚ) : ℝ) := by
  push_cast
  rcases abs_cases x with ⟨e, _⟩ | ⟨e, _⟩ <;> rw [e]
  · exact le_max_of_le_right (h2.trans (le_abs_self _))
  · exact le_max_of_le_left ((neg_le_neg h1).trans (neg_le_abs _))

/-- One rounding on top of an approximation. -/
theorem sound_rnd {ρ : ℝ → ℝ} {u w : ℝ} {U W lo hi e : ℚ} {s s' : ℝ} (hρ : Rounds u w ρ)
    (hu : 0 ≤ u) (hU : u ≤ U) (hw : 0 ≤ w) (hW : w ≤ W) (he : 0 ≤ e)
    (h1 : (lo : ℝ) ≤ s) (h2 : s ≤ hi) (h : |s' - s| ≤ e * u) :
    Sound u (Ex.Bd.rnd U W lo hi e) s (ρ s') := by
  have hU0 : (0 : ℚ) ≤ U := by exact_mod_cast hu.trans hU
  have hW0 : (0 : ℚ) ≤ W := by exact_mod_cast hw.trans hW
  have he' : (0 : ℝ) ≤ e := by exact_mod_cast he
  refine ⟨h1, h2, ?_, ?_⟩
  · show 0 ≤ e * (1 + U) + max |lo| |hi| + W
    have := abs_nonneg lo
    have := le_max_left |lo| |hi|
    have : 0 ≤ e * (1 + U) := mul_nonneg he (by linarith)
    linarith
  · have hm := mag_of h1 h2
    have h3 := hρ s'
    have h4 : max |s'| w ≤ |s| + e * u + w := by
      have : |s'| ≤ |s| + e * u := by
        have := abs_sub_abs_le_abs_sub s' s
        linarith
      have h0 := abs_nonneg s
      have h0' : (0 : ℝ) ≤ e * u := mul_nonneg he' hu
      exact max_le (by linarith) (by linarith)
    have h5 : |ρ s' - s| ≤ |ρ s' - s'| + |s' - s| := abs_sub_le _ _ _
    have h6 : u * max |s'| w ≤ u * (|s| + e * u + w) := mul_le_mul_of_nonneg_left h4 hu
    have h7 : u * (|s| + e * u + w)
        ≤ u * (((max |lo| |hi| : ℚ) : ℝ) + e * U + W) := by
      refine mul_le_mul_of_nonneg_left ?_ hu
      have : (e : ℝ) * u ≤ e * U := mul_le_mul_of_nonneg_left hU he'
      linarith
    show |ρ s' - s| ≤ ((e * (1 + U) + max |lo| |hi| + W : ℚ) : ℝ) * u
    have h8 : (((e * (1 + U) + max |lo| |hi| + W : ℚ)) : ℝ) * u
        = u * (((max |lo| |hi| : ℚ) : ℝ) + e * U + W) + e * u := by
      push_cast; ring
    linarith

theorem mul_bounds {a b c d x y : ℝ} (h1 : a ≤ x) (h2 : x ≤ b) (h3 : c ≤ y) (h4 : y ≤ d) :
    min (min (a * c) (a * d)) (min (b * c) (b * d)) ≤ x * y ∧
      x * y ≤ max (max (a * c) (a * d)) (max (b * c) (b * d)) := by
  -- `x * y` lies between `a * y` and `b * y`, and these between the corners
  have key : ∀ t : ℝ, min (t * c) (t * d) ≤ t * y ∧ t * y ≤ max (t * c) (t * d) := by
    intro t
    rcases le_total 0 t with ht | ht
    · exact ⟨min_le_of_left_le (mul_le_mul_of_nonneg_left h3 ht),
        le_max_of_le_right (mul_le_mul_of_nonneg_left h4 ht)⟩
    · exact ⟨min_le_of_right_le (mul_le_mul_of_nonpos_left h4 ht),
        le_max_of_le_left (mul_le_mul_of_nonpos_left h3 ht)⟩
  have hx : min (a * y) (b * y) ≤ x * y ∧ x * y ≤ max (a * y) (b * y) := by
    rcases le_total 0 y with hy | hy
    · exact ⟨min_le_of_left_le (mul_le_mul_of_nonneg_right h1 hy),
        le_max_of_le_right (mul_le_mul_of_nonneg_right h2 hy)⟩
    · exact ⟨min_le_of_right_le (mul_le_mul_of_nonpos_right h2 hy),
        le_max_of_le_left (mul_le_mul_of_nonpos_right h1 hy)⟩
  exact ⟨(min_le_min (key a).1 (key b).1).trans hx.1, hx.2.trans (max_le_max (key a).2 (key b).2)⟩

theorem inv_bounds {c d y : ℝ} (hc : 0 < c) (h3 : c ≤ y) (h4 : y ≤ d) :
    d⁻¹ ≤ y⁻¹ ∧ y⁻¹ ≤ c⁻¹ :=
  ⟨inv_anti₀ (hc.trans_le h3) h4, inv_anti₀ hc h3⟩

theorem div_bounds {a b c d x y : ℝ} (hc : 0 < c) (h1 : a ≤ x) (h2 : x ≤ b) (h3 : c ≤ y)
    (h4 : y ≤ d) :
    min (min (a / c) (a / d)) (min (b / c) (b / d)) ≤ x / y ∧
      x / y ≤ max (max (a / c) (a / d)) (max (b / c) (b / d)) := by
  obtain ⟨h5, h6⟩ := inv_bounds hc h3 h4
  have := mul_bounds h1 h2 h5 h6
  simp only [div_eq_mul_inv]
  rw [min_comm (a * c⁻¹), min_comm (b * c⁻¹), max_comm (a * c⁻¹), max_comm (b * c⁻¹)]
  exact this

namespace Ex

variable {ρ : ℝ → ℝ}

/-- Soundness of the interval computation. -/
theorem bound_sound {u w : ℝ} {U W : ℚ} {ρ : ℝ → ℝ} (hρ : Rounds u w ρ)
    (hu : 0 ≤ u) (hU : u ≤ U) (hw : 0 ≤ w) (hW : w ≤ W) (I : ℕ → ℚ × ℚ) (v : ℕ → ℝ)
    (hv : ∀ i, ((I i).1 : ℝ) ≤ v i ∧ v i ≤ (I i).2) (e : Ex) :
    ∀ b, e.bound U W I = some b →
      Sound u b (e.eval v) (e.eval (fun i => (⟨v i⟩ : Rd ρ))).val := by
  induction e with
  | var i =>
    intro b hb
    simp only [bound, Option.some.injEq] at hb
    subst hb
    exact ⟨(hv i).1, (hv i).2, le_refl _, by simp [eval]⟩
  | lit m s e =>
    intro b hb
    simp only [bound, Option.some.injEq] at hb
    subst hb
    have hc : ((OfScientific.ofScientific m s e : ℚ) : ℝ) = OfScientific.ofScientific m s e := by
      norm_cast
    exact sound_rnd hρ hu hU hw hW le_rfl hc.le hc.ge (by simp [eval])
  | neg a iha =>
    intro b hb
    simp only [bound, Option.map_eq_some_iff] at hb
    obtain ⟨x, hx, rfl⟩ := hb
    have h := iha x hx
    refine ⟨?_, ?_, h.nn, ?_⟩
    · have := h.hi
      simp only [eval]; push_cast; linarith
    · have := h.lo
      simp only [eval]; push_cast; linarith
    · have := h.err
      show |-_ - -_| ≤ _
      rw [neg_sub_neg, abs_sub_comm]
      exact this
  | add a b iha ihb =>
    intro c hc
    simp only [bound] at hc
    split at hc
    · rename_i x y hx hy
      simp only [Option.some.injEq] at hc
      subst hc
      have h1 := iha x hx
      have h2 := ihb y hy
      refine sound_rnd hρ hu hU hw hW (add_nonneg h1.nn h2.nn) ?_ ?_ ?_
      · push_cast; exact add_le_add h1.lo h2.lo
      · push_cast; exact add_le_add h1.hi h2.hi
      · have e1 := h1.err
        have e2 := h2.err
        push_cast
        calc _ = |((a.eval (fun i => (⟨v i⟩ : Rd ρ))).val - a.eval v)
                + ((b.eval (fun i => (⟨v i⟩ : Rd ρ))).val - b.eval v)| := by
                congr 1; simp only [eval]; ring
          _ ≤ _ := abs_add_le _ _
          _ ≤ _ := by linarith
    · exact absurd hc (by simp)
  | sub a b iha ihb =>
    intro c hc
    simp only [bound] at hc
    split at hc
    · rename_i x y hx hy
      simp only [Option.some.injEq] at hc
      subst hc
      have h1 := iha x hx
      have h2 := ihb y hy
      refine sound_rnd hρ hu hU hw hW (add_nonneg h1.nn h2.nn) ?_ ?_ ?_
      · push_cast; exact sub_le_sub h1.lo h2.hi
      · push_cast; exact sub_le_sub h1.hi h2.lo
      · have e1 := h1.err
        have e2 := h2.err
        push_cast
        calc _ = |((a.eval (fun i => (⟨v i⟩ : Rd ρ))).val - a.eval v)
                - ((b.eval (fun i => (⟨v i⟩ : Rd ρ))).val - b.eval v)| := by
                congr 1; simp only [eval]; ring
          _ ≤ _ := abs_sub _ _
          _ ≤ _ := by linarith
    · exact absurd hc (by simp)
  | mul a b iha ihb =>
    intro c hc
    simp only [bound] at hc
    split at hc
    · rename_i x y hx hy
      simp only [Option.some.injEq] at hc
      subst hc
      have h1 := iha x hx
      have h2 := ihb y hy
      have hU0 : (0 : ℚ) ≤ U := by exact_mod_cast hu.trans hU
      have hxm : (0 : ℚ) ≤ x.mag := le_max_of_le_left (abs_nonneg _)
      have hym : (0 : ℚ) ≤ y.mag := le_max_of_le_left (abs_nonneg _)
      have hb := mul_bounds h1.lo h1.hi h2.lo h2.hi
      refine sound_rnd hρ hu hU hw hW ?_ ?_ ?_ ?_
      · exact add_nonneg (mul_nonneg h1.nn (add_nonneg hym (mul_nonneg h2.nn hU0)))
          (mul_nonneg hxm h2.nn)
      · push_cast; exact hb.1
      · push_cast; exact hb.2
      · have e1 := h1.err
        have e2 := h2.err
        have m1 := h1.mag
        have m2 := h2.mag
        have n1 : (0 : ℝ) ≤ x.err := by exact_mod_cast h1.nn
        have n2 : (0 : ℝ) ≤ y.err := by exact_mod_cast h2.nn
        set A := a.eval v
        set B := b.eval v
        set A' := (a.eval (fun i => (⟨v i⟩ : Rd ρ))).val
        set B' := (b.eval (fun i => (⟨v i⟩ : Rd ρ))).val
        have hB' : |B'| ≤ y.mag + y.err * U := by
          have h5 := abs_sub_abs_le_abs_sub B' B
          have h6 : (y.err : ℝ) * u ≤ y.err * U := mul_le_mul_of_nonneg_left hU n2
          linarith
        show |A' * B' - A * B| ≤ _
        push_cast
        calc |A' * B' - A * B| = |(A' - A) * B' + A * (B' - B)| := by congr 1; ring
          _ ≤ |(A' - A) * B'| + |A * (B' - B)| := abs_add_le _ _
          _ = |A' - A| * |B'| + |A| * |B' - B| := by rw [abs_mul, abs_mul]
          _ ≤ (x.err * u) * (y.mag + y.err * U) + x.mag * (y.err * u) := by
              gcongr
          _ = _ := by ring
    · exact absurd hc (by simp)
  | div a b iha ihb =>
    intro c hc
    simp only [bound] at hc
    split at hc
    · rename_i x y hx hy
      split_ifs at hc with hpos
      simp only [Option.some.injEq] at hc
      subst hc
      have h1 := iha x hx
      have h2 := ihb y hy
      have hU0 : (0 : ℚ) ≤ U := by exact_mod_cast hu.trans hU
      have hxm : (0 : ℚ) ≤ x.mag := le_max_of_le_left (abs_nonneg _)
      have hy0 : (0 : ℚ) < y.lo := by
        have := mul_nonneg h2.nn hU0
        linarith
      have hy0' : (0 : ℝ) < y.lo := by exact_mod_cast hy0
      have hpos' : (0 : ℝ) < y.lo - y.err * U := by exact_mod_cast hpos
      have hb := div_bounds hy0' h1.lo h1.hi h2.lo h2.hi
      refine sound_rnd hρ hu hU hw hW ?_ ?_ ?_ ?_
      · exact div_nonneg (add_nonneg h1.nn (mul_nonneg (div_nonneg hxm hy0.le) h2.nn)) hpos.le
      · push_cast; exact hb.1
      · push_cast; exact hb.2
      · have e1 := h1.err
        have e2 := h2.err
        have m1 := h1.mag
        have n1 : (0 : ℝ) ≤ x.err := by exact_mod_cast h1.nn
        have n2 : (0 : ℝ) ≤ y.err := by exact_mod_cast h2.nn
        have l2 := h2.lo
        set A := a.eval v
        set B := b.eval v
        set A' := (a.eval (fun i => (⟨v i⟩ : Rd ρ))).val
        set B' := (b.eval (fun i => (⟨v i⟩ : Rd ρ))).val
        have hB : 0 < B := hy0'.trans_le l2
        have hB' : (y.lo : ℝ) - y.err * U ≤ B' := by
          have h5 := (abs_le.mp e2).1
          have h6 : (y.err : ℝ) * u ≤ y.err * U := mul_le_mul_of_nonneg_left hU n2
          linarith
        have hB'0 : 0 < B' := hpos'.trans_le hB'
        show |A' / B' - A / B| ≤ _
        push_cast
        have hA : |A| / B ≤ x.mag / y.lo :=
          div_le_div₀ (by exact_mod_cast hxm) m1 hy0' l2
        calc |A' / B' - A / B| = |((A' - A) - A / B * (B' - B)) / B'| := by
                congr 1; field_simp; ring
          _ = |(A' - A) - A / B * (B' - B)| / B' := by rw [abs_div, abs_of_pos hB'0]
          _ ≤ (|A' - A| + |A / B * (B' - B)|) / B' := by
                gcongr; exact abs_sub _ _
          _ = (|A' - A| + |A| / B * |B' - B|) / B' := by
                rw [abs_mul, abs_div, abs_of_pos hB]
          _ ≤ (x.err * u + x.mag / y.lo * (y.err * u)) / (y.lo - y.err * U) := by
                have hq : (0 : ℝ) ≤ x.mag / y.lo := div_nonneg (by exact_mod_cast hxm) hy0'.le
                have hn : (0 : ℝ) ≤ x.err * u + x.mag / y.lo * (y.err * u) := by positivity
                refine div_le_div₀ hn ?_ hpos' hB'
                have := mul_le_mul hA e2 (abs_nonneg _) hq
                linarith
          _ = _ := by ring
    · exact absurd hc (by simp)

/-- The interval computation yields at least the given interval and error coefficient. -/
def check (U W : ℚ) (I : ℕ → ℚ × ℚ) (e : Ex) (lo hi err : ℚ) : Bool :=
  match e.bound U W I with
  | some b => decide (lo ≤ b.lo) && decide (b.hi ≤ hi) && decide (b.err ≤ err)
  | none => false

/-- Use of the interval computation: a closed check gives bounds for all values of the variables. -/
theorem check_sound {u w : ℝ} {U W : ℚ} {ρ : ℝ → ℝ} (hρ : Rounds u w ρ)
    (hu : 0 ≤ u) (hU : u ≤ U) (hw : 0 ≤ w) (hW : w ≤ W) {I : ℕ → ℚ × ℚ} {v : ℕ → ℝ}
    (hv : ∀ i, ((I i).1 : ℝ) ≤ v i ∧ v i ≤ (I i).2) (e : Ex) {lo hi err : ℚ}
    (h : check U W I e lo hi err = true) :
    (lo : ℝ) ≤ e.eval v ∧ e.eval v ≤ hi
      ∧ |(e.eval (fun i => (⟨v i⟩ : Rd ρ))).val - e.eval v| ≤ err * u := by
  unfold check at h
  split at h
  · rename_i b hb
    simp only [Bool.and_eq_true, decide_eq_true_eq] at h
    obtain ⟨⟨h1, h2⟩, h3⟩ := h
    have hs := bound_sound hρ hu hU hw hW I v hv e b hb
    refine ⟨le_trans (by exact_mod_cast h1) hs.lo, hs.hi.trans (by exact_mod_cast h2),
      hs.err.trans (mul_le_mul_of_nonneg_right (by exact_mod_cast h3) hu)⟩
  · exact absurd h (by simp)

end Ex

end Momlevel

namespace Momlevel
open Spec

/-! ## Sums in any order -/

namespace SumTree
variable {β : Type*}

/-- Height of the tree: the largest number of additions a summand goes through. -/
def depth : SumTree β → ℕ
  | leaf _ => 0
  | node l r => max l.depth r.depth + 1

theorem sum_leaves (f : β → ℝ) (t : SumTree β) : t.sum f = (t.leaves.map f).sum := by
  induction t with
  | leaf b => simp [sum, leaves]
  | node l r ihl ihr => simp [sum, leaves, ihl, ihr]

theorem leaves_pos (t : SumTree β) : 1 ≤ t.leaves.length := by
  induction t with
  | leaf b => simp [leaves]
  | node l r ihl ihr => simp only [leaves, List.length_append]; omega

theorem sum_nonneg {f : β → ℝ} {l : List β} (h : ∀ b ∈ l, 0 ≤ f b) : 0 ≤ (l.map f).sum :=
  List.sum_nonneg (by simpa using h)

/-- Error of a sum, whatever the order of the additions. -/
theorem sum_error {ρ : ℝ → ℝ} {u w : ℝ} (hρ : Rounds u w ρ) (hu : 0 ≤ u) (hw : 0 ≤ w)
    (f' : β → Rd ρ) (f E B : β → ℝ) (t : SumTree β)
    (hE : ∀ b ∈ t.leaves, |(f' b).val - f b| ≤ E b) (hB : ∀ b ∈ t.leaves, |f b| ≤ B b) :
    |(t.sum f').val - t.sum f| ≤ (1 + u) ^ t.depth * (t.leaves.map E).sum
        + ((1 + u) ^ t.depth - 1) * (t.leaves.map (fun b => B b + w)).sum
      ∧ |t.sum f| ≤ (t.leaves.map B).sum
      ∧ (t.leaves.map B).sum + w ≤ (t.leaves.map (fun b => B b + w)).sum := by
  induction t with
  | leaf b =>
    simp only [leaves, List.mem_singleton, forall_eq] at hE hB
    simp only [sum, leaves, depth, pow_zero, List.map_cons, List.map_nil, List.sum_cons,
      List.sum_nil, add_zero, one_mul, sub_self, zero_mul]
    exact ⟨hE, hB, le_rfl⟩
  | node l r ihl ihr =>
    simp only [leaves, List.mem_append] at hE hB
    obtain ⟨l1, l2, l3⟩ := ihl (fun b hb => hE b (.inl hb)) (fun b hb => hB b (.inl hb))
    obtain ⟨r1, r2, r3⟩ := ihr (fun b hb => hE b (.inr hb)) (fun b hb => hB b (.inr hb))
    have El : 0 ≤ (l.leaves.map E).sum :=
      sum_nonneg (fun b hb => (abs_nonneg _).trans (hE b (.inl hb)))
    have Er : 0 ≤ (r.leaves.map E).sum :=
      sum_nonneg (fun b hb => (abs_nonneg _).trans (hE b (.inr hb)))
    have Bl : 0 ≤ (l.leaves.map (fun b => B b + w)).sum :=
      sum_nonneg (fun b hb => add_nonneg ((abs_nonneg _).trans (hB b (.inl hb))) hw)
    have Br : 0 ≤ (r.leaves.map (fun b => B b + w)).sum :=
      sum_nonneg (fun b hb => add_nonneg ((abs_nonneg _).trans (hB b (.inr hb))) hw)
    simp only [sum, leaves, depth, List.map_append, List.sum_append]
    set el := (l.leaves.map E).sum
    set er := (r.leaves.map E).sum
    set bl := (l.leaves.map (fun b => B b + w)).sum
    set br := (r.leaves.map (fun b => B b + w)).sum
    set m := max l.depth r.depth
    have h1u : (1 : ℝ) ≤ 1 + u := by linarith
    have gl : (1 + u) ^ l.depth ≤ (1 + u) ^ m := pow_le_pow_right₀ h1u (le_max_left _ _)
    have gr : (1 + u) ^ r.depth ≤ (1 + u) ^ m := pow_le_pow_right₀ h1u (le_max_right _ _)
    set g := (1 + u) ^ m
    have l1' : |(l.sum f').val - l.sum f| ≤ g * el + (g - 1) * bl := by
      refine l1.trans (add_le_add (mul_le_mul_of_nonneg_right gl El)
        (mul_le_mul_of_nonneg_right (by linarith) Bl))
    have r1' : |(r.sum f').val - r.sum f| ≤ g * er + (g - 1) * br := by
      refine r1.trans (add_le_add (mul_le_mul_of_nonneg_right gr Er)
        (mul_le_mul_of_nonneg_right (by linarith) Br))
    set s := l.sum f + r.sum f
    set s' := (l.sum f').val + (r.sum f').val
    have hs : |s' - s| ≤ g * (el + er) + (g - 1) * (bl + br) := by
      have : s' - s = ((l.sum f').val - l.sum f) + ((r.sum f').val - r.sum f) := by
        simp only [s, s']; ring
      rw [this]
      refine (abs_add_le _ _).trans ?_
      linarith
    have hsB : |s| ≤ (l.leaves.map B).sum + (r.leaves.map B).sum := by
      refine (abs_add_le _ _).trans ?_
      linarith
    refine ⟨?_, hsB, by linarith⟩
    show |ρ s' - s| ≤ _
    have h3 := hρ s'
    have h4 : max |s'| w ≤ |s| + |s' - s| + w := by
      have := abs_sub_abs_le_abs_sub s' s
      have := abs_nonneg s
      have := abs_nonneg (s' - s)
      exact max_le (by linarith) (by linarith)
    have h5 : |ρ s' - s| ≤ |ρ s' - s'| + |s' - s| := abs_sub_le _ _ _
    have h6 : u * max |s'| w ≤ u * ((bl + br) + |s' - s|) :=
      mul_le_mul_of_nonneg_left (by linarith) hu
    have h7 : (1 + u) * |s' - s| ≤ (1 + u) * (g * (el + er) + (g - 1) * (bl + br)) :=
      mul_le_mul_of_nonneg_left hs (by linarith)
    rw [pow_succ]
    calc |ρ s' - s| ≤ u * (bl + br) + (1 + u) * |s' - s| := by linarith
      _ ≤ u * (bl + br) + (1 + u) * (g * (el + er) + (g - 1) * (bl + br)) := by linarith
      _ = _ := by ring

end SumTree

/-- Growth of the error through `d` additions. -/
theorem growth_le {u : ℝ} (hu : 0 ≤ u) (d : ℕ) (h : d * u ≤ 1 / 100) :
    (1 + u) ^ d - 1 ≤ 102 / 100 * (d * u) := by
  rcases Nat.eq_zero_or_pos d with rfl | hd
  · simp
  have hd' : (1 : ℝ) ≤ d := by exact_mod_cast hd
  have hu1 : u ≤ 1 / 100 := by nlinarith
  have h1 : 1 - d * u ≤ (1 - u) ^ d := by
    have := one_add_mul_le_pow (a := -u) (by linarith) d
    have e : (1 : ℝ) + -u = 1 - u := by ring
    rw [e] at this
    linarith
  have h2 : (1 - u) ^ d * (1 + u) ^ d ≤ 1 := by
    rw [← mul_pow]
    exact pow_le_one₀ (by nlinarith) (by nlinarith)
  have h3 : (1 - d * u) * (1 + u) ^ d ≤ 1 :=
    (mul_le_mul_of_nonneg_right h1 (by positivity)).trans h2
  have h4 : 0 ≤ d * u := by positivity
  set x := d * u
  set g := (1 + u) ^ d
  have h5 : g ≤ 1.02 := by nlinarith
  nlinarith

/-! ## The height of a column -/

section column
variable {ρ : ℝ → ℝ} {u w : ℝ}

/-- The cells of a column as numbers of the format. -/
def ColCell.toRd (ρ : ℝ → ℝ) (c : ColCell ℝ) : ColCell (Rd ρ) :=
  ⟨⟨c.dz⟩, ⟨c.z⟩, ⟨c.T⟩, ⟨c.S⟩, ⟨c.Tref⟩, ⟨c.Sref⟩⟩


/-- Error of a product with an exactly known non-negative factor. -/
theorem mul_error (hρ : Rounds u w ρ) (hu : 0 ≤ u) (hw : 0 ≤ w) {t d d' E D : ℝ} (ht : 0 ≤ t)
    (hE : |d' - d| ≤ E * u) (hD : |d| ≤ D) :
    |ρ (t * d') - t * d| ≤ u * (t * ((1 + u) * E + D) + w) ∧ |t * d| ≤ t * D := by
  have h1 : |t * d' - t * d| ≤ t * (E * u) := by
    rw [← mul_sub, abs_mul, abs_of_nonneg ht]
    exact mul_le_mul_of_nonneg_left hE ht
  have h2 : |t * d| ≤ t * D := by
    rw [abs_mul, abs_of_nonneg ht]
    exact mul_le_mul_of_nonneg_left hD ht
  refine ⟨?_, h2⟩
  have h3 := hρ (t * d')
  have h4 : max |t * d'| w ≤ |t * d| + |t * d' - t * d| + w := by
    have := abs_sub_abs_le_abs_sub (t * d') (t * d)
    have := abs_nonneg (t * d)
    have := abs_nonneg (t * d' - t * d)
    exact max_le (by linarith) (by linarith)
  have h5 : |ρ (t * d') - t * d| ≤ |ρ (t * d') - t * d'| + |t * d' - t * d| := abs_sub_le _ _ _
  have h6 : u * max |t * d'| w ≤ u * (t * D + t * (E * u) + w) :=
    mul_le_mul_of_nonneg_left (by linarith) hu
  calc _ ≤ u * (t * D + t * (E * u) + w) + t * (E * u) := by linarith
    _ = _ := by ring

/-- The last product of `colHeight`. -/
theorem last_product (hρ : Rounds u w ρ) (hu : 0 ≤ u) (hU : u ≤ 1 / 10 ^ 6) {E D X d c c' s s' : ℝ}
    (hE0 : 0 ≤ E) (hD0 : 0 ≤ D) (hX0 : 0 ≤ X) (hd0 : 0 ≤ d) (hdu : d * u ≤ 1 / 100)
    (hw : w ≤ D * X / 1000)
    (a3 : |s' - s| ≤ u * ((1.0103 * E + 1.0102 * D + 1.02 * d * D) * X)) (a4 : |s| ≤ D * X)
    (c1 : |c' - c| ≤ 3 / 900 * u) (c2 : |c| ≤ 1 / 900) :
    |ρ (c' * s') - c * s| ≤ u * ((104 / 100 * E + (7 + 105 / 100 * d) * D) / 900) * X := by
  have p1 : 0 ≤ E * X := mul_nonneg hE0 hX0
  have p2 : 0 ≤ D * X := mul_nonneg hD0 hX0
  have p3 : 0 ≤ d * (D * X) := mul_nonneg hd0 p2
  have r3 : u * ((1.0103 * E + 1.0102 * D + 1.02 * d * D) * X)
      = 1.0103 * (u * (E * X)) + 1.0102 * (u * (D * X)) + 1.02 * (u * (d * (D * X))) := by ring
  have u1 : u * (E * X) ≤ 1 / 10 ^ 6 * (E * X) := mul_le_mul_of_nonneg_right hU p1
  have u2 : u * (D * X) ≤ 1 / 10 ^ 6 * (D * X) := mul_le_mul_of_nonneg_right hU p2
  have u3 : u * (d * (D * X)) ≤ 1 / 100 * (D * X) := by
    have := mul_le_mul_of_nonneg_right hdu p2
    linarith
  have n1 : 0 ≤ u * (E * X) := mul_nonneg hu p1
  have n2 : 0 ≤ u * (D * X) := mul_nonneg hu p2
  have n3 : 0 ≤ u * (d * (D * X)) := mul_nonneg hu p3
  rw [r3] at a3
  have d1 : |s'| ≤ 0.0000010103 * (E * X) + 1.0203 * (D * X) := by
    have := abs_sub_abs_le_abs_sub s' s
    linarith
  have b1 : |c' * s' - c * s| ≤ |c' - c| * |s'| + |c| * |s' - s| := by
    rw [← abs_mul, ← abs_mul]
    refine le_trans (le_of_eq ?_) (abs_add_le _ _)
    congr 1; ring
  have b2 : |c' - c| * |s'| ≤ (3 / 900 * u) * (0.0000010103 * (E * X) + 1.0203 * (D * X)) :=
    mul_le_mul c1 d1 (abs_nonneg _) (by positivity)
  have b3 : |c| * |s' - s| ≤ 1 / 900
      * (1.0103 * (u * (E * X)) + 1.0102 * (u * (D * X)) + 1.02 * (u * (d * (D * X)))) :=
    mul_le_mul c2 a3 (abs_nonneg _) (by norm_num)
  have d2 : |c' * s' - c * s|
      ≤ (1.0104 * (u * (E * X)) + 4.1 * (u * (D * X)) + 1.02 * (u * (d * (D * X)))) / 900 := by
    have e : (3 / 900 * u) * (0.0000010103 * (E * X) + 1.0203 * (D * X))
        = (0.0000030309 * (u * (E * X)) + 3.0609 * (u * (D * X))) / 900 := by ring
    rw [e] at b2
    linarith
  have d3 : |c * s| ≤ D * X / 900 := by
    rw [abs_mul]
    have := mul_le_mul c2 a4 (abs_nonneg _) (by norm_num : (0 : ℝ) ≤ 1 / 900)
    linarith
  have h3 := hρ (c' * s')
  have h4 : max |c' * s'| w ≤ D * X / 900 + |c' * s' - c * s| + D * X / 1000 := by
    have := abs_sub_abs_le_abs_sub (c' * s') (c * s)
    have := abs_nonneg (c * s)
    have := abs_nonneg (c' * s' - c * s)
    exact max_le (by linarith) (by linarith)
  have h5 : |ρ (c' * s') - c * s| ≤ |ρ (c' * s') - c' * s'| + |c' * s' - c * s| := abs_sub_le _ _ _
  have h6 : u * max |c' * s'| w
      ≤ (1 / 900 + 1 / 1000) * (u * (D * X)) + u * |c' * s' - c * s| := by
    refine (mul_le_mul_of_nonneg_left h4 hu).trans (le_of_eq ?_)
    ring
  have h7 : u * |c' * s' - c * s| ≤ 1 / 10 ^ 6 * |c' * s' - c * s| :=
    mul_le_mul_of_nonneg_right hU (abs_nonneg _)
  have e : u * ((104 / 100 * E + (7 + 105 / 100 * d) * D) / 900) * X
      = (104 / 100 * (u * (E * X)) + 7 * (u * (D * X)) + 105 / 100 * (u * (d * (D * X)))) / 900 := by
    ring
  rw [e]
  have := abs_nonneg (c' * s' - c * s)
  linarith

/-- Error of the height of a column, from the error `E u` of the density changes and a bound `D` on
their size. -/
theorem column_error (hρ : Rounds u w ρ) (hu : 0 ≤ u) (hU : u ≤ 1 / 10 ^ 6) (hw : 0 ≤ w)
    (hW : w ≤ 1 / 10 ^ 30) {eos : Eos.EosFn ℝ} {eos' : Eos.EosFn (Rd ρ)} {patm rhozero E D : ℝ}
    (hr : 900 ≤ rhozero) (hr' : rhozero ≤ 1100) (hE0 : 0 ≤ E) (hD0 : 1 ≤ D)
    (cell : ℕ → ColCell ℝ) (t : SumTree ℕ) (ht : t.depth * u ≤ 1 / 100)
    (hz : ∀ k ∈ t.leaves, 0 ≤ (cell k).dz)
    (hE : ∀ k ∈ t.leaves,
      |(colDelta eos' ⟨patm⟩ ((cell k).toRd ρ)).val - colDelta eos patm (cell k)| ≤ E * u)
    (hD : ∀ k ∈ t.leaves, |colDelta eos patm (cell k)| ≤ D) :
    |(colHeight eos' ⟨patm⟩ ⟨rhozero⟩ (fun k => (cell k).toRd ρ) t).val
        - colHeight eos patm rhozero cell t|
      ≤ u * ((104 / 100 * E + (7 + 105 / 100 * t.depth) * D) / 900)
          * ((t.leaves.map (fun k => (cell k).dz)).sum + 1000 * (t.leaves.length * w)) := by
  set f' : ℕ → Rd ρ := fun k => ((cell k).toRd ρ).dz * colDelta eos' ⟨patm⟩ ((cell k).toRd ρ)
  set f : ℕ → ℝ := fun k => (cell k).dz * colDelta eos patm (cell k)
  have key := fun k hk => mul_error (t := (cell k).dz) hρ hu hw (hz k hk) (hE k hk) (hD k hk)
  have hsum := SumTree.sum_error hρ hu hw f' f
    (fun k => u * ((cell k).dz * ((1 + u) * E + D) + w)) (fun k => (cell k).dz * D) t
    (fun k hk => (key k hk).1) (fun k hk => (key k hk).2)
  have hH0 : 0 ≤ (t.leaves.map (fun k => (cell k).dz)).sum := SumTree.sum_nonneg hz
  have hn : (1 : ℝ) ≤ t.leaves.length := by exact_mod_cast t.leaves_pos
  have s1 : (t.leaves.map (fun k => u * ((cell k).dz * ((1 + u) * E + D) + w))).sum
      = u * ((t.leaves.map (fun k => (cell k).dz)).sum * ((1 + u) * E + D)
        + t.leaves.length * w) := by
    generalize t.leaves = l
    induction l with
    | nil => simp
    | cons a l ih => simp only [List.map_cons, List.sum_cons, ih, List.length_cons]; push_cast; ring
  have s2 : (t.leaves.map (fun k => (cell k).dz * D + w)).sum
      = (t.leaves.map (fun k => (cell k).dz)).sum * D + t.leaves.length * w := by
    generalize t.leaves = l
    induction l with
    | nil => simp
    | cons a l ih => simp only [List.map_cons, List.sum_cons, ih, List.length_cons]; push_cast; ring
  have s3 : (t.leaves.map (fun k => (cell k).dz * D)).sum
      = (t.leaves.map (fun k => (cell k).dz)).sum * D := by
    generalize t.leaves = l
    induction l with
    | nil => simp
    | cons a l ih => simp only [List.map_cons, List.sum_cons, ih]; ring
  rw [s1, s2, s3] at hsum
  set H := (t.leaves.map (fun k => (cell k).dz)).sum
  set nw := (t.leaves.length : ℝ) * w
  have hnw : w ≤ nw := by simp only [nw]; nlinarith
  have hg := growth_le hu t.depth ht
  have hg1 : (1 : ℝ) ≤ (1 + u) ^ t.depth := one_le_pow₀ (by linarith)
  set g := (1 + u) ^ t.depth
  set d : ℝ := (t.depth : ℝ)
  have hd0 : 0 ≤ d := Nat.cast_nonneg _
  set X := H + 1000 * nw
  have hnw0 : 0 ≤ nw := hw.trans hnw
  have hX0 : 0 ≤ X := by simp only [X]; linarith
  obtain ⟨e1, e2, -⟩ := hsum
  set s := t.sum f
  set s' := (t.sum f').val
  -- the sum
  have a1 : H * ((1 + u) * E + D) + nw ≤ ((1 + 1 / 10 ^ 6) * E + D) * X := by
    have b1 : (1 + u) * E ≤ (1 + 1 / 10 ^ 6) * E := mul_le_mul_of_nonneg_right (by linarith) hE0
    have b2 : H * ((1 + u) * E + D) ≤ H * ((1 + 1 / 10 ^ 6) * E + D) :=
      mul_le_mul_of_nonneg_left (by linarith) hH0
    have b3 : nw * 1 ≤ nw * ((1 + 1 / 10 ^ 6) * E + D) :=
      mul_le_mul_of_nonneg_left (by nlinarith) hnw0
    simp only [X]; linarith
  have a2 : H * D + nw ≤ D * X := by
    have b3 : nw * 1 ≤ nw * D := mul_le_mul_of_nonneg_left hD0 (hw.trans hnw)
    simp only [X]; linarith
  have hg2 : g ≤ 1.0102 := by
    have : (102 : ℝ) / 100 * (d * u) ≤ 102 / 100 * (1 / 100) := by linarith
    linarith
  have a3 : |s' - s| ≤ u * ((1.0103 * E + 1.0102 * D + 1.02 * d * D) * X) := by
    have b1 : g * (u * (H * ((1 + u) * E + D) + nw))
        ≤ 1.0102 * (u * (((1 + 1 / 10 ^ 6) * E + D) * X)) :=
      mul_le_mul hg2 (mul_le_mul_of_nonneg_left a1 hu) (by positivity) (by norm_num)
    have b2 : (g - 1) * (H * D + nw) ≤ (102 / 100 * (d * u)) * (D * X) :=
      mul_le_mul hg a2 (by positivity) (by positivity)
    have b3 : 0 ≤ u * (E * X) := by positivity
    nlinarith
  have a4 : |s| ≤ D * X := e2.trans (by
    have : 0 ≤ nw * D := mul_nonneg (hw.trans hnw) (by linarith)
    simp only [X]; linarith)
  -- the coefficient
  obtain ⟨q1, q2, q3⟩ := Ex.check_sound (U := 1 / 10 ^ 6) (W := 1 / 10 ^ 30) hρ hu
    (by push_cast; exact hU) hw (by push_cast; exact hW) (I := fun _ => (900, 1100))
    (v := fun _ => rhozero) (fun _ => ⟨by push_cast; exact hr, by push_cast; exact hr'⟩)
    ((-1.0 / Ex.var 0) : Ex) (lo := -(1 / 900)) (hi := 1 / 900) (err := 3 / 900)
    (by decide +kernel)
  have c2 : |Ex.eval (fun _ => rhozero) (-1.0 / Ex.var 0)| ≤ 1 / 900 := by
    push_cast at q1 q2
    exact abs_le.mpr ⟨by linarith, by linarith⟩
  have c1 : |(Ex.eval (fun _ => (⟨rhozero⟩ : Rd ρ)) (-1.0 / Ex.var 0)).val
      - Ex.eval (fun _ => rhozero) (-1.0 / Ex.var 0)| ≤ 3 / 900 * u := by
    push_cast at q3; exact q3
  have hwX : w ≤ D * X / 1000 := by
    have : 1 * (1000 * nw) ≤ D * X :=
      mul_le_mul hD0 (by simp only [X]; linarith) (by linarith) (by linarith)
    linarith
  exact last_product hρ hu hU hE0 (by linarith) hX0 hd0 ht hwX a3 a4 c1 c2

end column

end Momlevel
