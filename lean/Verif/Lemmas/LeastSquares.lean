import Verif.Model.Trend
import Mathlib.Algebra.Order.BigOperators.Group.List
import Mathlib.Algebra.BigOperators.Ring.List
import Mathlib.Tactic.Ring
import Mathlib.Tactic.LinearCombination
import Mathlib.Tactic.FieldSimp
import Mathlib.Tactic.Positivity
import Mathlib.Tactic.Linarith

/-!
# Least squares on lists of (time, value) pairs
-/

namespace Momlevel

variable {K : Type} [Field K] [LinearOrder K] [IsStrictOrderedRing K]

/-- Sum over a list. -/
def lsum {α : Type} (L : List α) (f : α → K) : K := (L.map f).sum

omit [LinearOrder K] [IsStrictOrderedRing K] in
@[simp] theorem lsum_nil {α : Type} (f : α → K) : lsum [] f = 0 := by simp [lsum]

omit [LinearOrder K] [IsStrictOrderedRing K] in
@[simp] theorem lsum_cons {α : Type} (a : α) (L : List α) (f : α → K) :
    lsum (a :: L) f = f a + lsum L f := by simp [lsum]

omit [LinearOrder K] [IsStrictOrderedRing K] in
theorem lsum_congr {α : Type} {L : List α} {f g : α → K} (h : ∀ a ∈ L, f a = g a) :
    lsum L f = lsum L g := by
  unfold lsum
  rw [List.map_congr_left h]

omit [LinearOrder K] [IsStrictOrderedRing K] in
theorem lsum_add {α : Type} (L : List α) (f g : α → K) :
    lsum L (fun a => f a + g a) = lsum L f + lsum L g := by
  induction L with
  | nil => simp
  | cons a L ih => simp only [lsum_cons, ih]; ring

omit [LinearOrder K] [IsStrictOrderedRing K] in
theorem lsum_mul {α : Type} (L : List α) (c : K) (f : α → K) :
    lsum L (fun a => c * f a) = c * lsum L f := by
  induction L with
  | nil => simp
  | cons a L ih => simp only [lsum_cons, ih]; ring

omit [LinearOrder K] [IsStrictOrderedRing K] in
theorem lsum_const {α : Type} (L : List α) (c : K) : lsum L (fun _ => c) = L.length * c := by
  induction L with
  | nil => simp
  | cons a L ih => simp only [lsum_cons, ih, List.length_cons]; push_cast; ring

theorem lsum_sq_nonneg {α : Type} (L : List α) (f : α → K) : 0 ≤ lsum L (fun a => f a * f a) := by
  induction L with
  | nil => simp
  | cons a L ih => rw [lsum_cons]; exact add_nonneg (mul_self_nonneg _) ih

theorem lsum_sq_eq_zero {α : Type} {L : List α} {f : α → K} (h : lsum L (fun a => f a * f a) = 0) :
    ∀ a ∈ L, f a = 0 := by
  induction L with
  | nil => simp
  | cons a L ih =>
    rw [lsum_cons] at h
    have h1 := mul_self_nonneg (f a)
    have h2 := lsum_sq_nonneg L f
    intro b hb
    rcases List.mem_cons.1 hb with rfl | hb
    · exact mul_self_eq_zero.1 (by linarith)
    · exact ih (by linarith) b hb

/-- The normal equations of the line `m t + b`. -/
def Normal (L : List (K × K)) (m b : K) : Prop :=
  lsum L (fun p => p.2 - (m * p.1 + b)) = 0 ∧ lsum L (fun p => p.1 * (p.2 - (m * p.1 + b))) = 0

omit [LinearOrder K] [IsStrictOrderedRing K] in
theorem sum_resid (L : List (K × K)) (m b : K) :
    lsum L (fun p => p.2 - (m * p.1 + b)) =
      lsum L (fun p => p.2) - m * lsum L (fun p => p.1) - L.length * b := by
  induction L with
  | nil => simp
  | cons a L ih => simp only [lsum_cons, ih, List.length_cons]; push_cast; ring

omit [LinearOrder K] [IsStrictOrderedRing K] in
theorem sum_mom (L : List (K × K)) (m b : K) :
    lsum L (fun p => p.1 * (p.2 - (m * p.1 + b))) =
      lsum L (fun p => p.1 * p.2) - m * lsum L (fun p => p.1 * p.1) - b * lsum L (fun p => p.1) := by
  induction L with
  | nil => simp
  | cons a L ih => simp only [lsum_cons, ih]; ring

/-- The determinant of the normal equations is `n` times the spread of the times. -/
theorem det_spread {L : List (K × K)} (hne : L ≠ []) :
    (L.length : K) * lsum L (fun p => p.1 * p.1) - lsum L (fun p => p.1) * lsum L (fun p => p.1) =
      L.length * lsum L (fun p => (p.1 - lsum L (fun p => p.1) / L.length) *
        (p.1 - lsum L (fun p => p.1) / L.length)) := by
  have hn : (L.length : K) ≠ 0 := by
    rw [Nat.cast_ne_zero]
    exact fun h => hne (List.length_eq_zero_iff.1 h)
  generalize hc : lsum L (fun p => p.1) / (L.length : K) = c
  have key : ∀ M : List (K × K), lsum M (fun p => (p.1 - c) * (p.1 - c)) =
      lsum M (fun p => p.1 * p.1) - 2 * c * lsum M (fun p => p.1) + M.length * (c * c) := by
    intro M
    induction M with
    | nil => simp
    | cons a M ih => simp only [lsum_cons, ih, List.length_cons]; push_cast; ring
  rw [key]
  have hs : lsum L (fun p => p.1) = L.length * c := by rw [← hc]; field_simp
  rw [hs]; ring

/-- Two lines that both satisfy the normal equations agree at every sample time. -/
theorem normal_unique {L : List (K × K)} {m b m' b' : K} (h : Normal L m b) (h' : Normal L m' b') :
    ∀ p ∈ L, m * p.1 + b = m' * p.1 + b' := by
  have hz : lsum L (fun p => ((m - m') * p.1 + (b - b')) * ((m - m') * p.1 + (b - b'))) = 0 := by
    have e : lsum L (fun p => ((m - m') * p.1 + (b - b')) * ((m - m') * p.1 + (b - b'))) =
        (m - m') * (lsum L (fun p => p.1 * (p.2 - (m' * p.1 + b'))) -
          lsum L (fun p => p.1 * (p.2 - (m * p.1 + b)))) +
        (b - b') * (lsum L (fun p => p.2 - (m' * p.1 + b')) -
          lsum L (fun p => p.2 - (m * p.1 + b))) := by
      clear h h'
      induction L with
      | nil => simp
      | cons a L ih => simp only [lsum_cons, ih]; ring
    rw [e, h.1, h.2, h'.1, h'.2]; ring
  intro p hp
  linear_combination lsum_sq_eq_zero hz p hp

omit [LinearOrder K] [IsStrictOrderedRing K] in
/-- A line satisfying the normal equations has the least sum of squared deviations. -/
theorem normal_min {L : List (K × K)} {m b : K} (h : Normal L m b) (m' b' : K) :
    lsum L (fun p => (p.2 - (m' * p.1 + b')) * (p.2 - (m' * p.1 + b'))) =
      lsum L (fun p => (p.2 - (m * p.1 + b)) * (p.2 - (m * p.1 + b))) +
        lsum L (fun p => ((m - m') * p.1 + (b - b')) * ((m - m') * p.1 + (b - b'))) := by
  have e : lsum L (fun p => (p.2 - (m' * p.1 + b')) * (p.2 - (m' * p.1 + b'))) =
      lsum L (fun p => (p.2 - (m * p.1 + b)) * (p.2 - (m * p.1 + b))) +
        lsum L (fun p => ((m - m') * p.1 + (b - b')) * ((m - m') * p.1 + (b - b'))) +
        2 * ((m - m') * lsum L (fun p => p.1 * (p.2 - (m * p.1 + b))) +
          (b - b') * lsum L (fun p => p.2 - (m * p.1 + b))) := by
    clear h
    induction L with
    | nil => simp
    | cons a L ih => simp only [lsum_cons, ih]; ring
  rw [e, h.1, h.2]; ring

/-- Slope and intercept of `fitLine` satisfy the normal equations. -/
theorem fitLine_normal {times : List K} {L : List (K × K)} (hne : L ≠ [])
    (ht : ∃ t ∈ times, t ≠ 0) :
    ∃ m b, fitLine times L = (.fin m, .fin b) ∧ Normal L m b := by
  have hn : (L.length : K) ≠ 0 := by
    rw [Nat.cast_ne_zero]
    exact fun h => hne (List.length_eq_zero_iff.1 h)
  have hds := det_spread hne
  unfold fitLine
  change ∃ m b, (if (L.length : K) * lsum L (fun p => p.1 * p.1) -
      lsum L (fun p => p.1) * lsum L (fun p => p.1) ≠ 0 then _ else _) = _ ∧ _
  split
  · rename_i hdet
    refine ⟨_, _, rfl, ?_, ?_⟩
    · rw [sum_resid]
      change lsum L (fun p => p.2) - ((L.length * lsum L (fun p => p.1 * p.2) -
        lsum L (fun p => p.1) * lsum L (fun p => p.2)) / _) * lsum L (fun p => p.1) - _ * ((lsum L (fun p => p.2) - _ * lsum L (fun p => p.1)) / _) = 0
      rw [mul_div_cancel₀ _ hn]
      unfold lsum
      ring
    · rw [sum_mom]
      change lsum L (fun p => p.1 * p.2) - ((L.length * lsum L (fun p => p.1 * p.2) -
        lsum L (fun p => p.1) * lsum L (fun p => p.2)) / (_ * lsum L (fun p => p.1 * p.1) - lsum L (fun p => p.1) * lsum L (fun p => p.1))) *
        lsum L (fun p => p.1 * p.1) - ((lsum L (fun p => p.2) - ((L.length * lsum L (fun p => p.1 * p.2) -
        lsum L (fun p => p.1) * lsum L (fun p => p.2)) / (_ * lsum L (fun p => p.1 * p.1) - lsum L (fun p => p.1) * lsum L (fun p => p.1)))
         * lsum L (fun p => p.1)) / _) * lsum L (fun p => p.1) = 0
      generalize lsum L (fun p => p.1) = st at *
      generalize lsum L (fun p => p.1 * p.1) = stt at *
      generalize lsum L (fun p => p.1 * p.2) = stv at *
      generalize lsum L (fun p => p.2) = sv at *
      generalize hm : ((L.length : K) * stv - st * sv) / (L.length * stt - st * st) = m
      rw [div_eq_iff hdet] at hm
      have : (L.length : K) * (stv - m * stt - (sv - m * st) / L.length * st) = 0 := by
        field_simp
        linear_combination hm
      exact (mul_eq_zero.1 this).resolve_left hn
  · rename_i hdet
    rw [not_not, hds, mul_eq_zero, or_iff_right hn] at hdet
    have hall := lsum_sq_eq_zero hdet
    set t0 := lsum L (fun p => p.1) / (L.length : K) with ht0
    have hs1 : 0 < lsum times (fun t => t * t) := by
      refine lt_of_le_of_ne (lsum_sq_nonneg _ _) (fun h => ?_)
      obtain ⟨t, htm, htn⟩ := ht
      exact htn (lsum_sq_eq_zero (f := fun t => t) h.symm t htm)
    have hd : t0 * t0 * (times.length : K) + lsum times (fun t => t * t) ≠ 0 :=
      ne_of_gt (add_pos_of_nonneg_of_pos
        (mul_nonneg (mul_self_nonneg _) (Nat.cast_nonneg _)) hs1)
    change ∃ m b, (if t0 * t0 * (times.length : K) + lsum times (fun t => t * t) = 0 then _ else
      (Fl.fin (lsum L (fun p => p.2) / L.length * t0 * times.length /
          (t0 * t0 * (times.length : K) + lsum times (fun t => t * t))),
        Fl.fin (lsum L (fun p => p.2) / L.length * lsum times (fun t => t * t) /
          (t0 * t0 * (times.length : K) + lsum times (fun t => t * t))))) = _ ∧ _
    rw [if_neg hd]
    refine ⟨_, _, rfl, ?_⟩
    have hval : ∀ m b, m * t0 + b = lsum L (fun p => p.2) / L.length → Normal L m b := by
      intro m b hmb
      have e : ∀ p ∈ L, p.2 - (m * p.1 + b) = p.2 - lsum L (fun p => p.2) / L.length := by
        intro p hp
        have := hall p hp
        rw [sub_eq_zero] at this
        rw [this, hmb]
      have h0 : lsum L (fun p => p.2 - lsum L (fun p => p.2) / (L.length : K)) = 0 := by
        have := sum_resid L 0 (lsum L (fun p => p.2) / (L.length : K))
        simp only [zero_mul, zero_add, sub_zero] at this
        rw [this]; field_simp; ring
      constructor
      · rw [lsum_congr e, h0]
      · have : ∀ p ∈ L, p.1 * (p.2 - (m * p.1 + b)) =
            t0 * (p.2 - lsum L (fun p => p.2) / L.length) := by
          intro p hp
          rw [e p hp]
          have := hall p hp
          rw [sub_eq_zero] at this
          rw [this]
        rw [lsum_congr this, lsum_mul, h0, mul_zero]
    apply hval
    generalize lsum times (fun t => t * t) = s1 at *
    generalize lsum L (fun p => p.2) / (L.length : K) = v
    rw [show v * t0 * times.length / (t0 * t0 * times.length + s1) * t0 +
        v * s1 / (t0 * t0 * times.length + s1) =
        v * (t0 * t0 * times.length + s1) / (t0 * t0 * times.length + s1) by ring]
    exact mul_div_cancel_right₀ v hd

end Momlevel
