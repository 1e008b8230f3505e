import Verif.Lemmas.Rounding

/-!
# Signs of polynomials on a box

Polynomials in three variables as nested coefficient lists.  A polynomial is non-negative on a box if
its coefficients in the basis of products of the distances to the ends of the box are (Bernstein
form).  The check is evaluated by the kernel; `Ex.nonneg_sound` says what it proves.
-/

set_option linter.unusedSectionVars false

namespace Momlevel.Bern

/-- What is needed of coefficients. -/
class Coef (R : Type) where
  zero : R
  add : R → R → R
  mul : R → R → R
  smul : ℚ → R → R

instance : Coef ℚ := ⟨0, (· + ·), (· * ·), (· * ·)⟩

section
variable {R : Type} [Coef R]

def padd : List R → List R → List R
  | [], q => q
  | a :: p, [] => a :: p
  | a :: p, b :: q => Coef.add a b :: padd p q

def pmul : List R → List R → List R
  | [], _ => []
  | a :: p, q => padd (q.map (Coef.mul a)) (Coef.zero :: pmul p q)

instance : Coef (List R) := ⟨[], padd, pmul, fun c p => p.map (Coef.smul c)⟩

/-- Multiply the form `Σ hᵢ uⁱ vⁿ⁻ⁱ` by `a v + b u`. -/
def mulLin (a b : ℚ) : List R → List R
  | [] => []
  | h :: t => Coef.smul a h :: go b a h t
where
  /-- the remaining coefficients; `c` is the previous one -/
  go (b a : ℚ) (c : R) : List R → List R
  | [] => [Coef.smul b c]
  | h :: t => Coef.add (Coef.smul a h) (Coef.smul b c) :: go b a h t

/-- `c (u + v)ⁿ` -/
def pow1 (c : R) : ℕ → List R
  | 0 => [c]
  | n + 1 => mulLin 1 1 (pow1 c n)

/-- Bernstein form on `[lo, hi]`, up to the factor `(hi - lo)ⁿ`. -/
def bern (lo hi : ℚ) : List R → List R
  | [] => []
  | c :: t => padd (pow1 c t.length) (mulLin lo hi (bern lo hi t))

end

/-- Evaluation of coefficients: a homomorphism. -/
structure Ev {R : Type} [Coef R] (ev : R → ℝ) : Prop where
  zero : ev Coef.zero = 0
  add : ∀ a b, ev (Coef.add a b) = ev a + ev b
  mul : ∀ a b, ev (Coef.mul a b) = ev a * ev b
  smul : ∀ q a, ev (Coef.smul q a) = q * ev a

theorem ev_rat : Ev (fun q : ℚ => (q : ℝ)) :=
  ⟨Rat.cast_zero, fun _ _ => Rat.cast_add _ _, fun _ _ => Rat.cast_mul _ _, fun _ _ => Rat.cast_mul _ _⟩

section
variable {R : Type} [Coef R] {ev : R → ℝ}

/-- Value of a polynomial. -/
def leval (ev : R → ℝ) (x : ℝ) : List R → ℝ
  | [] => 0
  | c :: t => ev c + x * leval ev x t

/-- Value of a form. -/
def heval (ev : R → ℝ) (u v : ℝ) : List R → ℝ
  | [] => 0
  | c :: t => ev c * v ^ t.length + u * heval ev u v t

theorem leval_padd (E : Ev ev) (x : ℝ) : ∀ p q : List R, leval ev x (padd p q) = leval ev x p + leval ev x q
  | [], q => by simp [padd, leval]
  | a :: p, [] => by simp [padd, leval]
  | a :: p, b :: q => by
    simp only [padd, leval, E.add, leval_padd E x p q]; ring

theorem leval_map (x c : ℝ) (f : R → R) (hf : ∀ a, ev (f a) = c * ev a) :
    ∀ p : List R, leval ev x (p.map f) = c * leval ev x p
  | [] => by simp [leval]
  | a :: p => by simp only [List.map_cons, leval, hf, leval_map x c f hf p]; ring

theorem leval_pmul (E : Ev ev) (x : ℝ) : ∀ p q : List R, leval ev x (pmul p q) = leval ev x p * leval ev x q
  | [], q => by simp [pmul, leval]
  | a :: p, q => by
    simp only [pmul, leval_padd E, leval, E.zero, leval_pmul E x p q,
      leval_map x (ev a) _ (fun b => E.mul a b)]
    ring

theorem ev_list (E : Ev ev) (x : ℝ) : Ev (leval ev x) :=
  ⟨rfl, leval_padd E x, leval_pmul E x, fun q _ => leval_map x q _ (fun a => E.smul q a) _⟩

theorem length_go (b a : ℚ) : ∀ (c : R) (t : List R), (mulLin.go b a c t).length = t.length + 1
  | _, [] => rfl
  | _, h :: t => by simp [mulLin.go, length_go b a h t]

theorem heval_go (E : Ev ev) (u v : ℝ) (b a : ℚ) : ∀ (c : R) (t : List R),
    heval ev u v (mulLin.go b a c t) = b * ev c * v ^ t.length + (a * v + b * u) * heval ev u v t
  | c, [] => by simp [mulLin.go, heval, E.smul]
  | c, h :: t => by
    simp only [mulLin.go, heval, E.add, E.smul, length_go, heval_go E u v b a h t, List.length_cons, pow_succ]
    ring

theorem heval_mulLin (E : Ev ev) (u v : ℝ) (a b : ℚ) : ∀ h : List R,
    heval ev u v (mulLin a b h) = (a * v + b * u) * heval ev u v h
  | [] => by simp [mulLin, heval]
  | h :: t => by
    simp only [mulLin, heval, E.smul, length_go, heval_go E u v b a h t, pow_succ]
    ring

theorem length_mulLin (a b : ℚ) (h : List R) (hne : h ≠ []) : (mulLin a b h).length = h.length + 1 := by
  cases h with
  | nil => exact absurd rfl hne
  | cons x t => simp [mulLin, length_go]

theorem length_pow1 (c : R) : ∀ n, (pow1 c n).length = n + 1
  | 0 => rfl
  | n + 1 => by
    rw [pow1, length_mulLin _ _ _ (by intro h; have := length_pow1 c n; rw [h] at this; simp at this), length_pow1 c n]

theorem heval_pow1 (E : Ev ev) (u v : ℝ) (c : R) : ∀ n, heval ev u v (pow1 c n) = ev c * (u + v) ^ n
  | 0 => by simp [pow1, heval]
  | n + 1 => by
    rw [pow1, heval_mulLin E, heval_pow1 E u v c n, pow_succ]
    push_cast
    ring

theorem length_padd : ∀ p q : List R, p.length = q.length → (padd p q).length = p.length
  | [], q, h => by simpa [padd] using h.symm
  | a :: p, [], h => by simp at h
  | a :: p, b :: q, h => by simp [padd, length_padd p q (by simpa using h)]

theorem heval_padd (E : Ev ev) (u v : ℝ) : ∀ p q : List R, p.length = q.length →
    heval ev u v (padd p q) = heval ev u v p + heval ev u v q
  | [], [], _ => by simp [padd, heval]
  | [], b :: q, h => by simp at h
  | a :: p, [], h => by simp at h
  | a :: p, b :: q, h => by
    have hl : p.length = q.length := by simpa using h
    simp only [padd, heval, E.add, heval_padd E u v p q hl, length_padd p q hl, ← hl]; ring

theorem length_bern (lo hi : ℚ) : ∀ p : List R, (bern lo hi p).length = p.length
  | [] => rfl
  | c :: t => by
    rw [bern]
    by_cases ht : t = []
    · subst ht; rfl
    · have hb := length_bern lo hi t
      have hne : bern lo hi t ≠ [] := by
        intro h; rw [h] at hb; exact ht (List.length_eq_zero_iff.1 hb.symm)
      rw [length_padd _ _ (by rw [length_pow1, length_mulLin _ _ _ hne, hb]), length_pow1]
      simp

theorem heval_bern (E : Ev ev) {lo hi : ℚ} {x : ℝ} : ∀ p : List R,
    heval ev (x - lo) (hi - x) (bern lo hi p) * (hi - lo) = (hi - lo : ℝ) ^ p.length * leval ev x p
  | [] => by simp [bern, heval, leval]
  | [c] => by simp [bern, heval, leval, padd, pow1, mulLin]; ring
  | c :: d :: t => by
    have ih := heval_bern E (lo := lo) (hi := hi) (x := x) (d :: t)
    rw [bern]
    have hne : bern lo hi (d :: t) ≠ [] := by
      intro h; have := length_bern (R := R) lo hi (d :: t); rw [h] at this; simp at this
    rw [heval_padd E _ _ _ _ (by rw [length_pow1, length_mulLin _ _ _ hne, length_bern]), heval_pow1 E,
      heval_mulLin E, leval]
    have : (x - lo + (hi - x) : ℝ) = hi - lo := by ring
    have h2 : ((lo : ℝ) * (hi - x) + hi * (x - lo)) = (hi - lo) * x := by ring
    rw [this, h2, add_mul, mul_assoc ((hi - lo : ℝ) * x), ih]
    simp only [List.length_cons, pow_succ]
    ring

/-- A form with non-negative coefficients. -/
theorem heval_nonneg {u v : ℝ} (hu : 0 ≤ u) (hv : 0 ≤ v) : ∀ p : List R, (∀ c ∈ p, 0 ≤ ev c) → 0 ≤ heval ev u v p
  | [], _ => le_rfl
  | c :: t, h => add_nonneg (mul_nonneg (h c (by simp)) (pow_nonneg hv _))
      (mul_nonneg hu (heval_nonneg hu hv t (fun d hd => h d (by simp [hd]))))

theorem leval_nonneg (E : Ev ev) {lo hi : ℚ} (hlt : lo < hi) {x : ℝ} (h1 : (lo : ℝ) ≤ x) (h2 : x ≤ hi) (p : List R)
    (h : ∀ c ∈ bern lo hi p, 0 ≤ ev c) : 0 ≤ leval ev x p := by
  have hw : (0 : ℝ) < hi - lo := by have : (lo : ℝ) < hi := by exact_mod_cast hlt
                                    linarith
  have h3 := heval_bern E (lo := lo) (hi := hi) (x := x) p
  have h4 := heval_nonneg (ev := ev) (sub_nonneg.2 h1) (sub_nonneg.2 h2) _ h
  have h5 : 0 ≤ (hi - lo : ℝ) ^ p.length * leval ev x p := by rw [← h3]; exact mul_nonneg h4 hw.le
  exact nonneg_of_mul_nonneg_right h5 (pow_pos hw _)

end

/-- Polynomials in three variables. -/
abbrev P3 := List (List (List ℚ))

/-- Value of a polynomial in three variables. -/
noncomputable def eval3 (v : ℕ → ℝ) (p : P3) : ℝ := leval (leval (leval (fun q : ℚ => (q : ℝ)) (v 2)) (v 1)) (v 0) p

theorem ev3 (v : ℕ → ℝ) : Ev (eval3 v) := ev_list (ev_list (ev_list ev_rat _) _) _

/-- Non-negative by its Bernstein coefficients on a box. -/
def nonneg3 (b : ℕ → ℚ × ℚ) (p : P3) : Bool :=
  (bern (b 0).1 (b 0).2 p).all fun q => (bern (b 1).1 (b 1).2 q).all fun r =>
    (bern (b 2).1 (b 2).2 r).all fun c => decide (0 ≤ c)

theorem nonneg3_sound {b : ℕ → ℚ × ℚ} {v : ℕ → ℝ} (hlt : ∀ i, (b i).1 < (b i).2)
    (hv : ∀ i, ((b i).1 : ℝ) ≤ v i ∧ v i ≤ (b i).2) (p : P3) (h : nonneg3 b p = true) : 0 ≤ eval3 v p := by
  simp only [nonneg3, List.all_eq_true, decide_eq_true_eq] at h
  refine leval_nonneg (ev_list (ev_list ev_rat _) _) (hlt 0) (hv 0).1 (hv 0).2 p (fun q hq => ?_)
  refine leval_nonneg (ev_list ev_rat _) (hlt 1) (hv 1).1 (hv 1).2 q (fun r hr => ?_)
  refine leval_nonneg ev_rat (hlt 2) (hv 2).1 (hv 2).2 r (fun c hc => ?_)
  exact_mod_cast h q hq r hr c hc

end Momlevel.Bern

namespace Momlevel.Ex
open Momlevel.Bern

/-- The polynomial of an expression without division in the variables 0, 1, 2. -/
def toPoly : Ex → Option P3
  | var 0 => some [[], [[1]]]
  | var 1 => some [[[], [1]]]
  | var 2 => some [[[0, 1]]]
  | var _ => none
  | lit m s e => some [[[(OfScientific.ofScientific m s e : ℚ)]]]
  | neg a => a.toPoly.map (Coef.smul (-1))
  | add a b => match a.toPoly, b.toPoly with
    | some p, some q => some (Coef.add p q)
    | _, _ => none
  | sub a b => match a.toPoly, b.toPoly with
    | some p, some q => some (Coef.add p (Coef.smul (-1) q))
    | _, _ => none
  | mul a b => match a.toPoly, b.toPoly with
    | some p, some q => some (Coef.mul p q)
    | _, _ => none
  | div _ _ => none

theorem toPoly_sound (v : ℕ → ℝ) : ∀ (e : Ex) (p : P3), e.toPoly = some p → eval3 v p = e.eval v
  | var 0, p, h => by cases h; simp [eval3, leval, eval]
  | var 1, p, h => by cases h; simp [eval3, leval, eval]
  | var 2, p, h => by cases h; simp [eval3, leval, eval]
  | var (n + 3), p, h => by simp [toPoly] at h
  | lit m s e, p, h => by
    cases h
    simp [eval3, leval, eval]
  | neg a, p, h => by
    simp only [toPoly, Option.map_eq_some_iff] at h
    obtain ⟨q, hq, rfl⟩ := h
    rw [(ev3 v).smul, toPoly_sound v a q hq]
    simp [eval]
  | add a b, p, h => by
    simp only [toPoly] at h
    split at h
    · rename_i q r hq hr
      cases h
      rw [(ev3 v).add, toPoly_sound v a q hq, toPoly_sound v b r hr]; rfl
    · cases h
  | sub a b, p, h => by
    simp only [toPoly] at h
    split at h
    · rename_i q r hq hr
      cases h
      rw [(ev3 v).add, (ev3 v).smul, toPoly_sound v a q hq, toPoly_sound v b r hr]
      simp only [eval]
      push_cast
      ring
    · cases h
  | mul a b, p, h => by
    simp only [toPoly] at h
    split at h
    · rename_i q r hq hr
      cases h
      rw [(ev3 v).mul, toPoly_sound v a q hq, toPoly_sound v b r hr]; rfl
    · cases h
  | div a b, p, h => by cases h

/-- The check: the expression is a polynomial, non-negative on the box. -/
def nonneg (b : ℕ → ℚ × ℚ) (e : Ex) : Bool :=
  match e.toPoly with
  | some p => nonneg3 b p
  | none => false

theorem nonneg_sound {b : ℕ → ℚ × ℚ} {v : ℕ → ℝ} (hlt : ∀ i, (b i).1 < (b i).2)
    (hv : ∀ i, ((b i).1 : ℝ) ≤ v i ∧ v i ≤ (b i).2) (e : Ex) (h : nonneg b e = true) : 0 ≤ e.eval v := by
  unfold nonneg at h
  split at h
  · rename_i p hp
    rw [← toPoly_sound v e p hp]
    exact nonneg3_sound hlt hv p h
  · cases h

end Momlevel.Ex
