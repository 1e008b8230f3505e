import Mathlib.Algebra.Order.Field.Basic
import Mathlib.Data.Rat.Cast.OfScientific
import Mathlib.Algebra.BigOperators.Group.Finset.Basic

/-!
# NaN-aware numbers

`Fl K` is the model of a (numpy / Python) floating point number.  The finite numbers are the
elements of a linearly ordered field `K` (`ℚ` or `ℝ`); NaN and the two infinities are kept.
Simplifications (see DESIGN.md): no rounding, no overflow, no signed zero (a zero divisor counts
as `+0`).  These are the arithmetic rules every numeric function in
`/repo/src/momlevel/*.py` relies on.
-/

set_option linter.unusedSectionVars false

namespace Momlevel

/-- The exceptions raised by the modelled code (Python exception classes). -/
inductive PyErr
  | valueError | assertionError | keyError | typeError | indexError
  | zeroDivisionError | attributeError
  deriving DecidableEq, Repr

/-- `assert b` (used throughout /repo/src/momlevel). -/
def pyAssert (b : Bool) : Except PyErr Unit :=
  if b then .ok () else .error .assertionError

@[simp] theorem ok_bind {α β : Type _} (a : α) (f : α → Except PyErr β) :
    (Except.ok a >>= f) = f a := rfl
@[simp] theorem error_bind {α β : Type _} (e : PyErr) (f : α → Except PyErr β) :
    ((Except.error e : Except PyErr α) >>= f) = Except.error e := rfl
@[simp] theorem pyAssert_true : pyAssert true = .ok () := rfl
@[simp] theorem pyAssert_false : pyAssert false = .error .assertionError := rfl

/-- A floating point value: NaN, minus/plus infinity or a finite number. -/
inductive Fl (K : Type*)
  | nan | ninf | fin (x : K) | pinf
  deriving DecidableEq, Repr

namespace Fl

variable {K : Type*}

section ops
variable [Field K] [LinearOrder K]

/-- The infinity with the sign of `x`; `0 * inf` and `0 / 0` are NaN. -/
def infOfSign (x : K) : Fl K := if 0 < x then pinf else if x < 0 then ninf else nan

/-- IEEE addition without rounding. -/
protected def add : Fl K → Fl K → Fl K
  | nan, _ => nan
  | _, nan => nan
  | fin a, fin b => fin (a + b)
  | pinf, ninf => nan
  | ninf, pinf => nan
  | pinf, _ => pinf
  | _, pinf => pinf
  | ninf, _ => ninf
  | _, ninf => ninf

/-- IEEE negation. -/
protected def neg : Fl K → Fl K
  | nan => nan
  | fin a => fin (-a)
  | pinf => ninf
  | ninf => pinf

/-- IEEE multiplication without rounding. -/
protected def mul : Fl K → Fl K → Fl K
  | nan, _ => nan
  | _, nan => nan
  | fin a, fin b => fin (a * b)
  | fin a, pinf => infOfSign a
  | pinf, fin a => infOfSign a
  | fin a, ninf => infOfSign (-a)
  | ninf, fin a => infOfSign (-a)
  | pinf, pinf => pinf
  | ninf, ninf => pinf
  | pinf, ninf => ninf
  | ninf, pinf => ninf

/-- numpy division (division by zero gives an infinity or NaN; a zero divisor counts as `+0`). -/
protected def div : Fl K → Fl K → Fl K
  | nan, _ => nan
  | _, nan => nan
  | fin a, fin b => if b = 0 then infOfSign a else fin (a / b)
  | fin _, pinf => fin 0
  | fin _, ninf => fin 0
  | pinf, fin b => if b < 0 then ninf else pinf
  | ninf, fin b => if b < 0 then pinf else ninf
  | pinf, pinf => nan
  | ninf, ninf => nan
  | pinf, ninf => nan
  | ninf, pinf => nan

instance : Add (Fl K) := ⟨Fl.add⟩
instance : Neg (Fl K) := ⟨Fl.neg⟩
instance : Sub (Fl K) := ⟨fun a b => Fl.add a (Fl.neg b)⟩
instance : Mul (Fl K) := ⟨Fl.mul⟩
instance : Div (Fl K) := ⟨Fl.div⟩
instance : OfScientific (Fl K) := ⟨fun m s e => fin (OfScientific.ofScientific m s e)⟩
instance (n : Nat) [OfNat K n] : OfNat (Fl K) n := ⟨fin (OfNat.ofNat n)⟩

/-- `a < b` as numpy evaluates it: False whenever an operand is NaN. -/
def lt : Fl K → Fl K → Bool
  | nan, _ => false
  | _, nan => false
  | fin a, fin b => decide (a < b)
  | ninf, ninf => false
  | ninf, _ => true
  | _, ninf => false
  | _, pinf => true
  | pinf, fin _ => false

/-- `a <= b` as numpy evaluates it: False whenever an operand is NaN. -/
def le : Fl K → Fl K → Bool
  | nan, _ => false
  | _, nan => false
  | fin a, fin b => decide (a ≤ b)
  | ninf, _ => true
  | _, pinf => true
  | _, ninf => false
  | pinf, fin _ => false

/-- `a == b` as numpy evaluates it: False whenever an operand is NaN. -/
def eqv : Fl K → Fl K → Bool
  | nan, _ => false
  | _, nan => false
  | fin a, fin b => decide (a = b)
  | ninf, ninf => true
  | pinf, pinf => true
  | _, _ => false

/-- `np.minimum`: NaN if either operand is NaN. -/
def minimum (a b : Fl K) : Fl K :=
  match a, b with
  | nan, _ => nan
  | _, nan => nan
  | a, b => if le a b then a else b

/-- `np.abs`. -/
def abs : Fl K → Fl K
  | nan => nan
  | fin a => fin |a|
  | pinf => pinf
  | ninf => pinf

end ops

/-- `isnull()`. -/
def isnull : Fl K → Bool
  | nan => true
  | _ => false

/-- `notnull()`. -/
def notnull (x : Fl K) : Bool := !isnull x

/-- `fillna(v)`. -/
def fillna (v : Fl K) : Fl K → Fl K
  | nan => v
  | x => x

/-- `xr.where(c, a, b)` at one point. -/
def sel (c : Bool) (a b : Fl K) : Fl K := if c then a else b

/-- Apply a real function to finite numbers; NaN stays NaN.  Values at the infinities are supplied
explicitly. -/
def liftFn (f : K → Fl K) (atNinf atPinf : Fl K) : Fl K → Fl K
  | nan => nan
  | fin a => f a
  | pinf => atPinf
  | ninf => atNinf

section sums
variable [Field K] [LinearOrder K]

/-- `sum(skipna=True)` of a list: NaN entries count as zero (xarray's default for floats). -/
def nansum (l : List (Fl K)) : Fl K := (l.map (fillna (fin 0))).foldr (· + ·) (fin 0)

/-- `sum(skipna=True)` of `f 0, …, f (n-1)`. -/
def nansumN (n : Nat) (f : Nat → Fl K) : Fl K := nansum ((List.range n).map f)

end sums

/-! ### Basic evaluation lemmas (all by definition) -/
section lemmas
variable [Field K] [LinearOrder K]

@[simp] theorem fin_add (a b : K) : (fin a + fin b : Fl K) = fin (a + b) := rfl
@[simp] theorem nan_add (a : Fl K) : (nan + a : Fl K) = nan := rfl
@[simp] theorem add_nan (a : Fl K) : (a + nan : Fl K) = nan := by cases a <;> rfl
@[simp] theorem fin_mul (a b : K) : (fin a * fin b : Fl K) = fin (a * b) := rfl
@[simp] theorem nan_mul (a : Fl K) : (nan * a : Fl K) = nan := rfl
@[simp] theorem mul_nan (a : Fl K) : (a * nan : Fl K) = nan := by cases a <;> rfl
@[simp] theorem fin_neg (a : K) : (-(fin a) : Fl K) = fin (-a) := rfl
@[simp] theorem neg_nan : (-(nan) : Fl K) = nan := rfl
@[simp] theorem fin_sub (a b : K) : (fin a - fin b : Fl K) = fin (a - b) := by
  show Fl.add (fin a) (fin (-b)) = _
  rw [sub_eq_add_neg]; rfl
@[simp] theorem nan_sub (a : Fl K) : (nan - a : Fl K) = nan := rfl
@[simp] theorem sub_nan (a : Fl K) : (a - nan : Fl K) = nan := by cases a <;> rfl
theorem fin_div (a b : K) : (fin a / fin b : Fl K) = if b = 0 then infOfSign a else fin (a / b) := rfl
theorem fin_div_of_ne (a : K) {b : K} (h : b ≠ 0) : (fin a / fin b : Fl K) = fin (a / b) := by
  rw [fin_div, if_neg h]
@[simp] theorem nan_div (a : Fl K) : (nan / a : Fl K) = nan := rfl
@[simp] theorem div_nan (a : Fl K) : (a / nan : Fl K) = nan := by cases a <;> rfl
theorem ofSci (m : Nat) (s : Bool) (e : Nat) :
    (OfScientific.ofScientific m s e : Fl K) = fin (OfScientific.ofScientific m s e) := rfl
theorem ofNat_eq (n : Nat) [OfNat K n] : (OfNat.ofNat n : Fl K) = fin (OfNat.ofNat n) := rfl

@[simp] theorem lt_fin (a b : K) : lt (fin a) (fin b) = decide (a < b) := rfl
@[simp] theorem le_fin (a b : K) : le (fin a) (fin b) = decide (a ≤ b) := rfl
@[simp] theorem eqv_fin (a b : K) : eqv (fin a) (fin b) = decide (a = b) := rfl
@[simp] theorem lt_nan_left (a : Fl K) : lt nan a = false := rfl
@[simp] theorem lt_nan_right (a : Fl K) : lt a nan = false := by cases a <;> rfl
@[simp] theorem le_nan_left (a : Fl K) : le nan a = false := rfl
@[simp] theorem le_nan_right (a : Fl K) : le a nan = false := by cases a <;> rfl
@[simp] theorem eqv_nan_left (a : Fl K) : eqv nan a = false := rfl
@[simp] theorem eqv_nan_right (a : Fl K) : eqv a nan = false := by cases a <;> rfl
@[simp] theorem isnull_nan : isnull (nan : Fl K) = true := rfl
@[simp] theorem isnull_fin (a : K) : isnull (fin a) = false := rfl
@[simp] theorem isnull_pinf : isnull (pinf : Fl K) = false := rfl
@[simp] theorem isnull_ninf : isnull (ninf : Fl K) = false := rfl
theorem isnull_iff (x : Fl K) : isnull x = true ↔ x = nan := by cases x <;> simp [isnull]
theorem isnull_false_iff (x : Fl K) : isnull x = false ↔ x ≠ nan := by cases x <;> simp [isnull]
@[simp] theorem fillna_nan (v : Fl K) : fillna v nan = v := rfl
@[simp] theorem fillna_fin (v : Fl K) (a : K) : fillna v (fin a) = fin a := rfl
@[simp] theorem sel_true (a b : Fl K) : sel true a b = a := rfl
@[simp] theorem sel_false (a b : Fl K) : sel false a b = b := rfl
@[simp] theorem minimum_nan_left (a : Fl K) : minimum nan a = nan := rfl
@[simp] theorem minimum_nan_right (a : Fl K) : minimum a nan = nan := by cases a <;> rfl
@[simp] theorem abs_fin (a : K) : abs (fin a) = fin |a| := rfl
@[simp] theorem abs_nan : abs (nan : Fl K) = nan := rfl

@[simp] theorem minimum_fin (a b : K) : minimum (fin a) (fin b) = fin (min a b) := by
  by_cases h : a ≤ b <;> simp [minimum, le, h, min_def]

end lemmas

/-- Finite or missing: the value of an ordinary masked model output field. -/
def FN (x : Fl K) : Prop := x = nan ∨ ∃ a, x = fin a

/-- The number a skip-NaN sum uses for a value (missing counts as 0). -/
def val0 [Zero K] : Fl K → K
  | fin a => a
  | _ => 0

@[simp] theorem val0_fin [Zero K] (a : K) : val0 (fin a) = a := rfl
@[simp] theorem val0_nan [Zero K] : val0 (nan : Fl K) = 0 := rfl
@[simp] theorem FN_fin (a : K) : FN (fin a) := Or.inr ⟨a, rfl⟩
@[simp] theorem FN_nan : FN (nan : Fl K) := Or.inl rfl

section sumlemmas
variable [Field K] [LinearOrder K]

theorem fillna_zero_eq {x : Fl K} (h : FN x) : fillna (fin 0) x = fin (val0 x) := by
  rcases h with rfl | ⟨a, rfl⟩ <;> rfl

theorem nansum_nil : nansum ([] : List (Fl K)) = fin 0 := rfl

theorem nansum_cons (x : Fl K) (l : List (Fl K)) :
    nansum (x :: l) = fillna (fin 0) x + nansum l := rfl

theorem nansum_eq {l : List (Fl K)} (h : ∀ x ∈ l, FN x) :
    nansum l = fin ((l.map val0).sum) := by
  induction l with
  | nil => rfl
  | cons x l ih =>
    rw [nansum_cons, fillna_zero_eq (h x (by simp)), ih (fun y hy => h y (by simp [hy]))]
    simp

theorem sum_map_range {M : Type*} [AddCommMonoid M] (n : Nat) (g : Nat → M) :
    ((List.range n).map g).sum = ∑ i ∈ Finset.range n, g i := by
  induction n with
  | zero => simp
  | succ n ih => rw [List.range_succ, Finset.sum_range_succ, ← ih]; simp

theorem nansumN_eq {n : Nat} {f : Nat → Fl K} (h : ∀ i < n, FN (f i)) :
    nansumN n f = fin (∑ i ∈ Finset.range n, val0 (f i)) := by
  unfold nansumN
  rw [nansum_eq]
  · rw [List.map_map, sum_map_range]; rfl
  · intro x hx
    simp only [List.mem_map, List.mem_range] at hx
    obtain ⟨i, hi, rfl⟩ := hx
    exact h i hi

end sumlemmas

end Fl

end Momlevel
