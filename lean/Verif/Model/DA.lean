import Verif.Model.Fl
import Mathlib.Logic.Function.Basic

/-!
# Named-dimension arrays

Model of the part of `xarray.DataArray` / `xarray.Dataset` that momlevel uses.  An array has an
ordered list of (dimension name, size) pairs and assigns a value to every index environment
(dimension name ↦ index).  Broadcasting by dimension name is then just evaluating both operands
in the same environment.

Simplification: coordinate labels of shared dimensions are assumed identical (no inner-join
alignment); attributes, names and encodings are modelled separately where a property needs them.
-/

set_option linter.unusedSectionVars false

namespace Momlevel

/-- An index environment: which index to use along each named dimension. -/
abbrev Env := String → Nat

/-- Model of `xarray.DataArray`. -/
structure DA (V : Type*) where
  dims : List (String × Nat)
  get : Env → V

namespace DA

variable {V W U : Type*}

/-- `arr.dims` -/
def dimNames (a : DA V) : List String := a.dims.map Prod.fst

/-- `len(arr.dims)` -/
def ndim (a : DA V) : Nat := a.dims.length

/-- Size of a dimension (0 if absent). -/
def size (a : DA V) (d : String) : Nat := ((a.dims.find? (fun p => p.1 == d)).map Prod.snd).getD 0

/-- The environment indexes the array within bounds. -/
def InBounds (a : DA V) (e : Env) : Prop := ∀ p ∈ a.dims, e p.1 < p.2

/-- The value depends only on the array's own dimensions (true of every xarray object). -/
def WF (a : DA V) : Prop := ∀ e e' : Env, (∀ d ∈ a.dimNames, e d = e' d) → a.get e = a.get e'

/-- A scalar (0-dimensional) array / Python number. -/
def scalar (v : V) : DA V := ⟨[], fun _ => v⟩

/-- Elementwise function. -/
def map (f : V → W) (a : DA V) : DA W := ⟨a.dims, fun e => f (a.get e)⟩

/-- Dimensions of a broadcast of two operands: those of the first, then the new ones of the second. -/
def bdims (a : List (String × Nat)) (b : List (String × Nat)) : List (String × Nat) :=
  a ++ b.filter (fun p => !(a.map Prod.fst).contains p.1)

/-- Elementwise binary operation with broadcasting by name. -/
def zip (f : V → W → U) (a : DA V) (b : DA W) : DA U :=
  ⟨bdims a.dims b.dims, fun e => f (a.get e) (b.get e)⟩

/-- Elementwise ternary operation with broadcasting by name (`xr.where`, `apply_ufunc`). -/
def zip3 {X : Type*} (f : V → W → U → X) (a : DA V) (b : DA W) (c : DA U) : DA X :=
  ⟨bdims (bdims a.dims b.dims) c.dims, fun e => f (a.get e) (b.get e) (c.get e)⟩

/-- `arr.isel({d: i})`; the caller checks that `d` is a dimension and `i` in range. -/
def isel (a : DA V) (d : String) (i : Nat) : DA V :=
  ⟨a.dims.filter (fun p => p.1 != d), fun e => a.get (Function.update e d i)⟩

/-- `arr.squeeze()`: drop all dimensions of size 1. -/
def squeeze (a : DA V) : DA V :=
  ⟨a.dims.filter (fun p => p.2 != 1),
   fun e => a.get (fun d => if (d, 1) ∈ a.dims then 0 else e d)⟩

/-- All index environments of a dimension list (other dimensions at 0). -/
def envs : List (String × Nat) → List Env
  | [] => [fun _ => 0]
  | (d, n) :: ds => (envs ds).flatMap (fun e => (List.range n).map (fun i => Function.update e d i))

/-- All values, in some order (`arr.values.ravel()` up to order). -/
def vals (a : DA V) : List V := (envs a.dims).map a.get

/-- `np.all(pred(arr))` -/
def all (p : V → Bool) (a : DA V) : Bool := a.vals.all p

/-- `arr.transpose(d, ...)`: move `d` to the front; values are unaffected. -/
def transposeFirst (a : DA V) (d : String) : DA V :=
  ⟨a.dims.filter (fun p => p.1 == d) ++ a.dims.filter (fun p => p.1 != d), a.get⟩

variable {K : Type*} [Field K] [LinearOrder K]

/-- `arr.sum(d)` (skipna). -/
def sumDim (a : DA (Fl K)) (d : String) : DA (Fl K) :=
  ⟨a.dims.filter (fun p => p.1 != d),
   fun e => Fl.nansumN (a.size d) (fun i => a.get (Function.update e d i))⟩

/-- `arr.sum(ds)` (skipna) over several dimensions: missing values count as zero. -/
def sumDims (a : DA (Fl K)) (ds : List String) : DA (Fl K) :=
  ⟨a.dims.filter (fun p => !ds.contains p.1),
   fun e => Fl.nansum
     ((envs (a.dims.filter (fun p => ds.contains p.1))).map
       (fun e' => a.get (fun d => if ds.contains d then e' d else e d)))⟩

/-- `arr.sum()` (skipna) over all dimensions. -/
def sumAll (a : DA (Fl K)) : DA (Fl K) := ⟨[], fun _ => Fl.nansum a.vals⟩

theorem size_of_mem_aux {l : List (String × Nat)} (hn : (l.map Prod.fst).Nodup) {p : String × Nat}
    (hp : p ∈ l) : ((l.find? (fun q => q.1 == p.1)).map Prod.snd).getD 0 = p.2 := by
  induction l with
  | nil => simp at hp
  | cons q l ih =>
    simp only [List.map_cons, List.nodup_cons] at hn
    rcases List.mem_cons.1 hp with rfl | hp
    · simp
    · have hne : (q.1 == p.1) = false := by
        rw [beq_eq_false_iff_ne]
        intro e
        exact hn.1 (e ▸ List.mem_map_of_mem hp)
      rw [List.find?_cons, hne]
      exact ih hn.2 hp

/-- With distinct names, `size` is the size listed with the name. -/
theorem size_of_mem {a : DA V} (hn : a.dimNames.Nodup) {p : String × Nat}
    (hp : p ∈ a.dims) : a.size p.1 = p.2 := size_of_mem_aux hn hp

@[simp] theorem get_map (f : V → W) (a : DA V) (e : Env) : (a.map f).get e = f (a.get e) := rfl
@[simp] theorem dims_map (f : V → W) (a : DA V) : (a.map f).dims = a.dims := rfl
@[simp] theorem get_zip (f : V → W → U) (a : DA V) (b : DA W) (e : Env) :
    (zip f a b).get e = f (a.get e) (b.get e) := rfl
@[simp] theorem get_zip3 {X : Type*} (f : V → W → U → X) (a : DA V) (b : DA W) (c : DA U) (e : Env) :
    (zip3 f a b c).get e = f (a.get e) (b.get e) (c.get e) := rfl
@[simp] theorem get_scalar (v : V) (e : Env) : (scalar v).get e = v := rfl
@[simp] theorem get_isel (a : DA V) (d : String) (i : Nat) (e : Env) :
    (a.isel d i).get e = a.get (Function.update e d i) := rfl

instance : Add (DA (Fl K)) := ⟨zip (· + ·)⟩
instance : Sub (DA (Fl K)) := ⟨zip (· - ·)⟩
instance : Mul (DA (Fl K)) := ⟨zip (· * ·)⟩
instance : Div (DA (Fl K)) := ⟨zip (· / ·)⟩
instance : Neg (DA (Fl K)) := ⟨map (fun x => -x)⟩

@[simp] theorem get_add (a b : DA (Fl K)) (e : Env) : (a + b).get e = a.get e + b.get e := rfl
@[simp] theorem get_sub (a b : DA (Fl K)) (e : Env) : (a - b).get e = a.get e - b.get e := rfl
@[simp] theorem get_mul (a b : DA (Fl K)) (e : Env) : (a * b).get e = a.get e * b.get e := rfl
@[simp] theorem get_div (a b : DA (Fl K)) (e : Env) : (a / b).get e = a.get e / b.get e := rfl
@[simp] theorem get_neg (a : DA (Fl K)) (e : Env) : (-a).get e = -(a.get e) := rfl

end DA

end Momlevel
