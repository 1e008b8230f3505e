import Verif.Model.DA
import Verif.Model.PyStr

/-!
# Equations of state and their dispatch

Models `/repo/src/momlevel/eos/linear.py`, `/repo/src/momlevel/eos/wright.py` and
`eos_func_from_str` of `/repo/src/momlevel/util.py`.  The arithmetic is written once, polymorphic
in the number type: it is used at `ℝ` (calculus) and at `Fl K` (floats with NaN, elementwise).
-/

namespace Momlevel.Eos

/-- numpy dtype kind of an argument (only integer vs. floating matters). -/
inductive DType | float | int
  deriving DecidableEq, Repr

variable {α : Type*} [Add α] [Sub α] [Mul α] [Div α] [Neg α] [OfScientific α]

namespace Wright

-- constants: eos/wright.py:6-20
def A0 : α := 7.057924e-4
def A1 : α := 3.480336e-7
def A2 : α := -1.112733e-7
def B0 : α := 5.790749e8
def B1 : α := 3.516535e6
def B2 : α := -4.002714e4
def B3 : α := 2.084372e2
def B4 : α := 5.944068e5
def B5 : α := -9.643486e3
def C0 : α := 1.704853e5
def C1 : α := 7.904722e2
def C2 : α := -7.984422
def C3 : α := 5.140652e-2
def C4 : α := -2.302158e2
def C5 : α := -3.079464

/-- eos/wright.py:23-50 `density` -/
def density (T S p : α) : α :=
  let al0 := A0 + A1 * T + A2 * S
  let p0 := B0 + B4 * S + T * (B1 + T * (B2 + B3 * T) + B5 * S)
  let lam := C0 + C4 * S + T * (C1 + T * (C2 + C3 * T) + C5 * S)
  let I_denom := 1.0 / (lam + al0 * (p + p0))
  (p + p0) * I_denom

/-- eos/wright.py:53-85 `drho_dtemp` -/
def drho_dtemp (T S p : α) : α :=
  let al0 := A0 + A1 * T + A2 * S
  let p0 := B0 + B4 * S + T * (B1 + T * (B2 + B3 * T) + B5 * S)
  let lam := C0 + C4 * S + T * (C1 + T * (C2 + C3 * T) + C5 * S)
  let I_denom2 := 1.0 / (lam + al0 * (p + p0))
  let I_denom2 := I_denom2 * I_denom2
  I_denom2 * (
    lam * (B1 + T * (2.0 * B2 + 3.0 * B3 * T) + B5 * S)
    - (p + p0) * ((p + p0) * A1 + (C1 + T * (C2 * 2.0 + C3 * 3.0 * T) + C5 * S)))

/-- eos/wright.py:88-119 `drho_dsal` -/
def drho_dsal (T S p : α) : α :=
  let al0 := A0 + A1 * T + A2 * S
  let p0 := B0 + B4 * S + T * (B1 + T * (B2 + B3 * T) + B5 * S)
  let lam := C0 + C4 * S + T * (C1 + T * (C2 + C3 * T) + C5 * S)
  let I_denom2 := 1.0 / (lam + al0 * (p + p0))
  let I_denom2 := I_denom2 * I_denom2
  I_denom2 * (
    lam * (B4 + B5 * T) - (p + p0) * ((p + p0) * A2 + (C4 + C5 * T)))

/-- eos/wright.py:122-142 `alpha` -/
def alpha (T S p : α) : α := -1.0 * (drho_dtemp T S p / density T S p)

/-- eos/wright.py:145-165 `beta` -/
def beta (T S p : α) : α := drho_dsal T S p / density T S p

end Wright

namespace Linear

-- constants: eos/linear.py:17-23
def RHO_REF : α := 1035.0
def RHO_T0_S0 : α := 1000.0
def DRHO_DT : α := -0.2
def DRHO_DS : α := 0.8

/-- eos/linear.py:26-58 `density`; `p` is ignored by the code. -/
def density (T S : α) (_p : α) (rho_ref : Option α := none) : α :=
  let rho := match rho_ref with
    | none => RHO_T0_S0
    | some r => RHO_T0_S0 - r
  rho + ((DRHO_DT * T) + (DRHO_DS * S))

/-- eos/linear.py:61-84 `drho_dtemp` -/
def drho_dtemp (_T _S _p : α) : α := DRHO_DT

/-- eos/linear.py:87-110 `drho_dsal` -/
def drho_dsal (_T _S _p : α) : α := DRHO_DS

/-- `np.full_like(T, fill_value=v)` at one element: the result has the dtype of `T`, so for an
integer `T` the value is truncated towards zero; `v` must have absolute value below 1 here, which
holds for both uses (-0.2 and 0.8), so the truncation is `0.0`. -/
def fullLike (dt : DType) (v : α) : α :=
  match dt with
  | .float => v
  | .int => 0.0

/-- eos/linear.py:113-136 `alpha`; `dt` is the dtype of the array `T`. -/
def alpha (T S p : α) (dt : DType := .float) : α :=
  -1.0 * (fullLike dt DRHO_DT / density T S p)

/-- eos/linear.py:139-162 `beta`; `dt` is the dtype of the array `T`. -/
def beta (T S p : α) (dt : DType := .float) : α :=
  fullLike dt DRHO_DS / density T S p

end Linear

/-- An elementwise equation-of-state function of (T, S, p). -/
abbrev EosFn (α : Type*) := α → α → α → α

/-- The function called `func_name` of the module `eos.wright`, eos/wright.py.  Other attributes of
the module are not modelled (momlevel only asks for "density", "alpha" and "beta"). -/
def wrightFn (func_name : String) : Except PyErr (EosFn α) :=
  if func_name = "density" then .ok Wright.density
  else if func_name = "drho_dtemp" then .ok Wright.drho_dtemp
  else if func_name = "drho_dsal" then .ok Wright.drho_dsal
  else if func_name = "alpha" then .ok Wright.alpha
  else if func_name = "beta" then .ok Wright.beta
  else .error .keyError

/-- The function called `func_name` of the module `eos.linear`, eos/linear.py (arguments of
floating dtype). -/
def linearFn (func_name : String) : Except PyErr (EosFn α) :=
  if func_name = "density" then .ok (fun T S p => Linear.density T S p)
  else if func_name = "drho_dtemp" then .ok Linear.drho_dtemp
  else if func_name = "drho_dsal" then .ok Linear.drho_dsal
  else if func_name = "alpha" then .ok (fun T S p => Linear.alpha T S p)
  else if func_name = "beta" then .ok (fun T S p => Linear.beta T S p)
  else .error .keyError

/-- Keys of `momlevel.eos.__dict__` that are not the two equation-of-state modules and whose value
has no `__dict__` attribute (strings, a list, a dict), eos/__init__.py:1-4. -/
def dunderNoDict : List String :=
  ["__name__", "__doc__", "__package__", "__path__", "__file__", "__cached__", "__builtins__"]

/-- Keys of `momlevel.eos.__dict__` whose value has a `__dict__` without any function in it. -/
def dunderDict : List String := ["__loader__", "__spec__"]

/-- util.py:227-249 `eos_func_from_str`. -/
def eosFuncFromStr (eos_str : String) (func_name : String := "density") :
    Except PyErr (EosFn α) :=
  let eos_str := pyLower eos_str
  if eos_str = "linear".toList then linearFn func_name
  else if eos_str = "wright".toList then wrightFn func_name
  else if eos_str ∈ dunderNoDict.map String.toList then .error .attributeError
  else if eos_str ∈ dunderDict.map String.toList then .error .keyError
  else .error .valueError

end Momlevel.Eos
