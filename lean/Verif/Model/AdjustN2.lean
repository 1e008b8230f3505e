import Verif.Model.DA
import Mathlib.Analysis.Real.Sqrt
import Mathlib.Analysis.SpecialFunctions.Trigonometric.Basic

/-!
# Adjusted buoyancy frequency and wave speed

Models `adjust_negative_n2` and `calc_wave_speed` of `/repo/src/momlevel/derived.py`.
-/

set_option linter.unusedSectionVars false

namespace Momlevel

variable {K : Type} [Field K] [LinearOrder K]

/-- `ffill` along one line: the last non-missing value at or before the position. -/
def ffillAt (f : Nat → Fl K) : Nat → Fl K
  | 0 => f 0
  | k + 1 => if Fl.isnull (f (k + 1)) then ffillAt f k else f (k + 1)

/-- `arr.ffill(d)`; an unknown dimension is rejected by xarray (ValueError). -/
def ffill (a : DA (Fl K)) (d : String) : Except PyErr (DA (Fl K)) :=
  if d ∈ a.dimNames then
    .ok ⟨a.dims, fun e => ffillAt (fun k => a.get (Function.update e d k)) (e d)⟩
  else .error .valueError

/-- `arr[0] = arr[0].fillna(v)` (derived.py:62): positional indexing, i.e. along the *first*
dimension, whatever it is.  IndexError if there is no first dimension or it is empty. -/
def fillFirst (a : DA (Fl K)) (v : Fl K) : Except PyErr (DA (Fl K)) :=
  match a.dims with
  | [] => .error .indexError
  | (d, n) :: _ =>
    if n = 0 then .error .indexError
    else .ok ⟨a.dims, fun e => if e d = 0 then Fl.fillna v (a.get e) else a.get e⟩

/-- derived.py:30-71 `adjust_negative_n2` (attributes omitted). -/
def adjustNegativeN2 (n2 : DA (Fl K)) (zcoord : String := "z_l") : Except PyErr (DA (Fl K)) := do
  -- 55
  let mask := n2.map (fun v => Fl.sel (Fl.isnull v) .nan (1.0 : Fl K))
  -- 59
  let adjusted := n2.map (fun v => Fl.sel (Fl.le v (0.0 : Fl K)) .nan v)
  -- 62
  let adjusted ← fillFirst adjusted (1.0e-8 : Fl K)
  -- 65
  let adjusted ← ffill adjusted zcoord
  -- 68
  return adjusted * mask

/-- `np.sqrt` on a float. -/
noncomputable def npSqrt : Fl ℝ → Fl ℝ
  | .nan => .nan
  | .ninf => .nan
  | .pinf => .pinf
  | .fin x => if x < 0 then .nan else .fin (Real.sqrt x)

/-- `np.pi` -/
noncomputable def npPi : Fl ℝ := .fin Real.pi

/-- `arr[0]`: positional indexing along the first dimension. -/
def first {V : Type} (a : DA V) : Except PyErr (DA V) :=
  match a.dims with
  | [] => .error .indexError
  | (d, n) :: _ => if n = 0 then .error .indexError else .ok (a.isel d 0)

/-- derived.py:798-828 `calc_wave_speed`.  Note that `adjust_negative_n2` is called with its own
default vertical coordinate, and that the mask is taken from the first index of the first
dimension. `sum` over an unknown dimension is rejected by xarray (ValueError). -/
noncomputable def calcWaveSpeed (n2 dz : DA (Fl ℝ)) (zcoord : String := "z_l") :
    Except PyErr (DA (Fl ℝ)) := do
  -- 820
  let adj ← adjustNegativeN2 n2
  let prod := adj.map npSqrt * dz
  if zcoord ∉ prod.dimNames then .error .valueError else
  let result := prod.sumDim zcoord / DA.scalar npPi
  -- 821
  let top ← first n2
  return DA.zip3 Fl.sel (top.map Fl.isnull) (DA.scalar .nan) result

end Momlevel
