import Verif.Model.Eos
import Verif.Model.AdjustN2
import Mathlib.Analysis.SpecialFunctions.Trigonometric.Arctan

/-!
# Density, expansion coefficients, buoyancy frequency and global sums

Models the thin wrappers of `/repo/src/momlevel/derived.py` around the equation of state,
`inverse_barometer` of `/repo/src/momlevel/dynamic.py`, and the numpy/xarray finite difference they
use (`DataArray.differentiate(..., edge_order=2)`, i.e. `np.gradient` with coordinates).
Attributes are omitted throughout.  Arguments have floating dtype (see C65 for integers).
-/

set_option linter.unusedSectionVars false

namespace Momlevel
open Eos

variable {K : Type} [Field K] [LinearOrder K]

/-- `xr.apply_ufunc(eos_func, thetao, so, pres)` with `eos_func` looked up by name.

The linear equation of state never touches `pres`, so its result lacks dimensions that only `pres`
has; xarray then reports a changed dimension size (ValueError). -/
def applyEos (eos func_name : String) (thetao so pres : DA (Fl K)) : Except PyErr (DA (Fl K)) := do
  let f ← eosFuncFromStr eos func_name
  if pyLower eos = "linear".toList ∧ pres.dims.any (fun p =>
      !thetao.dimNames.contains p.1 && !so.dimNames.contains p.1
        && (p.2 != 1 || (thetao.dims.isEmpty && so.dims.isEmpty))) then .error .valueError
  else return DA.zip3 f thetao so pres

/-- derived.py:597-639 `calc_rho` -/
def calcRho (thetao so pres : DA (Fl K)) (eos : String := "Wright") : Except PyErr (DA (Fl K)) :=
  applyEos eos "density" thetao so pres

/-- derived.py:74-115 `calc_alpha` -/
def calcAlpha (thetao so pres : DA (Fl K)) (eos : String := "Wright") : Except PyErr (DA (Fl K)) :=
  applyEos eos "alpha" thetao so pres

/-- derived.py:118-159 `calc_beta` -/
def calcBeta (thetao so pres : DA (Fl K)) (eos : String := "Wright") : Except PyErr (DA (Fl K)) :=
  applyEos eos "beta" thetao so pres

/-- derived.py:447-486 `calc_pdens`; `patm` a number (0-dimensional) or an array. -/
def calcPdens (thetao so : DA (Fl K)) (level : Fl K := (0.0 : Fl K))
    (patm : DA (Fl K) := DA.scalar (101325 : Fl K)) (eos : String := "Wright") :
    Except PyErr (DA (Fl K)) := do
  -- 474
  pyAssert (Fl.le (0.0 : Fl K) level && Fl.le level (7500.0 : Fl K))
  -- 477
  calcRho thetao so (DA.scalar (level * (1.0e4 : Fl K)) + patm) eos

/-- dynamic.py:8-41 `inverse_barometer` -/
def inverseBarometer (tos sos pso : DA (Fl K)) (gravity : Fl K := (9.8 : Fl K))
    (equation_of_state : String := "Wright") : Except PyErr (DA (Fl K)) := do
  -- 34
  let rho_conv ← calcRho tos sos pso equation_of_state
  -- 36
  return pso * (rho_conv * DA.scalar gravity).map (fun d => (-1.0 : Fl K) / d)

/-- derived.py:414-444 `calc_masso` -/
def calcMasso (rho volcello : DA (Fl K)) (tcoord : String := "time") : DA (Fl K) :=
  let masso := rho * volcello
  masso.sumDims (masso.dimNames.filter (fun x => x != tcoord))

/-- derived.py:769-795 `calc_volo` -/
def calcVolo (volcello : DA (Fl K)) : Except PyErr (DA (Fl K)) := do
  pyAssert (volcello.ndim == 3)
  return volcello.sumAll

/-- derived.py:642-666 `calc_rhoga` -/
def calcRhoga (masso volo : DA (Fl K)) : DA (Fl K) := masso / volo

/-- `np.gradient(f, x, edge_order=2)` at position `i`, `n ≥ 3` points.  numpy uses the formulas for
uniform spacing if all spacings are equal. -/
def npGradient (n : Nat) (x f : Nat → Fl K) (i : Nat) : Fl K :=
  let dx : Nat → Fl K := fun k => x (k + 1) - x k
  if (List.range (n - 1)).all (fun k => Fl.eqv (dx k) (dx 0)) then
    let h := dx 0
    if i = 0 then
      (-1.5 : Fl K) / h * f 0 + (2.0 : Fl K) / h * f 1 + (-0.5 : Fl K) / h * f 2
    else if i + 1 = n then
      (0.5 : Fl K) / h * f (n - 3) + (-2.0 : Fl K) / h * f (n - 2) + (1.5 : Fl K) / h * f (n - 1)
    else (f (i + 1) - f (i - 1)) / ((2.0 : Fl K) * h)
  else
    if i = 0 then
      let dx1 := dx 0
      let dx2 := dx 1
      let a := -((2.0 : Fl K) * dx1 + dx2) / (dx1 * (dx1 + dx2))
      let b := (dx1 + dx2) / (dx1 * dx2)
      let c := -dx1 / (dx2 * (dx1 + dx2))
      a * f 0 + b * f 1 + c * f 2
    else if i + 1 = n then
      let dx1 := dx (n - 3)
      let dx2 := dx (n - 2)
      let a := dx2 / (dx1 * (dx1 + dx2))
      let b := -(dx2 + dx1) / (dx1 * dx2)
      let c := ((2.0 : Fl K) * dx2 + dx1) / (dx2 * (dx1 + dx2))
      a * f (n - 3) + b * f (n - 2) + c * f (n - 1)
    else
      let dx1 := dx (i - 1)
      let dx2 := dx i
      let a := -dx2 / (dx1 * (dx1 + dx2))
      let b := (dx2 - dx1) / (dx1 * dx2)
      let c := dx1 / (dx2 * (dx1 + dx2))
      a * f (i - 1) + b * f i + c * f (i + 1)

/-- `arr.differentiate(zcoord, edge_order=2)`, where `z` holds the values of the coordinate
`zcoord`.  Fewer than three points: ValueError from numpy; no such coordinate: ValueError. -/
def differentiate (a : DA (Fl K)) (zcoord : String) (z : Nat → Fl K) : Except PyErr (DA (Fl K)) :=
  if zcoord ∈ a.dimNames then
    if a.size zcoord < 3 then .error .valueError
    else .ok ⟨a.dims, fun e =>
      npGradient (a.size zcoord) z (fun k => a.get (Function.update e zcoord k)) (e zcoord)⟩
  else .error .valueError

/-- `thetao[zcoord]`: the one-dimensional coordinate array (values `z`); KeyError if `thetao` has no
such coordinate. -/
def coordArray (a : DA (Fl K)) (zcoord : String) (z : Nat → Fl K) : Except PyErr (DA (Fl K)) :=
  if zcoord ∈ a.dimNames then .ok ⟨[(zcoord, a.size zcoord)], fun e => z (e zcoord)⟩
  else .error .keyError

/-- derived.py:328-411 `calc_n2` without the `interfaces` option (see N2Interfaces).  `z` holds the values of the
coordinate `zcoord` of `thetao` and `so`. -/
def calcN2 (thetao so : DA (Fl K)) (z : Nat → Fl K) (eos : String := "Wright")
    (gravity : Fl K := (-9.8 : Fl K)) (patm : DA (Fl K) := DA.scalar (101325.0 : Fl K))
    (zcoord : String := "z_l") (adjust_negative : Bool := false) : Except PyErr (DA (Fl K)) := do
  -- 397
  let zc ← coordArray thetao zcoord z
  let pres := zc * DA.scalar (1.0e4 : Fl K) + patm
  -- 398-401
  let alpha ← calcAlpha thetao so pres eos
  let beta ← calcBeta thetao so pres eos
  let dtdz ← differentiate thetao zcoord z
  let dsdz ← differentiate so zcoord z
  -- 402
  let n2 := (alpha * dtdz - beta * dsdz).map (fun x => gravity * x)
  -- 409: the vertical coordinate name is not passed on
  if adjust_negative then adjustNegativeN2 n2 else return n2

/-- `np.arctan` on a float. -/
noncomputable def npArctan : Fl ℝ → Fl ℝ
  | .nan => .nan
  | .pinf => .fin (Real.pi / 2)
  | .ninf => .fin (-(Real.pi / 2))
  | .fin x => .fin (Real.arctan x)

/-- `np.degrees` on a float. -/
noncomputable def npDegrees (x : Fl ℝ) : Fl ℝ := x * .fin (180 / Real.pi)

/-- derived.py:714-766 `calc_stability_angle` -/
noncomputable def calcStabilityAngle (thetao so pres : DA (Fl ℝ)) (z : Nat → Fl ℝ)
    (eos : String := "Wright") (zcoord : String := "z_l") : Except PyErr (DA (Fl ℝ)) := do
  -- 747-748
  let alpha ← calcAlpha thetao so pres eos
  let beta ← calcBeta thetao so pres eos
  -- 751-752
  let dtdz ← differentiate thetao zcoord z
  let dsdz ← differentiate so zcoord z
  -- 755
  let R_rho := (beta * dsdz) / (alpha * dtdz)
  -- 757
  return R_rho.map (fun R => npDegrees (npArctan (((1 : Fl ℝ) + R) / ((1 : Fl ℝ) - R))))

end Momlevel
