import Verif.Model.Align
import Verif.Model.Coriolis

/-!
# Derived quantities of arrays with labels

`/repo/src/momlevel/derived.py` and `dynamic.py` called with arrays that come from different objects, so that the
labels of a shared dimension may differ.  `xr.apply_ufunc` and `xr.where` join exactly, arithmetic operators join
on the common labels (see `Verif.Model.Align`).  Simplifications as there; attributes are omitted.
-/

set_option linter.unusedSectionVars false

namespace Momlevel

variable {L : Type} [DecidableEq L] {K : Type} [Field K] [LinearOrder K]

/-- derived.py:104, 148, 628 `xr.apply_ufunc(eos_func, thetao, so, pres)` with labels, the function looked up
first. -/
def applyEosL (eos func_name : String) (thetao so pres : LA L (Fl K)) : Except PyErr (LA L (Fl K)) := do
  let _ ← Eos.eosFuncFromStr (α := Fl K) eos func_name
  LA.alignExact thetao so
  LA.alignExact thetao pres
  LA.alignExact so pres
  let r ← applyEos eos func_name thetao.arr so.arr pres.arr
  return ⟨r, LA.mergeIdx ⟨DA.zip (fun _ _ => ()) thetao.arr so.arr, LA.mergeIdx thetao so⟩ pres⟩

/-- derived.py:447-486 `calc_pdens` with labels. -/
def calcPdensL (thetao so : LA L (Fl K)) (level : Fl K) (patm : LA L (Fl K)) (eos : String := "Wright") :
    Except PyErr (LA L (Fl K)) := do
  -- 474
  pyAssert (Fl.le (0.0 : Fl K) level && Fl.le level (7500.0 : Fl K))
  -- 477
  applyEosL eos "density" thetao so ⟨DA.scalar (level * (1.0e4 : Fl K)) + patm.arr, patm.idx⟩

/-- dynamic.py:8-41 `inverse_barometer` with labels. -/
def inverseBarometerL (tos sos pso : LA L (Fl K)) (gravity : Fl K := (9.8 : Fl K)) (eos : String := "Wright") :
    Except PyErr (LA L (Fl K)) := do
  -- 34
  let rho ← applyEosL eos "density" tos sos pso
  -- 36
  LA.zipInner (· * ·) pso ⟨(rho.arr * DA.scalar gravity).map (fun d => (-1.0 : Fl K) / d), rho.idx⟩

/-- derived.py:414-444 `calc_masso` with labels. -/
def calcMassoL (rho volcello : LA L (Fl K)) (tcoord : String := "time") : Except PyErr (LA L (Fl K)) := do
  let masso ← LA.zipInner (· * ·) rho volcello
  return ⟨masso.arr.sumDims (masso.arr.dimNames.filter (fun x => x != tcoord)), masso.idx⟩

/-- derived.py:642-666 `calc_rhoga` with labels. -/
def calcRhogaL (masso volo : LA L (Fl K)) : Except PyErr (LA L (Fl K)) := LA.zipInner (· / ·) masso volo

/-- derived.py:568-594 `calc_rossby_rd` with labels. -/
def calcRossbyRdL (wave_speed coriolis : LA L (Fl K)) : Except PyErr (LA L (Fl K)) :=
  LA.zipInner (· / ·) wave_speed ⟨coriolis.arr.map Fl.abs, coriolis.idx⟩

/-- derived.py:547, `calc_pv(interp_n2=False, units="m")` with labels. -/
def calcPvL (zeta coriolis n2 : LA L (Fl K)) (gravity : Fl K := (9.8 : Fl K)) : Except PyErr (LA L (Fl K)) := do
  let total ← LA.zipInner (· + ·) zeta coriolis
  LA.zipInner (· * ·) total ⟨n2.arr / DA.scalar gravity, n2.idx⟩

/-- derived.py:798-828 `calc_wave_speed` with labels. -/
noncomputable def calcWaveSpeedL (n2 dz : LA L (Fl ℝ)) (zcoord : String := "z_l") :
    Except PyErr (LA L (Fl ℝ)) := do
  -- 820
  let adj ← n2.lift (fun a => adjustNegativeN2 a)
  let prod ← LA.zipInner (· * ·) ⟨adj.arr.map npSqrt, adj.idx⟩ dz
  if zcoord ∉ prod.arr.dimNames then .error .valueError else
  let result : LA L (Fl ℝ) := ⟨prod.arr.sumDim zcoord / DA.scalar npPi, prod.idx⟩
  -- 821
  let top ← n2.lift (fun a => first a)
  LA.alignExact top result
  return ⟨DA.zip3 Fl.sel (top.arr.map Fl.isnull) (DA.scalar .nan) result.arr, LA.mergeIdx top result⟩

end Momlevel
