import Verif.Model.Derived
import Verif.Model.Dz
import Verif.Model.Validate
import Mathlib.Analysis.SpecialFunctions.Log.Basic

/-!
# Reference state and steric sea level

Models `setup_reference_state` of `/repo/src/momlevel/reference.py` and `steric`, `thermosteric`,
`halosteric` of `/repo/src/momlevel/steric.py` on datasets of floats, in the exception monad.

Simplifications: attributes, encodings (`dtype`), printing (`verbose`) and the coordinates attached
to the result variables are omitted; `annual=True` is modelled in `Verif.Model.Average`.
-/

set_option linter.unusedSectionVars false

namespace Momlevel

/-- Python index `i` into a sequence of length `n` (negative counts from the end). -/
def pyIndex (n : Nat) (i : Int) : Except PyErr Nat :=
  if 0 ≤ i then (if i.toNat < n then .ok i.toNat else .error .indexError)
  else if (-i).toNat ≤ n then .ok (n - (-i).toNat) else .error .indexError

namespace DA
variable {V : Type}

/-- `arr.isel({d: i})` with its checks: ValueError without the dimension, IndexError out of range. -/
def iselE (a : DA V) (d : String) (i : Int) : Except PyErr (DA V) := do
  if d ∈ a.dimNames then
    let k ← pyIndex (a.size d) i
    return a.isel d k
  else .error .valueError

/-- `arr.transpose(d, ...)`; ValueError without the dimension. -/
def transposeE (a : DA V) (d : String) : Except PyErr (DA V) :=
  if d ∈ a.dimNames then .ok (a.transposeFirst d) else .error .valueError

/-- `arr.sum(d)`; ValueError without the dimension. -/
def sumDimE {K : Type} [Field K] [LinearOrder K] (a : DA (Fl K)) (d : String) :
    Except PyErr (DA (Fl K)) :=
  if d ∈ a.dimNames then .ok (a.sumDim d) else .error .valueError

end DA

namespace DS
variable {V : Type} {K : Type} [Field K] [LinearOrder K]

/-- `dset[name]`: a variable, or for a dimension without coordinate the default index 0, 1, …;
KeyError otherwise. -/
def getItem (d : DS (Fl K)) (name : String) : Except PyErr (DA (Fl K)) :=
  match d.vars.lookup name with
  | some a => .ok a
  | none =>
    match (d.vars.flatMap (fun p => p.2.dims)).lookup name with
    | some n => .ok ⟨[(name, n)], fun e => .fin (e name : K)⟩
    | none => .error .keyError

/-- `dset.name` (attribute access); AttributeError if there is no such variable. -/
def getAttr (d : DS V) (name : String) : Except PyErr (DA V) :=
  match d.vars.lookup name with
  | some a => .ok a
  | none => .error .attributeError

/-- `dset.rename(map)`: renames variables, coordinates and dimensions.  An unknown old name or a
clash of new names is a ValueError; `None` changes nothing. -/
def rename (d : DS V) (map : Option (List (String × String))) : Except PyErr (DS V) :=
  match map with
  | none => .ok d
  | some m =>
    if m.any (fun p => !(d.names.contains p.1 || d.dimNames.contains p.1)) then .error .valueError
    else
      let ren : String → String := fun s => (m.lookup s).getD s
      let vars := d.vars.map (fun p => (ren p.1,
        (⟨p.2.dims.map (fun q => (ren q.1, q.2)), fun e => p.2.get (fun x => e (ren x))⟩ : DA V)))
      if (vars.map Prod.fst).Nodup then .ok ⟨vars, d.coords.map ren⟩ else .error .valueError

end DS

variable {K : Type} [Field K] [LinearOrder K]

/-- reference.py:54 and steric.py:96 `(dset[zcoord] * 1.0e4) + patm`. -/
def pressureField (dset : DS (Fl K)) (zcoord : String) (patm : DA (Fl K)) :
    Except PyErr (DA (Fl K)) := do
  let z ← dset.getItem zcoord
  return z * DA.scalar (1.0e4 : Fl K) + patm

/-- reference.py:60-68 `dset[name].isel({tcoord: time_index}).squeeze().reset_coords(drop=True)` -/
def refSlice (dset : DS (Fl K)) (name tcoord : String) (time_index : Int) :
    Except PyErr (DA (Fl K)) := do
  let a ← dset.getVar name
  let a ← a.iselE tcoord time_index
  return a.squeeze

/-- reference.py:16-85 `setup_reference_state` -/
def setupReferenceState (dset : DS (Fl K)) (patm : DA (Fl K) := DA.scalar (101325.0 : Fl K))
    (eos : String := "Wright") (coord_names : DictArg := .none) (time_index : Int := 0) :
    Except PyErr (DS (Fl K)) := do
  -- 49-51
  let (tcoord, zcoord, _) ← defaultCoords coord_names
  -- 54
  let pres ← pressureField dset zcoord patm
  -- 60-68
  let thetao ← refSlice dset "thetao" tcoord time_index
  let so ← refSlice dset "so" tcoord time_index
  let volcello ← refSlice dset "volcello" tcoord time_index
  -- 71
  let rho ← calcRho thetao so pres eos
  -- 74
  let volo ← calcVolo volcello
  -- 77
  let masso := calcMasso rho volcello tcoord
  -- 80
  let rhoga := calcRhoga masso volo
  -- 83
  let areacello ← dset.getAttr "areacello"
  return { vars := [("thetao", thetao), ("so", so), ("volcello", volcello), ("rho", rho),
    ("volo", volo), ("masso", masso), ("rhoga", rhoga), ("areacello", areacello)] }

/-- The argument `reference`: None, a Dataset, or something else. -/
inductive RefArg (K : Type)
  | none
  | dataset (d : DS (Fl K))
  | other

/-- `a / b` on Python floats: division by zero raises. -/
def pyFloatDiv (a b : Fl K) : Except PyErr (Fl K) :=
  if b = .fin 0 then .error .zeroDivisionError else .ok (a / b)

/-- steric.py:98-109: the reference state to use. -/
def chooseReference (dset : DS (Fl K)) (reference : RefArg K) (patm : DA (Fl K)) (eos : String)
    (coord_names : DictArg) : Except PyErr (DS (Fl K)) :=
  match reference with
  | .dataset d => .ok d
  | .other => .error .assertionError
  | .none => setupReferenceState dset patm eos coord_names

/-- steric.py:115-125: which fields to hold fixed. -/
def stericFields (dset reference : DS (Fl K)) (variant : String) :
    Except PyErr (DA (Fl K) × DA (Fl K)) :=
  if variant = "thermosteric" then do
    let thetao ← dset.getVar "thetao"
    let so ← reference.getVar "so"
    return (thetao, so)
  else if variant = "halosteric" then do
    let thetao ← reference.getVar "thetao"
    let so ← dset.getVar "so"
    return (thetao, so)
  else if variant = "steric" then do
    let thetao ← dset.getVar "thetao"
    let so ← dset.getVar "so"
    return (thetao, so)
  else .error .valueError

/-- derived.py:301 and 303 (called from steric.py:162): `xr.DataArray(interfaces[0:-1].values,
coords=levels.coords)` finds the dimension of the new array only if `levels` has exactly one
coordinate, itself; ValueError otherwise.  `dset[zcoord]` carries every coordinate of the dataset
that has no dimension other than `zcoord`, scalars included.

Simplification: `zcoord` has coordinate values (without them the new arrays would get a dimension
"dim_0" of their own: `Model/DzBare.lean`). -/
def levelsAlone {V : Type} (dset : DS V) (zcoord : String) : Except PyErr Unit :=
  if dset.vars.any (fun p => p.1 != zcoord && dset.coords.contains p.1
      && p.2.dimNames.all (fun x => x == zcoord)) then .error .valueError
  else .ok ()

/-- steric.py:150-166: local sea level.  Both errors of line 162 that stand after the assertions of
`calc_dz` are ValueErrors, so the coordinates of the levels may be looked at after `calcDz`. -/
def stericLocal (dset reference : DS (Fl K)) (rho : DA (Fl K)) (tcoord zcoord zbounds : String)
    (rhozero : Fl K) (variant : String) : Except PyErr (DS (Fl K)) := do
  -- 151-154
  let rvol ← reference.getVar "volcello"
  let rrho ← reference.getVar "rho"
  let delta_rho := DA.zip (fun v d => Fl.sel (Fl.notnull v) d .nan) rvol (rho - rrho)
  let delta_rho ← delta_rho.transposeE tcoord
  -- 162
  let z ← dset.getItem zcoord
  let zi ← dset.getItem zbounds
  let deptho ← dset.getVar "deptho"
  let dz ← calcDz z zi deptho
  levelsAlone dset zcoord
  -- 163
  let coef ← pyFloatDiv (-1.0 : Fl K) rhozero
  let total ← (dz * delta_rho).sumDimE zcoord
  let sealevel := total.map (fun s => coef * s)
  -- 165-166
  let sealevel ← sealevel.transposeE tcoord
  let top ← rvol.iselE zcoord 0
  let out := DA.zip (fun s v => Fl.sel (Fl.notnull v) s .nan) sealevel top
  return { vars := [("delta_rho", delta_rho), (variant, out)] }

/-- `np.log` on a float. -/
noncomputable def npLog : Fl ℝ → Fl ℝ
  | .nan => .nan
  | .pinf => .pinf
  | .ninf => .nan
  | .fin x => if 0 < x then .fin (Real.log x) else if x = 0 then .ninf else .nan

/-- steric.py:134-147: global sea level. -/
noncomputable def stericGlobal (reference : DS (Fl ℝ)) (rho : DA (Fl ℝ)) (tcoord : String)
    (variant : String) : Except PyErr (DS (Fl ℝ)) := do
  -- 135
  let rvol ← reference.getVar "volcello"
  let masso := calcMasso rho rvol tcoord
  -- 136
  let rhoga ← reference.getVar "rhoga"
  let volo ← reference.getVar "volo"
  let expansion_coeff := (rhoga / (masso / volo)).map npLog
  -- 138
  let area ← reference.getVar "areacello"
  let reference_height := volo / area.sumAll
  -- 142-147
  let sealevel := reference_height * expansion_coeff
  return { vars := [("reference_height", reference_height), (variant, sealevel)] }

/-- steric.py:131-166: the result dataset. -/
noncomputable def stericResult (dset reference : DS (Fl ℝ)) (rho : DA (Fl ℝ))
    (tcoord zcoord zbounds : String) (rhozero : Fl ℝ) (variant domain : String) :
    Except PyErr (DS (Fl ℝ)) :=
  if domain = "global" then stericGlobal reference rho tcoord variant
  else stericLocal dset reference rho tcoord zcoord zbounds rhozero variant

/-- steric.py:17-184 `steric` (with `annual=False`). -/
noncomputable def steric (dset : DS (Fl ℝ)) (reference : RefArg ℝ := .none)
    (coord_names : DictArg := .none) (varname_map : Option (List (String × String)) := none)
    (rhozero : Fl ℝ := (1035.0 : Fl ℝ)) (patm : DA (Fl ℝ) := DA.scalar (101325.0 : Fl ℝ))
    (equation_of_state : String := "Wright") (variant : String := "steric")
    (domain : String := "local") (strict : Bool := true) :
    Except PyErr (DS (Fl ℝ) × DS (Fl ℝ)) := do
  -- 84
  let dset ← dset.rename varname_map
  -- 87
  let (tcoord, zcoord, zbounds) ← defaultCoords coord_names
  -- 90-91
  let additional_vars : VarsArg := if domain = "global" then .none else .list [zbounds, "deptho"]
  validateDataset dset false strict additional_vars
  -- 96
  let pres ← pressureField dset zcoord patm
  -- 98-109
  let reference ← chooseReference dset reference patm equation_of_state coord_names
  -- 112
  validateDataset reference true strict
  -- 115-125
  let (thetao, so) ← stericFields dset reference variant
  -- 128
  let rho ← calcRho thetao so pres equation_of_state
  -- 131-166
  let result ← stericResult dset reference rho tcoord zcoord zbounds rhozero variant domain
  -- 184
  return (result, reference)

/-- steric.py:193-196 `thermosteric` -/
noncomputable def thermosteric (dset : DS (Fl ℝ)) (reference : RefArg ℝ := .none)
    (coord_names : DictArg := .none) (varname_map : Option (List (String × String)) := none)
    (rhozero : Fl ℝ := (1035.0 : Fl ℝ)) (patm : DA (Fl ℝ) := DA.scalar (101325.0 : Fl ℝ))
    (equation_of_state : String := "Wright") (domain : String := "local") (strict : Bool := true) :=
  steric dset reference coord_names varname_map rhozero patm equation_of_state "thermosteric" domain
    strict

/-- steric.py:187-190 `halosteric` -/
noncomputable def halosteric (dset : DS (Fl ℝ)) (reference : RefArg ℝ := .none)
    (coord_names : DictArg := .none) (varname_map : Option (List (String × String)) := none)
    (rhozero : Fl ℝ := (1035.0 : Fl ℝ)) (patm : DA (Fl ℝ) := DA.scalar (101325.0 : Fl ℝ))
    (equation_of_state : String := "Wright") (domain : String := "local") (strict : Bool := true) :=
  steric dset reference coord_names varname_map rhozero patm equation_of_state "halosteric" domain
    strict

end Momlevel
