import Verif.Model.Steric

/-!
# Levels without coordinate values

`calc_dz` of `/repo/src/momlevel/derived.py` and local `steric` of `/repo/src/momlevel/steric.py` when the
vertical dimension has no coordinate of its own.  `calcDz` of `Model/Dz.lean` and `stericLocal` of
`Model/Steric.lean` are for levels that have one.

`xr.DataArray(interfaces[0:-1].values, coords=levels.coords)` (derived.py:301 and 303) then has no coordinate to
take its dimension from, and xarray names the dimension "dim_0".
-/

set_option linter.unusedSectionVars false

namespace Momlevel

variable {K : Type} [Field K] [LinearOrder K]

/-- derived.py:249-325 `calc_dz` with `levels` that have no coordinates at all.  The lengths of `levels` and
`interfaces` are not compared. -/
def calcDzBare (levels interfaces depth : DA (Fl K)) (top : Fl K := .fin 0)
    (bottom : Option (Fl K) := none) (fraction : Bool := false) : Except PyErr (DA (Fl K)) := do
  -- 284-292
  pyAssert ((depth.map (Fl.fillna (.fin 0))).all (fun d => Fl.le (.fin 0) d))
  pyAssert (levels.all (fun d => Fl.le (.fin 0) d))
  pyAssert (interfaces.all (fun d => Fl.le (.fin 0) d))
  -- 295-298
  let depth := limitDepth depth bottom
  match levels.dims, interfaces.dims with
  | [(z, n)], [(zi, m)] =>
    -- 301-305
    let ztop : DA (Fl K) := ⟨DA.bdims depth.dims [("dim_0", m - 1)],
      fun e => interfaces.get (Function.update e zi (e "dim_0"))⟩
    let zbot : DA (Fl K) := ⟨DA.bdims depth.dims [("dim_0", m - 1)],
      fun e => interfaces.get (Function.update e zi (e "dim_0" + 1))⟩
    let depth : DA (Fl K) := ⟨DA.bdims [(z, n)] depth.dims, depth.get⟩
    -- 308
    let dz_field := zbot - ztop
    -- 311-313
    let part := (depth - ztop).map clip0
    let result := DA.zip Fl.minimum part dz_field
    -- 316-318
    let part := (zbot - DA.scalar top).map clip0
    let result := DA.zip Fl.minimum part result
    -- 320-323
    if fraction then
      let _dz_field := dz_field.map (fun v => Fl.sel (Fl.eqv v (.fin 0)) .nan v)
      let _dz_part := result.map (fun v => Fl.sel (Fl.eqv v (.fin 0)) .nan v)
      .ok (_dz_part / _dz_field)
    else .ok result
  | _, _ => .error .valueError

/-- derived.py:301 and 303 with `levels = dset[zcoord]`, a dimension without coordinate: the coordinates of the
new array are those of the dataset that have no dimension but `zcoord`.  One that lies along `zcoord` is not
along "dim_0"; a single scalar gives its name to the dimension and has not its length: ValueError. -/
def bareCoords {V : Type} (dset : DS V) (zcoord : String) : Except PyErr Unit :=
  let cs := dset.vars.filter (fun p => dset.coords.contains p.1 && p.2.dimNames.all (fun x => x == zcoord))
  if cs.any (fun p => p.2.dimNames.length != 0) || cs.length == 1 then .error .valueError else .ok ()

/-- steric.py:150-166 when `zcoord` has no coordinate.  Errors after the assertions of `calc_dz` are ValueErrors, as
in `stericLocal`. -/
def stericLocalBare (dset reference : DS (Fl K)) (rho : DA (Fl K)) (tcoord zcoord zbounds : String)
    (rhozero : Fl K) (variant : String) : Except PyErr (DS (Fl K)) := do
  -- 151-154
  let rvol ← reference.getVar "volcello"
  let rrho ← reference.getVar "rho"
  let delta_rho := DA.zip (fun v d => Fl.sel (Fl.notnull v) d .nan) rvol (rho - rrho)
  let delta_rho ← delta_rho.transposeE tcoord
  -- 162
  let z ← dset.getItem zcoord
  let zi ← dset.getItem zbounds
  let deptho ← dset.getVar "deptho"
  let dz ← calcDzBare z zi deptho
  bareCoords dset zcoord
  -- 163
  let coef ← pyFloatDiv (-1.0 : Fl K) rhozero
  let total ← (dz * delta_rho).sumDimE zcoord
  let sealevel := total.map (fun s => coef * s)
  -- 165-166
  let sealevel ← sealevel.transposeE tcoord
  let top ← rvol.iselE zcoord 0
  let out := DA.zip (fun s v => Fl.sel (Fl.notnull v) s .nan) sealevel top
  return { vars := [("delta_rho", delta_rho), (variant, out)] }

/-- steric.py:17-184 `steric` with the local domain, for a dataset in which the vertical dimension has no
coordinate. -/
noncomputable def stericBare (dset : DS (Fl ℝ)) (reference : RefArg ℝ := .none)
    (coord_names : DictArg := .none) (rhozero : Fl ℝ := (1035.0 : Fl ℝ))
    (patm : DA (Fl ℝ) := DA.scalar (101325.0 : Fl ℝ)) (equation_of_state : String := "Wright")
    (variant : String := "steric") (strict : Bool := true) : Except PyErr (DS (Fl ℝ) × DS (Fl ℝ)) := do
  -- 87
  let (tcoord, zcoord, zbounds) ← defaultCoords coord_names
  -- 90-91
  validateDataset dset false strict (.list [zbounds, "deptho"])
  -- 96
  let pres ← pressureField dset zcoord patm
  -- 98-109
  let reference ← chooseReference dset reference patm equation_of_state coord_names
  -- 112
  validateDataset reference true strict
  -- 115-125
  let (thetao, so) ← stericFields dset reference variant
  -- 128
  let rho ← calcRho thetao so pres equation_of_state
  -- 150-166
  let result ← stericLocalBare dset reference rho tcoord zcoord zbounds rhozero variant
  -- 184
  return (result, reference)

end Momlevel
