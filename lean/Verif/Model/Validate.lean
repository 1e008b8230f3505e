import Verif.Model.Dataset

/-!
# Input validation and coordinate names

Models `default_coords`, `validate_areacello`, `validate_dataset` and `validate_tidegauge_data` of
`/repo/src/momlevel/util.py`.  Messages are represented by constructors; printing and warnings are
omitted.
-/

set_option linter.unusedSectionVars false

namespace Momlevel

variable {K : Type} [Field K] [LinearOrder K]

/-- An argument that should be `None` or a dictionary of names. -/
inductive DictArg
  | none
  | dict (d : List (String × String))
  | other

/-- util.py:199-224 `default_coords`; the result is (time, z, z bounds). -/
def defaultCoords (coord_names : DictArg := .none) : Except PyErr (String × String × String) := do
  -- 217
  let coord_names := match coord_names with
    | .none => DictArg.dict []
    | x => x
  -- 218
  match coord_names with
  | .dict d =>
    -- 219-221
    let zcoord := (d.lookup "z").getD "z_l"
    let zbounds := (d.lookup "zbounds").getD "z_i"
    let tcoord := (d.lookup "t").getD "time"
    return (tcoord, zcoord, zbounds)
  | _ => .error .assertionError

/-- util.py:669-694 `validate_areacello` -/
def validateAreacello (areacello : DA (Fl K)) (reference : Fl K := (3.6111092e14 : Fl K))
    (tolerance : Fl K := (0.02 : Fl K)) : Bool :=
  let error := (areacello.sumAll.get (fun _ => 0) - reference) / reference
  Fl.lt (Fl.abs error) tolerance

/-- The messages `validate_dataset` can collect. -/
inductive ValErr
  | timeCoord
  | missingVars
  | rank3d (var : String)
  | rank2d (var : String)
  | area
  | rhoRank
  | notScalar (var : String)
  deriving DecidableEq

/-- Objects that occur in the list comprehension of util.py:730-732: `x.lower` without a call is a
bound method, not a string. -/
inductive PyObj
  | str (s : String)
  | lowerMethod (self : String)
  deriving DecidableEq

/-- The argument `additional_vars`: None, a list, or a single name. -/
inductive VarsArg
  | none
  | list (l : List String)
  | one (s : String)

/-- util.py:741-748: `additional_vars` as a list. -/
def VarsArg.toList : VarsArg → List String
  | .none => []
  | .list l => l
  | .one s => [s]

/-- util.py:785-794: the cell area check; only a warning when not strict. -/
def areaErrors (areacello : Option (DA (Fl K))) (strict : Bool) : List ValErr :=
  match areacello with
  | some a => if !validateAreacello a && strict then [ValErr.area] else []
  | none => []

/-- util.py:697-810: the exceptions collected by `validate_dataset`, in order. -/
def validateErrors (dset : DS (Fl K)) (reference strict : Bool) (additional_vars : VarsArg) :
    List ValErr :=
  let dset_varlist := dset.names
  let rank : String → Nat := fun v => ((dset.vars.lookup v).map DA.ndim).getD 0
  -- 728-735
  let e1 := if reference && (dset.coords.map (fun x => PyObj.lowerMethod x)).contains (PyObj.str "time")
    then [ValErr.timeCoord] else []
  -- 738-749
  let expected := ["thetao", "so", "volcello", "areacello"] ++ additional_vars.toList
  -- 751-754
  let expected := if reference then expected ++ ["rho", "volo", "masso", "rhoga"] else expected
  -- 756
  let missing := expected.filter (fun v => !dset_varlist.contains v)
  -- 758-761
  let e2 := if missing.length == 0 then [] else [ValErr.missingVars]
  -- 764-772
  let ranks := if reference then 3 else 4
  let e3 := (["thetao", "so", "volcello"].filter
    (fun v => dset_varlist.contains v && rank v != ranks)).map ValErr.rank3d
  -- 775-782
  let e4 := (["areacello", "deptho"].filter
    (fun v => dset_varlist.contains v && rank v != 2)).map ValErr.rank2d
  -- 785-794
  let e5 := areaErrors (dset.vars.lookup "areacello") strict
  -- 797-804
  let e6 := if reference && !missing.contains "rho" && rank "rho" != 3 then [ValErr.rhoRank] else []
  -- 806-811
  let e7 := if reference then (["masso", "volo", "rhoga"].filter
    (fun v => !missing.contains v && rank v != 0)).map ValErr.notScalar else []
  e1 ++ e2 ++ e3 ++ e4 ++ e5 ++ e6 ++ e7

/-- util.py:697-814 `validate_dataset` -/
def validateDataset (dset : DS (Fl K)) (reference : Bool := false) (strict : Bool := true)
    (additional_vars : VarsArg := .none) : Except PyErr Unit :=
  -- 813-816
  if (validateErrors dset reference strict additional_vars).length > 0 then .error .valueError
  else .ok ()

/-- Python values as `validate_tidegauge_data` distinguishes them; a DataArray carries the names of
its coordinates. -/
inductive TgArg
  | none
  | str (s : String)
  | dataArray (coords : List String)
  | other

/-- `isinstance(x, xr.DataArray)` -/
def TgArg.isDataArray : TgArg → Bool
  | .dataArray _ => true
  | _ => false

/-- util.py:842-856: the check of one coordinate argument. -/
def checkTgCoord (coords : List String) (c : TgArg) : Except PyErr Unit :=
  match c with
  | .str s => pyAssert (coords.contains s)
  | c => pyAssert c.isDataArray

/-- util.py:817-860 `validate_tidegauge_data` -/
def validateTidegaugeData (arr xcoord ycoord mask : TgArg) : Except PyErr Unit := do
  -- 835-837
  pyAssert arr.isDataArray
  -- 841
  let _coords := match arr with
    | .dataArray c => c
    | _ => []
  -- 843-857
  checkTgCoord _coords xcoord
  checkTgCoord _coords ycoord
  -- 859-860
  match mask with
  | .none => return ()
  | m => pyAssert m.isDataArray

end Momlevel
