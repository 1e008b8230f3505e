import Verif.Model.Steric

/-!
# Coordinate labels and alignment

xarray aligns operands by the labels of their indexes: arithmetic uses `arithmetic_join="inner"` (only
labels found in both operands are kept, silently), `xr.where` and `xr.apply_ufunc` use `join="exact"`
(different labels raise ValueError).  Within one Dataset a dimension has one index, so alignment matters in
`steric` (/repo/src/momlevel/steric.py) only where fields of `dset` meet fields of a supplied `reference`.
This file models `steric` with labels; `Verif.Model.Steric` is the version for identical labels (see
`C81_same_labels`).

Simplifications: labels are distinct; the common labels keep the order of the first operand; `varname_map` is
omitted (rename beforehand); an array `patm` carries the labels of `dset`.
-/

set_option linter.unusedSectionVars false

namespace Momlevel

/-- The indexes of an object: the labels of a dimension, or `none` for a dimension without index. -/
abbrev Index (L : Type) := String → Option (List L)

/-- An array with indexes. -/
structure LA (L V : Type) where
  arr : DA V
  idx : Index L

/-- `arr.isel({d: ps})` with a list of positions. -/
def DA.take {V : Type} (a : DA V) (d : String) (ps : List Nat) : DA V :=
  ⟨a.dims.map (fun p => if p.1 = d then (d, ps.length) else p),
   fun e => a.get (Function.update e d (ps.getD (e d) 0))⟩

variable {L V W U : Type} [DecidableEq L]

/-- The labels common to two indexes, in the order of the first. -/
def joinLabels (a b : List L) : List L := a.filter (fun x => b.contains x)

namespace LA

/-- `arr.reindex({d: labels})` to labels that all occur in the index. -/
def reindex (a : LA L V) (d : String) (labels : List L) : LA L V :=
  match a.idx d with
  | some la => ⟨a.arr.take d (labels.map (fun x => la.idxOf x)), Function.update a.idx d (some labels)⟩
  | none => a

/-- The dimensions two operands share. -/
def shared (a : LA L V) (b : LA L W) : List String :=
  a.arr.dimNames.filter (fun d => b.arr.dimNames.contains d)

/-- Inner join along one shared dimension; without labels on both sides the sizes have to agree. -/
def alignDim (a : LA L V) (b : LA L W) (d : String) : Except PyErr (LA L V × LA L W) :=
  match a.idx d, b.idx d with
  | some la, some lb =>
    if la = lb then .ok (a, b)
    else .ok (a.reindex d (joinLabels la lb), b.reindex d (joinLabels la lb))
  | _, _ => if a.arr.size d = b.arr.size d then .ok (a, b) else .error .valueError

/-- `xr.align(a, b, join="inner")` -/
def alignInner (a : LA L V) (b : LA L W) : Except PyErr (LA L V × LA L W) :=
  (shared a b).foldlM (fun p d => alignDim p.1 p.2 d) (a, b)

/-- `xr.align(a, b, join="exact")` accepts one shared dimension. -/
def exactDim (a : LA L V) (b : LA L W) (d : String) : Bool :=
  match a.idx d, b.idx d with
  | some la, some lb => la == lb
  | _, _ => a.arr.size d == b.arr.size d

/-- `xr.align(a, b, join="exact")`: ValueError unless all shared indexes are equal. -/
def alignExact (a : LA L V) (b : LA L W) : Except PyErr Unit :=
  if (shared a b).all (exactDim a b) then .ok () else .error .valueError

/-- The indexes of a result of aligned operands. -/
def mergeIdx (a : LA L V) (b : LA L W) : Index L := fun d =>
  if d ∈ a.arr.dimNames ∧ (a.idx d).isSome then a.idx d else b.idx d

/-- A binary arithmetic operator. -/
def zipInner (f : V → W → U) (a : LA L V) (b : LA L W) : Except PyErr (LA L U) := do
  let (a, b) ← alignInner a b
  return ⟨DA.zip f a.arr b.arr, mergeIdx a b⟩

/-- `xr.where`-like operation of two arrays. -/
def zipExact (f : V → W → U) (a : LA L V) (b : LA L W) : Except PyErr (LA L U) := do
  alignExact a b
  return ⟨DA.zip f a.arr b.arr, mergeIdx a b⟩

/-- Apply an operation that leaves the labels of the remaining dimensions alone. -/
def lift (g : DA V → Except PyErr (DA U)) (a : LA L V) : Except PyErr (LA L U) := do
  let r ← g a.arr
  return ⟨r, a.idx⟩

end LA

/-- A dataset with indexes. -/
structure LDS (L : Type) (K : Type) where
  ds : DS (Fl K)
  idx : Index L

/-- The argument `reference` with indexes. -/
inductive RefArgL (L K : Type)
  | none
  | dataset (d : LDS L K)
  | other

variable {K : Type} [Field K] [LinearOrder K]

/-- `dset[name]` -/
def LDS.getVar (d : LDS L K) (name : String) : Except PyErr (LA L (Fl K)) := do
  let a ← d.ds.getVar name
  return ⟨a, d.idx⟩

/-- steric.py:98-109 with labels: a reference made from `dset` has the labels of `dset`. -/
def chooseReferenceL (dset : LDS L K) (reference : RefArgL L K) (patm : DA (Fl K)) (eos : String)
    (coord_names : DictArg) : Except PyErr (LDS L K) :=
  match reference with
  | .dataset d => .ok d
  | .other => .error .assertionError
  | .none => do
    let r ← setupReferenceState dset.ds patm eos coord_names
    return ⟨r, dset.idx⟩

/-- steric.py:115-125 with labels. -/
def stericFieldsL (dset reference : LDS L K) (variant : String) :
    Except PyErr (LA L (Fl K) × LA L (Fl K)) :=
  if variant = "thermosteric" then do
    let thetao ← dset.getVar "thetao"
    let so ← reference.getVar "so"
    return (thetao, so)
  else if variant = "halosteric" then do
    let thetao ← reference.getVar "thetao"
    let so ← dset.getVar "so"
    return (thetao, so)
  else if variant = "steric" then do
    let thetao ← dset.getVar "thetao"
    let so ← dset.getVar "so"
    return (thetao, so)
  else .error .valueError

/-- derived.py:597-639 `calc_rho` with labels: `xr.apply_ufunc` joins exactly (after `eos_func_from_str`). -/
def calcRhoL (thetao so pres : LA L (Fl K)) (eos : String) : Except PyErr (LA L (Fl K)) := do
  let _ ← Eos.eosFuncFromStr (α := Fl K) eos "density"
  LA.alignExact thetao so
  LA.alignExact thetao pres
  LA.alignExact so pres
  let rho ← calcRho thetao.arr so.arr pres.arr eos
  return ⟨rho, LA.mergeIdx ⟨DA.zip (fun _ _ => ()) thetao.arr so.arr, LA.mergeIdx thetao so⟩ pres⟩

/-- steric.py:150-166 with labels: local sea level. -/
def stericLocalL (dset reference : LDS L K) (rho : LA L (Fl K)) (tcoord zcoord zbounds : String)
    (rhozero : Fl K) (variant : String) : Except PyErr (List (String × LA L (Fl K))) := do
  -- 151-154
  let rvol ← reference.getVar "volcello"
  let rrho ← reference.getVar "rho"
  let diff ← LA.zipInner (· - ·) rho rrho
  let delta_rho ← LA.zipExact (fun v d => Fl.sel (Fl.notnull v) d .nan) rvol diff
  let delta_rho ← delta_rho.lift (fun a => a.transposeE tcoord)
  -- 162
  let z ← dset.ds.getItem zcoord
  let zi ← dset.ds.getItem zbounds
  let deptho ← dset.ds.getVar "deptho"
  let dz ← calcDz z zi deptho
  levelsAlone dset.ds zcoord
  -- 163
  let coef ← pyFloatDiv (-1.0 : Fl K) rhozero
  let prod ← LA.zipInner (· * ·) ⟨dz, dset.idx⟩ delta_rho
  let total ← prod.lift (fun a => a.sumDimE zcoord)
  let sealevel : LA L (Fl K) := ⟨total.arr.map (fun s => coef * s), total.idx⟩
  -- 165-166
  let sealevel ← sealevel.lift (fun a => a.transposeE tcoord)
  let top ← rvol.lift (fun a => a.iselE zcoord 0)
  let out ← LA.zipInner (fun s v => Fl.sel (Fl.notnull v) s .nan) sealevel top
  return [("delta_rho", delta_rho), (variant, out)]

/-- steric.py:134-147 with labels: global sea level. -/
noncomputable def stericGlobalL (reference : LDS L ℝ) (rho : LA L (Fl ℝ)) (tcoord : String)
    (variant : String) : Except PyErr (List (String × LA L (Fl ℝ))) := do
  -- 135 and derived.py:436-438
  let rvol ← reference.getVar "volcello"
  let mass ← LA.zipInner (· * ·) rho rvol
  let masso : LA L (Fl ℝ) :=
    ⟨mass.arr.sumDims (mass.arr.dimNames.filter (fun x => x != tcoord)), mass.idx⟩
  -- 136
  let rhoga ← reference.getVar "rhoga"
  let volo ← reference.getVar "volo"
  let mean ← LA.zipInner (· / ·) masso volo
  let ratio ← LA.zipInner (· / ·) rhoga mean
  let expansion_coeff : LA L (Fl ℝ) := ⟨ratio.arr.map npLog, ratio.idx⟩
  -- 138
  let area ← reference.getVar "areacello"
  let reference_height : LA L (Fl ℝ) := ⟨volo.arr / area.arr.sumAll, volo.idx⟩
  -- 142-147
  let sealevel ← LA.zipInner (· * ·) reference_height expansion_coeff
  return [("reference_height", reference_height), (variant, sealevel)]

/-- steric.py:131-166 with labels. -/
noncomputable def stericResultL (dset reference : LDS L ℝ) (rho : LA L (Fl ℝ))
    (tcoord zcoord zbounds : String) (rhozero : Fl ℝ) (variant domain : String) :
    Except PyErr (List (String × LA L (Fl ℝ))) :=
  if domain = "global" then stericGlobalL reference rho tcoord variant
  else stericLocalL dset reference rho tcoord zcoord zbounds rhozero variant

/-- steric.py:17-184 `steric` with labels (`varname_map=None`, `annual=False`). -/
noncomputable def stericL (dset : LDS L ℝ) (reference : RefArgL L ℝ := .none)
    (coord_names : DictArg := .none) (rhozero : Fl ℝ := (1035.0 : Fl ℝ))
    (patm : DA (Fl ℝ) := DA.scalar (101325.0 : Fl ℝ)) (equation_of_state : String := "Wright")
    (variant : String := "steric") (domain : String := "local") (strict : Bool := true) :
    Except PyErr (List (String × LA L (Fl ℝ)) × LDS L ℝ) := do
  -- 87
  let (tcoord, zcoord, zbounds) ← defaultCoords coord_names
  -- 90-91
  let additional_vars : VarsArg := if domain = "global" then .none else .list [zbounds, "deptho"]
  validateDataset dset.ds false strict additional_vars
  -- 96
  let pres ← pressureField dset.ds zcoord patm
  -- 98-109
  let reference ← chooseReferenceL dset reference patm equation_of_state coord_names
  -- 112
  validateDataset reference.ds true strict
  -- 115-125
  let (thetao, so) ← stericFieldsL dset reference variant
  -- 128
  let rho ← calcRhoL thetao so ⟨pres, dset.idx⟩ equation_of_state
  -- 131-166
  let result ← stericResultL dset reference rho tcoord zcoord zbounds rhozero variant domain
  -- 184
  return (result, reference)

end Momlevel
