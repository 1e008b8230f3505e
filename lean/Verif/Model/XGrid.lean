import Verif.Model.Dataset

/-!
# xgcm grid, relative and potential vorticity

Models `get_xgcm_grid` of `/repo/src/momlevel/util.py` together with the two xgcm operations the
library uses on it (`grid.diff` and `grid.interp` from cell centres to corners, `boundary="fill"`
with xgcm's default fill value 0), and `calc_rel_vort`, `calc_pv` of
`/repo/src/momlevel/derived.py`.

Simplifications: xgcm itself is not part of the repository; its documented behaviour is modelled.
`diff`/`interp` of an array that does not sit on the cell centres of the axis is not modelled
(mapped to KeyError).
-/

namespace Momlevel

variable {K : Type} [Field K] [LinearOrder K]

/-- One axis of an xgcm grid: the centre and corner dimension and whether the corners are at the
"outer" position (`n + 1` points, symmetric grid) or at "right" (`n` points). -/
structure XAxis where
  center : String
  corner : String
  outer : Bool

/-- An xgcm grid with its two axes. -/
structure XGrid where
  X : XAxis
  Y : XAxis

/-- util.py:399-451 `get_xgcm_grid`.  `dimNames` are the dimensions of the dataset; xgcm rejects a
dimension that is not in the dataset (ValueError). -/
def getXgcmGrid (dimNames : List String) (coord_dict : Option (List (String × String)) := none)
    (symmetric : Bool := false) : Except PyErr XGrid := do
  -- 424-430
  let coord_dict := coord_dict.getD
    [("xcenter", "xh"), ("ycenter", "yh"), ("xcorner", "xq"), ("ycorner", "yq")]
  -- 432-449
  let xc ← dictGet coord_dict "xcenter"
  let xq ← dictGet coord_dict "xcorner"
  let yc ← dictGet coord_dict "ycenter"
  let yq ← dictGet coord_dict "ycorner"
  if xc ∈ dimNames ∧ xq ∈ dimNames ∧ yc ∈ dimNames ∧ yq ∈ dimNames then
    return ⟨⟨xc, xq, symmetric⟩, ⟨yc, yq, symmetric⟩⟩
  else .error .valueError

/-- The dimensions after moving from centres to corners along an axis. -/
def cornerDims (ax : XAxis) (dims : List (String × Nat)) : List (String × Nat) :=
  dims.map (fun p => if p.1 = ax.center then (ax.corner, if ax.outer then p.2 + 1 else p.2) else p)

/-- xgcm: combine the two centre values adjacent to a corner with `op left right`; outside the
array the fill value 0 is used.  Corner `i` of an "outer" axis lies between centres `i-1` and `i`,
corner `i` of a "right" axis between centres `i` and `i+1`. -/
def toCorner (op : Fl K → Fl K → Fl K) (ax : XAxis) (a : DA (Fl K)) : Except PyErr (DA (Fl K)) :=
  if ax.center ∈ a.dimNames then
    let n := a.size ax.center
    .ok ⟨cornerDims ax a.dims, fun e =>
      let f : Nat → Fl K := fun k => if k < n then a.get (Function.update e ax.center k) else .fin 0
      let i := e ax.corner
      if ax.outer then op (if i = 0 then .fin 0 else f (i - 1)) (f i)
      else op (f i) (f (i + 1))⟩
  else .error .keyError

/-- `grid.diff(a, axis, boundary="fill")`: right minus left. -/
def gridDiff (ax : XAxis) (a : DA (Fl K)) : Except PyErr (DA (Fl K)) :=
  toCorner (fun l r => r - l) ax a

/-- `grid.interp(a, axis, boundary="fill")`: mean of the two neighbours. -/
def gridInterp (ax : XAxis) (a : DA (Fl K)) : Except PyErr (DA (Fl K)) :=
  toCorner (fun l r => (0.5 : Fl K) * (l + r)) ax a

/-- derived.py:187-246 `calc_rel_vort` (attributes omitted). -/
def calcRelVort (dset : DS (Fl K)) (varname_map : Option (List (String × String)) := none)
    (coord_dict : Option (List (String × String)) := none) (symmetric : Bool := false) :
    Except PyErr (DA (Fl K)) := do
  -- 213-220
  let varname_map := varname_map.getD
    [("u", "uo"), ("v", "vo"), ("dx", "dxCu"), ("dy", "dyCv"), ("area", "areacello_bu")]
  -- 223-227
  if (varname_map.map Prod.snd).any (fun v => !dset.names.contains v) then .error .valueError else
  -- 230
  let grid ← getXgcmGrid dset.dimNames coord_dict symmetric
  -- 232-239
  let u ← dset.getVar (← dictGet varname_map "u")
  let dx ← dset.getVar (← dictGet varname_map "dx")
  let du ← gridDiff grid.Y (u * dx)
  let v ← dset.getVar (← dictGet varname_map "v")
  let dy ← dset.getVar (← dictGet varname_map "dy")
  let dv ← gridDiff grid.X (v * dy)
  let area ← dset.getVar (← dictGet varname_map "area")
  return (-du + dv) / area

/-- derived.py:538-544: interpolate N² to the corner points if requested. -/
def pvN2 (zeta coriolis n2 : DA (Fl K)) (coord_dict : Option (List (String × String)))
    (symmetric interp_n2 : Bool) : Except PyErr (DA (Fl K)) :=
  if interp_n2 then do
    let grid ← getXgcmGrid (zeta.dimNames ++ coriolis.dimNames ++ n2.dimNames) coord_dict symmetric
    let n2 ← gridInterp grid.X n2
    gridInterp grid.Y n2
  else .ok n2

/-- derived.py:489-565 `calc_pv` (attributes omitted). -/
def calcPv (zeta coriolis n2 : DA (Fl K)) (gravity : Fl K := (9.8 : Fl K))
    (coord_dict : Option (List (String × String)) := none) (symmetric : Bool := false)
    (units : String := "m") (interp_n2 : Bool := true) : Except PyErr (DA (Fl K)) := do
  -- 538-544
  let n2 ← pvN2 zeta coriolis n2 coord_dict symmetric interp_n2
  -- 547
  let swpotvort := (zeta + coriolis) * (n2 / DA.scalar gravity)
  -- 549-563
  if units = "m" then return swpotvort
  else if units = "cm" then
    return (swpotvort / DA.scalar (100 : Fl K) * DA.scalar (1.0e14 : Fl K)).map Fl.abs
  else .error .valueError

end Momlevel
