import Verif.Model.Coriolis
import Verif.Model.Dataset

/-!
# Cell areas of a regular grid and tiled coordinates

Models `standard_grid_cell_area` and `tile_nominal_coords` of `/repo/src/momlevel/util.py`.

Simplifications: the coordinate arrays are one-dimensional, as documented; attributes, names and the
coordinates attached to the result are omitted; warnings are not modelled.
-/

namespace Momlevel

/-- `np.radians` -/
noncomputable def npRadians (x : Fl ℝ) : Fl ℝ := x * npPi / (180.0 : Fl ℝ)

/-- `a[i]` for a one-dimensional numpy array. -/
def npItem {V : Type} (a : List V) (i : Nat) : Except PyErr V :=
  match a[i]? with
  | some v => .ok v
  | none => .error .indexError

/-- util.py:548-600 `standard_grid_cell_area` on numpy arrays: the table of areas, row `j` (latitude),
column `i` (longitude). -/
noncomputable def standardGridCellArea (lat lon : List (Fl ℝ)) (r_earth : Fl ℝ := (6371.0e3 : Fl ℝ)) :
    Except PyErr (List (List (Fl ℝ))) := do
  -- 584-585
  let lat1 ← npItem lat 1
  let lat0 ← npItem lat 0
  let d_lat := lat1 - lat0
  let lon1 ← npItem lon 1
  let lon0 ← npItem lon 0
  let d_lon := lon1 - lon0
  -- 588-600
  return lat.map (fun la => lon.map (fun lo =>
    let lat0 := la - d_lat / (2 : Fl ℝ)
    let lat1 := la + d_lat / (2 : Fl ℝ)
    let lon0 := lo - d_lon / (2 : Fl ℝ)
    let lon1 := lo + d_lon / (2 : Fl ℝ)
    (npPi / (180.0 : Fl ℝ)) * r_earth * r_earth
      * Fl.abs (npSin (npRadians lat0) - npSin (npRadians lat1))
      * Fl.abs (lon0 - lon1)))

/-- `arr.values` of a one-dimensional DataArray. -/
def DA.values1 {V : Type} (a : DA V) : List V :=
  match a.dims with
  | [(d, n)] => (List.range n).map (fun k => a.get (Function.update (fun _ => 0) d k))
  | _ => []

/-- util.py:548-617 `standard_grid_cell_area` on DataArrays: dimensions `(lat_dim, lon_dim)`
(lines 602-610).  Simplification: the arrays carry their own coordinate (line 608 reads it). -/
noncomputable def standardGridCellAreaDA (lat lon : DA (Fl ℝ))
    (r_earth : Fl ℝ := (6371.0e3 : Fl ℝ)) : Except PyErr (DA (Fl ℝ)) := do
  let area ← standardGridCellArea lat.values1 lon.values1 r_earth
  match lat.dims, lon.dims with
  | [(lat_dim, n)], [(lon_dim, m)] =>
    return ⟨[(lat_dim, n), (lon_dim, m)], fun e => (area.getD (e lat_dim) []).getD (e lon_dim) .nan⟩
  | _, _ => .error .valueError

/-- A coordinate argument: a named DataArray or something else. -/
inductive CoordArg (V : Type)
  | da (name : String) (arr : DA V)
  | other

/-- util.py:652-664: the two arrays made by `np.meshgrid(xcoord, ycoord)` and their labels.  Attaching a
coordinate that does not have exactly its own name as dimension is a ValueError. -/
def tileArrays {V : Type} (xname : String) (x : DA V) (yname : String) (y : DA V) :
    Except PyErr (DA V × DA V) :=
  match x.dims, y.dims with
  | [(xd, nx)], [(yd, ny)] =>
    if xd = xname ∧ yd = yname ∧ xname ≠ yname then
      .ok (⟨[(yname, ny), (xname, nx)], fun e => x.get (Function.update (fun _ => 0) xd (e xname))⟩,
        ⟨[(yname, ny), (xname, nx)], fun e => y.get (Function.update (fun _ => 0) yd (e yname))⟩)
    else .error .valueError
  | _, _ => .error .valueError

/-- util.py:620-666 `tile_nominal_coords` -/
def tileNominalCoords {V : Type} (xcoord ycoord : CoordArg V) : Except PyErr (DA V × DA V) :=
  match xcoord, ycoord with
  | .da xname x, .da yname y => tileArrays xname x yname y
  | _, _ => .error .assertionError

end Momlevel
