import Verif.Model.Grid
import Mathlib.Analysis.SpecialFunctions.Trigonometric.Inverse
import Mathlib.Analysis.SpecialFunctions.Sqrt

/-!
# Nearest model points of a list of locations

Models `geolocate_points` of `/repo/src/momlevel/util.py`.

A model grid is a table with an index label for each row (of type `I`) and numeric columns; the table of
locations has a `name` column and numeric columns.  Simplifications: a column occurring twice has the
same values both times (line 326 keeps the first one); text columns other than `name` are dropped;
a warning is represented by the name it reports.

The ball tree of scikit-learn is not modelled: `BallTree` is any search that returns a nearest point in
the haversine metric, with any choice among equally near points.
-/

namespace Momlevel

/-- A table of model points: column names, and for each row its index label and its values. -/
structure ModelFrame (I : Type) where
  columns : List String
  rows : List (I × (String → Fl ℝ))

/-- A table of locations: column names, and for each row the `name` and the numeric values. -/
structure LocFrame where
  columns : List String
  rows : List (String × (String → Fl ℝ))

/-- scikit-learn's haversine distance of two points (latitude, longitude) in radians, util.py:335. -/
noncomputable def haversine (p q : ℝ × ℝ) : ℝ :=
  2 * Real.arcsin (Real.sqrt (Real.sin ((1 / 2) * (p.1 - q.1)) ^ 2
    + Real.cos p.1 * Real.cos q.1 * Real.sin ((1 / 2) * (p.2 - q.2)) ^ 2))

/-- `BallTree(points, metric="haversine").query(p, k=1)`, util.py:335-338: the position of a nearest
point.  Which one of several equally near points is returned is left open. -/
structure BallTree where
  query : List (ℝ × ℝ) → ℝ × ℝ → Nat
  query_lt : ∀ pts p, pts ≠ [] → query pts p < pts.length
  query_le : ∀ (pts : List (ℝ × ℝ)) (p q : ℝ × ℝ), q ∈ pts → haversine p (pts.getD (query pts p) q) ≤ haversine p q

/-- A pair of finite numbers; ValueError otherwise (part of `sklearn.utils.check_array`, util.py:335). -/
def finitePoint : Fl ℝ × Fl ℝ → Except PyErr (ℝ × ℝ)
  | (.fin a, .fin b) => .ok (a, b)
  | _ => .error .valueError

/-- `sklearn.utils.check_array`, which `BallTree` applies to the tree's points and to the queries
(util.py:335, 338): an empty table or a NaN or infinite entry is a ValueError. -/
def checkArray : List (Fl ℝ × Fl ℝ) → Except PyErr (List (ℝ × ℝ))
  | [] => .error .valueError
  | l => l.mapM finitePoint

/-- One row of the table returned by `geolocate_points`. -/
structure Located (I : Type) where
  /-- the location's `name` -/
  name : String
  /-- the location's other columns; the returned table lacks `lat` and `lon` (line 365) -/
  cols : String → Fl ℝ
  distance : Fl ℝ
  mod_index : Nat
  model_coords : Fl ℝ × Fl ℝ
  dim_vals : I
  real_coords : Fl ℝ × Fl ℝ

/-- `df[name]` raises a KeyError for a column that does not exist. -/
def needColumn (columns : List String) (name : String) : Except PyErr Unit :=
  if columns.contains name then .ok () else .error .keyError

/-- util.py:322-323: the rows with mask 1, if there is a mask and it is to be used. -/
noncomputable def maskRows {I : Type} (df : ModelFrame I) (apply_mask : Bool) :
    List (I × (String → Fl ℝ)) :=
  if apply_mask && df.columns.contains "mask" then
    df.rows.filter (fun r => Fl.eqv (r.2 "mask") (1.0 : Fl ℝ))
  else df.rows

/-- util.py:338-339: distance (in units of `rad_earth`) and position of the nearest model point. -/
noncomputable def nearestPoint (T : BallTree) (pts : List (ℝ × ℝ)) (rad_earth : Fl ℝ) (p : ℝ × ℝ) :
    Fl ℝ × Nat :=
  (.fin (haversine p (pts.getD (T.query pts p) p)) * rad_earth, T.query pts p)

/-- util.py:341-349: the names reported as unmappable.  A pandas comparison with None is False
throughout. -/
noncomputable def reported (threshold : Option (Fl ℝ))
    (l : List ((String × (String → Fl ℝ)) × (Fl ℝ × Nat))) : List String :=
  match threshold with
  | none => []
  | some t => (l.filter (fun r => Fl.le t r.2.1)).map (fun r => r.1.1)

/-- util.py:352: the locations kept. -/
noncomputable def withinThreshold (threshold : Option (Fl ℝ))
    (l : List ((String × (String → Fl ℝ)) × (Fl ℝ × Nat))) :
    List ((String × (String → Fl ℝ)) × (Fl ℝ × Nat)) :=
  match threshold with
  | none => l
  | some t => l.filter (fun r => Fl.le r.2.1 t)

/-- util.py:342-349: the warnings.  A row's name is needed only when there is something to report. -/
noncomputable def warnMissing (columns : List String) (threshold : Option (Fl ℝ))
    (disable_warning : Bool) (l : List ((String × (String → Fl ℝ)) × (Fl ℝ × Nat))) :
    Except PyErr (List String) :=
  if disable_warning then .ok []
  else if (reported threshold l).isEmpty then .ok []
  else if columns.contains "name" then .ok (reported threshold l)
  else .error .keyError

/-- util.py:355-363: one returned row. -/
def locatedRow {I : Type} (df1 : List (I × (String → Fl ℝ))) (ycoord1 xcoord1 : String)
    (r : (String × (String → Fl ℝ)) × (Fl ℝ × Nat)) : Except PyErr (Located I) :=
  match df1[r.2.2]? with
  | none => .error .indexError
  | some m => .ok
    { name := r.1.1
      cols := r.1.2
      distance := r.2.1
      mod_index := r.2.2
      model_coords := (m.2 ycoord1, m.2 xcoord1)
      dim_vals := m.1
      real_coords := (r.1.2 "lat", r.1.2 "lon") }

/-- util.py:252-367 `geolocate_points`: the returned rows and the names reported in warnings. -/
noncomputable def geolocatePoints {I : Type} (T : BallTree) (df_model : ModelFrame I)
    (df_locs : LocFrame) (threshold : Option (Fl ℝ) := none)
    (model_coords : String × String := ("geolat", "geolon")) (rad_earth : Fl ℝ := (6.378e03 : Fl ℝ))
    (loc_coords : String × String := ("lat", "lon")) (apply_mask : Bool := true)
    (disable_warning : Bool := true) : Except PyErr (List (Located I) × List String) := do
  let (ycoord1, xcoord1) := model_coords
  let (ycoord2, xcoord2) := loc_coords
  let df1 := maskRows df_model apply_mask
  -- 329-332
  needColumn df_model.columns xcoord1
  needColumn df_model.columns ycoord1
  needColumn df_locs.columns xcoord2
  needColumn df_locs.columns ycoord2
  -- 335
  let pts ← checkArray (df1.map (fun r => (npRadians (r.2 ycoord1), npRadians (r.2 xcoord1))))
  -- 338-339
  let qs ← checkArray (df_locs.rows.map (fun r => (npRadians (r.2 ycoord2), npRadians (r.2 xcoord2))))
  let df2 := df_locs.rows.zip (qs.map (nearestPoint T pts rad_earth))
  -- 341-349
  let warns ← warnMissing df_locs.columns threshold disable_warning df2
  -- 352
  let df2 := withinThreshold threshold df2
  -- 355-357
  let rows ← df2.mapM (locatedRow df1 ycoord1 xcoord1)
  -- 360-361
  needColumn df_locs.columns "lat"
  needColumn df_locs.columns "lon"
  return (rows, warns)

end Momlevel
