import Verif.Model.Geolocate
import Verif.Model.Validate

/-!
# Series at tide gauges

Models `extract_tidegauge` and `extract_point` of `/repo/src/momlevel/tidegauge.py`.

Every array carries the index labels of its dimensions, which are numbers; a dimension without a
coordinate has its positions as labels, as in xarray.  Simplifications: labels are numeric; when a label
occurs twice along a dimension the first occurrence is selected; the data frame of an array has only the
array's own column (xarray adds its non-index coordinates); attributes, warnings and the coordinates of
the result are omitted; csv files are given as tables.
-/

namespace Momlevel

variable {V : Type}

/-- A DataArray of numbers with its index labels: `label d k` is the label at position `k` of `d`. -/
structure LabelledDA where
  da : DA (Fl ℝ)
  label : String → Nat → Fl ℝ

/-- The array to extract from: values, index labels and coordinates. -/
structure GaugeArray (V : Type) where
  da : DA V
  label : String → Nat → Fl ℝ
  coords : List (String × DA (Fl ℝ))

/-- The `arr` argument: a DataArray or something else. -/
inductive ArrArg (V : Type)
  | da (a : GaugeArray V)
  | other

/-- The `xcoord` and `ycoord` arguments: a name, a named DataArray or something else. -/
inductive AxisArg
  | name (s : String)
  | da (name : String) (a : LabelledDA)
  | other

/-- The `mask` argument: None, a DataArray or something else. -/
inductive MaskArg
  | none
  | da (a : LabelledDA)
  | other

/-- The arguments as `validate_tidegauge_data` sees them (the coordinates of a DataArray passed as
`xcoord`, `ycoord` or `mask` do not matter there). -/
def ArrArg.tg : ArrArg V → TgArg
  | .da a => .dataArray (a.coords.map Prod.fst)
  | .other => .other

/-- See `ArrArg.tg`. -/
def AxisArg.tg : AxisArg → TgArg
  | .name s => .str s
  | .da _ _ => .dataArray []
  | .other => .other

/-- See `ArrArg.tg`. -/
def MaskArg.tg : MaskArg → TgArg
  | .none => .none
  | .da _ => .dataArray []
  | .other => .other

/-- The array itself, once validated (tidegauge.py:88). -/
def ArrArg.get : ArrArg V → Except PyErr (GaugeArray V)
  | .da a => .ok a
  | .other => .error .attributeError

/-- tidegauge.py:91-92: `arr[xcoord] if isinstance(xcoord, str) else xcoord`, with its name. -/
def resolveAxis (a : GaugeArray V) : AxisArg → Except PyErr (String × LabelledDA)
  | .name s => match a.coords.lookup s with
    | some c => .ok (s, ⟨c, a.label⟩)
    | none => .error .keyError
  | .da s c => .ok (s, c)
  | .other => .error .attributeError

/-- tidegauge.py:100-101: two-dimensional coordinates from one-dimensional ones.  The labels of the new
arrays are the values of the given coordinates (util.py:656, 662). -/
def tileAxes (x y : String × LabelledDA) :
    Except PyErr ((String × LabelledDA) × (String × LabelledDA)) := do
  let (x2, y2) ← tileNominalCoords (.da x.1 x.2.da) (.da y.1 y.2.da)
  let label : String → Nat → Fl ℝ := fun d k =>
    if d = y.1 then y.2.da.get (Function.update (fun _ => 0) y.1 k)
    else x.2.da.get (Function.update (fun _ => 0) x.1 k)
  return (("geolon", ⟨x2, label⟩), ("geolat", ⟨y2, label⟩))

/-- tidegauge.py:100-101: tile if the coordinates have one dimension. -/
def tileIfFlat (x y : String × LabelledDA) :
    Except PyErr ((String × LabelledDA) × (String × LabelledDA)) :=
  if x.2.da.ndim = 1 then tileAxes x y else .ok (x, y)

/-- tidegauge.py:109: the mask with zeros for missing values, or ones everywhere. -/
noncomputable def resolveMask (x : LabelledDA) : MaskArg → LabelledDA
  | .da m => ⟨m.da.map (Fl.fillna (0.0 : Fl ℝ)), m.label⟩
  | _ => ⟨x.da.map (fun _ => (1 : Fl ℝ)), x.label⟩

/-- All index combinations of the dimensions, the last one varying fastest. -/
def cells : List (String × Nat) → List Env
  | [] => [fun _ => 0]
  | (d, n) :: D => (List.range n).flatMap (fun k => (cells D).map (fun e => Function.update e d k))

/-- The row of labels of a cell. -/
def LabelledDA.labelsAt (a : LabelledDA) (e : Env) : List (Fl ℝ) :=
  a.da.dims.map (fun p => a.label p.1 (e p.1))

/-- `arr.to_dataframe()`, tidegauge.py:116-118: labels and value of every cell. -/
def LabelledDA.toFrame (a : LabelledDA) : Except PyErr (List (List (Fl ℝ) × Fl ℝ)) :=
  match a.da.dims with
  | [] => .error .valueError
  | D => .ok ((cells D).map (fun e => (a.labelsAt e, a.da.get e)))

/-- The columns of one model row. -/
def modelColumns (xname yname : String) (vx vy vm : Fl ℝ) (c : String) : Fl ℝ :=
  if c = xname then vx else if c = yname then vy else if c = "mask" then vm else .nan

/-- `pd.concat([x, y, m], axis=1)`, tidegauge.py:114-121: equal indices are joined row by row, different
ones by label, with NaN for labels that are absent from a table. -/
noncomputable def concatFrames (xname yname : String) (x y m : List (List (Fl ℝ) × Fl ℝ)) :
    ModelFrame (List (Fl ℝ)) :=
  let ix := x.map Prod.fst
  let iy := y.map Prod.fst
  let im := m.map Prod.fst
  { columns := [xname, yname, "mask"]
    rows :=
      if iy = ix ∧ im = ix then
        (x.zip (y.zip m)).map (fun r =>
          (r.1.1, modelColumns xname yname r.1.2 r.2.1.2 r.2.2.2))
      else
        (ix ++ iy ++ im).eraseDups.map (fun k => (k, modelColumns xname yname
          ((x.lookup k).getD .nan) ((y.lookup k).getD .nan) ((m.lookup k).getD .nan))) }

/-- tidegauge.py:125-133: the table of gauges.  `files` gives the content of the csv files that exist,
with `PSMSL_site` renamed to `name`. -/
def readGauges (files : String → Option LocFrame) (csv : String) : Except PyErr LocFrame :=
  let path := if csv = "us" then "momlevel/resources/us_tide_gauges.csv"
    else if csv = "global" then "momlevel/resources/global_tide_gauges.csv" else csv
  match files path with
  | some t => .ok
      { columns := t.columns.map (fun c => if c = "PSMSL_site" then "name" else c)
        rows := t.rows }
  | none => .error .assertionError

/-- The position of a label along a dimension: ValueError without the dimension, KeyError without the
label. -/
noncomputable def labelPos (arr : GaugeArray V) (d : String) (v : Fl ℝ) :
    Except PyErr (String × Nat) :=
  match arr.da.dims.find? (fun p => p.1 == d) with
  | none => .error .valueError
  | some p => match (List.range p.2).find? (fun k => decide (arr.label d k = v)) with
    | none => .error .keyError
    | some k => .ok (d, k)

/-- `arr.sel(**dict(zip(dims, dim_vals)))`, tidegauge.py:34. -/
noncomputable def selLabels (arr : GaugeArray V) (dims : List String) (vals : List (Fl ℝ)) :
    Except PyErr (DA V) := do
  let pos ← (dims.zip vals).mapM (fun p => labelPos arr p.1 p.2)
  return ⟨arr.da.dims.filter (fun q => !(pos.map Prod.fst).contains q.1),
    fun e => arr.da.get (fun d => (pos.lookup d).getD (e d))⟩

/-- tidegauge.py:149: one entry of the result, `row["name"]: extract_point(arr, row)`. -/
noncomputable def extractPoint (arr : GaugeArray V) (columns : List String) (dims : List String)
    (row : Located (List (Fl ℝ))) : Except PyErr (String × DA V) := do
  needColumn columns "name"
  let s ← selLabels arr dims row.dim_vals
  return (row.name, s)

/-- tidegauge.py:40-152 `extract_tidegauge`: the variables of the result. -/
noncomputable def extractTidegauge (T : BallTree) (files : String → Option LocFrame) (arr : ArrArg V)
    (xcoord : AxisArg := .name "geolon") (ycoord : AxisArg := .name "geolat") (csv : String := "us")
    (mask : MaskArg := .none) (threshold : Option (Fl ℝ) := none) (disable_warning : Bool := true) :
    Except PyErr (List (String × DA V)) := do
  -- 88
  validateTidegaugeData arr.tg xcoord.tg ycoord.tg mask.tg
  let a ← arr.get
  -- 91-92
  let x ← resolveAxis a xcoord
  let y ← resolveAxis a ycoord
  -- 95-97
  pyAssert (x.2.da.ndim == y.2.da.ndim)
  -- 100-101
  let (x, y) ← tileIfFlat x y
  -- 104-106: both sides of the assertion are the dimensions of the x coordinate
  let xdims := x.2.da.dimNames
  -- 109-111
  let m := resolveMask x.2 mask
  -- 114-121
  let fx ← x.2.toFrame
  let fy ← y.2.toFrame
  let fm ← m.toFrame
  let df_model := concatFrames x.1 y.1 fx fy fm
  -- 125-133
  let df_loc ← readGauges files csv
  -- 136-142
  let (df_mapped, _) ← geolocatePoints T df_model df_loc threshold (y.1, x.1) (6.378e03 : Fl ℝ)
    ("lat", "lon") true disable_warning
  -- 148-150
  let entries ← df_mapped.mapM (extractPoint a df_loc.columns xdims)
  return pyDict entries

/-- The column `PSMSL_site` of /repo/src/momlevel/resources/us_tide_gauges.csv:2-118, the table used by
default. -/
def usGaugeNames : List String :=
  ["ADAK_SWEEPER_COVE", "ALAMEDA", "ANCHORAGE", "ANNAPOLIS", "APALACHICOLA", "APRA_HARBOR",
   "ARENA_COVE", "ASTORIA", "ATLANTIC_CITY", "BALTIMORE", "BAR_HARBOR",
   "BAY_WAVELAND_YACHT_CLUB_II", "BEAUFORT", "BERGEN_POINT", "BOSTON", "BRIDGEPORT",
   "CAMBRIDGE_II", "CAPE_MAY", "CEDAR_KEY_II", "CHARLESTON_I", "CHARLESTON_II", "CHARLOTTE_AMALIE",
   "CHERRY_POINT", "CLEARWATER_BEACH", "CORDOVA", "CORPUS_CHRISTI", "CRESCENT_CITY",
   "DAUPHIN_ISLAND", "DUCK_PIER_OUTSIDE", "EASTPORT", "EUGENE_ISLAND", "FERNANDINA_BEACH",
   "FORT_MYERS", "FORT_PULASKI", "FRIDAY_HARBOR", "GALVESTON_II", "GRAND_ISLE", "HILO", "HONOLULU",
   "JUNEAU", "KAHULUI_HARBOR", "KAWAIHAE", "KETCHIKAN", "KEY_WEST", "KINGS_POINT",
   "KIPTOPEKE_BEACH", "KODIAK_ISLAND", "KWAJALEIN", "LA_JOLLA", "LAKE_WORTH_PIER", "LEWES",
   "LEWISETTA", "LIME_TREE_BAY", "LOS_ANGELES", "MAGUEYES_ISLAND", "MAYPORT", "MAYPORT",
   "MIDWAY_ISLAND", "MOKUOLOE_ISLAND", "MONTAUK", "MONTEREY", "NANTUCKET_ISLAND", "NAPLES",
   "NAWILIWILI_BAY", "NEAH_BAY", "NEWPORT", "NEW_YORK", "NIKISKI", "NOME", "N_SPIT",
   "OCEAN_CITY_INLET", "OREGON_INLET_MARINA", "PADRE_ISLAND", "PENSACOLA", "PHILADELPHIA",
   "POINT_REYES", "PORT_ANGELES", "PORT_CHICAGO", "PORT_ISABEL", "PORTLAND", "PORT_ORFORD",
   "PORT_TOWNSEND", "PROVIDENCE", "REDWOOD_CITY", "REEDY_POINT", "ROCKPORT", "SAN_DIEGO",
   "SAND_POINT", "SANDY_HOOK", "SAN_FRANCISCO", "SAN_JUAN", "SANTA_BARBARA", "SANTA_MONICA",
   "SEATTLE", "SEAVEY_ISLAND", "SELDOVIA", "SEWARD", "SEWELLS_POINT", "SITKA", "SKAGWAY",
   "SOLOMONS_ISLAND", "SOUTH_BEACH", "SPRINGMAID_PIER", "ST_GEORGES", "ST_PETERSBURG",
   "TOKE_POINT", "TOLCHESTER_BEACH", "TRIDENT_PIER", "UNALASKA", "VACA_KEY", "VALDEZ",
   "VIRGINIA_KEY", "WAKE_ISLAND", "WASHINGTON_DC", "WILMINGTON", "WOODS_HOLE", "YAKUTAT"]

end Momlevel
