import Verif.Model.Util

/-!
# Attributes of results

Model of the attribute dictionaries set in /repo/src/momlevel/derived.py, dynamic.py, steric.py,
tidegauge.py and of the attribute loops at the end of `annual_average` (util.py:107-117).

Simplifications: attribute values are strings (for tide gauges: any type); xarray's own rules on the
attributes of intermediate results do not matter, since every dictionary below is assigned outright,
except for coordinates, where they are a parameter.  Attributes of `calc_dz`, `monthly_average` and
`annual_cycle` are whatever xarray leaves and are not modelled.
-/

namespace Momlevel

/-- `{**a, **b}`: the entries of `b` are written over those of `a`. -/
def dictMerge {α : Type} (a b : Dict α) : Dict α := b.foldl (fun d p => dictSet d p.1 p.2) a

/-- `x[key].attrs if key in x else {}` for the attributes of several variables. -/
def attrsOr {α : Type} (vars : List (String × Dict α)) (key : String) : Dict α :=
  (vars.lookup key).getD []

/-- derived.py:109, 153, 481, 632: the remark on the equation of state. -/
def eosComment (eos : String) : String := "calculated with the " ++ eos ++ " equation of state"

/-- The functions of derived.py, dynamic.py and util.py that assign the attributes of their result,
with the arguments that enter the attributes.  `level` is the printed form of the level.
`cellArea` is `standard_grid_cell_area` (util.py:548-617) with DataArray coordinates. -/
inductive Calc
  | alpha (eos : String)
  | beta (eos : String)
  | coriolis
  | relVort
  | n2
  | masso
  | pdens (level eos : String)
  | pv (cm : Bool)
  | rossbyRd
  | rho (eos : String)
  | rhoga
  | spice
  | stabilityAngle
  | volo
  | waveSpeed
  | inverseBarometer
  | cellArea

/-- The attribute dictionary of the result of each function, in the order of derived.py (lines
109-113, 153-157, 178-182, 241-245, 403-407, 439-443, 479-484, 550-561, 589-592, 632-637, 662-665,
705-709, 761-764, 790-794, 823-826), then dynamic.py:39 and util.py:611-615. -/
def calcAttrs : Calc → Dict String
  | .alpha eos => [("long_name", "Thermal expansion coefficient"), ("comment", eosComment eos),
      ("units", "degC-1")]
  | .beta eos => [("long_name", "Haline contraction coefficient"), ("comment", eosComment eos),
      ("units", "PSU-1")]
  | .coriolis => [("standard_name", "coriolis_parameter"), ("long_name", "Coriolis parameter"),
      ("units", "s-1")]
  | .relVort => [("standard_name", "ocean_relative_vorticity"),
      ("long_name", "Ocean relative vorticity"), ("units", "s-1")]
  | .n2 => [("standard_name", "square_of_brunt_vaisala_frequency_in_sea_water"),
      ("long_name", "Square of seawater buoyancy frequency"), ("units", "s-2")]
  | .masso => [("standard_name", "sea_water_mass"), ("long_name", "Sea Water Mass"), ("units", "kg")]
  | .pdens level eos => [("standard_name", "sea_water_potential_density"),
      ("long_name", "Sea water potential density referenced to " ++ level ++ " m"),
      ("comment", eosComment eos), ("units", "kg m-3")]
  | .pv cm => [("long_name", "Ocean potential vorticity"),
      ("units", if cm then "10^14 cm-1 s-1" else "m-1 s-1")]
  | .rossbyRd => [("long name", "Rossby radius of deformation"), ("units", "m")]
  | .rho eos => [("standard_name", "sea_water_density"), ("long_name", "In situ sea water density"),
      ("comment", eosComment eos), ("units", "kg m-3")]
  | .rhoga => [("long_name", "Global Average Sea Water Density"), ("units", "kg m-3")]
  | .spice => [("long_name", "Sea water spiciness"),
      ("comment", "calculated based on Flament 2002 methodology"), ("units", "1")]
  | .stabilityAngle => [("long_name", "Stability angle"), ("units", "degrees")]
  | .volo => [("standard_name", "sea_water_volume"), ("long_name", "Sea Water Volume"),
      ("units", "m3")]
  | .waveSpeed => [("long name", "Ocean gravity wave speed of the first baroclinic mode"),
      ("units", "m s-1")]
  | .inverseBarometer => [("long_name", "Inverse Barometer Height"), ("units", "m")]
  | .cellArea => [("long_name", "area of grid cell"), ("standard_name", "cell_area"),
      ("units", "m2")]

/-- derived.py:56 and 69: the attributes of `adjust_negative_n2`. -/
def adjustN2Attrs (attrs : Dict String) : Dict String :=
  dictMerge attrs [("comment", "adjustment applied for negative values")]

/-- derived.py:403-409: the attributes of `calc_n2`. -/
def calcN2Attrs (adjust_negative : Bool) : Dict String :=
  if adjust_negative then adjustN2Attrs (calcAttrs .n2) else calcAttrs .n2

/-- tidegauge.py:36: the attributes of the series of one gauge; `row` is the row of the mapped
locations, column name ↦ value. -/
def pointAttrs {α : Type} (arr row : Dict α) : Dict α := dictMerge arr row

/-- The metadata of one variable. -/
structure VarMeta where
  dims : List String
  attrs : Dict String
  encoding : Dict String

/-- The metadata of a Dataset: data variables, coordinates and global attributes.  The encoding of
the coordinates is not followed. -/
structure DSMeta where
  data : List (String × VarMeta)
  coords : List (String × VarMeta)
  attrs : Dict String

/-- `xobj.variables`: name ↦ attributes. -/
def DSMeta.varAttrs (x : DSMeta) : List (String × Dict String) :=
  (x.data ++ x.coords).map (fun p => (p.1, p.2.attrs))

/-- `xobj.coords`: name ↦ attributes. -/
def DSMeta.coordAttrs (x : DSMeta) : List (String × Dict String) :=
  x.coords.map (fun p => (p.1, p.2.attrs))

/-- `xobj.dims` -/
def DSMeta.dimNames (x : DSMeta) : List String := (x.data ++ x.coords).flatMap (fun p => p.2.dims)

/-- One of the loops `for v in …: result[v].attrs = …`, util.py:108-115, for the names selected by
`sel`. -/
def setAttrs (sel : String → Bool) (f : String → Dict String) (vars : List (String × VarMeta)) :
    List (String × VarMeta) :=
  vars.map (fun p => if sel p.1 then (p.1, { p.2 with attrs := f p.1 }) else p)

/-- util.py:82-92 and 105 on metadata: the averaged variables lose attributes and encoding and get the
dimension "time" in place of `tcoord`; the coordinates of these variables are kept unless they lie
along `tcoord`; a coordinate "time" is added.  `numeric` tells which variables are averaged. -/
def annualReduceMeta (x : DSMeta) (numeric : String → Bool) (tcoord : String) : DSMeta :=
  let vars := x.data.filter (fun p => numeric p.1)
  ⟨vars.map (fun p => (p.1, ⟨"time" :: p.2.dims.filter (· != tcoord), [], []⟩)),
    dictSet (x.coords.filter (fun p => !p.2.dims.contains tcoord
        && vars.any (fun q => p.2.dims.all (fun d => q.2.dims.contains d))))
      "time" ⟨["time"], [], []⟩, []⟩

/-- util.py:107-117: attributes are put back. -/
def restoreAttrs (x r : DSMeta) : DSMeta :=
  -- 107-109
  let data := setAttrs (fun _ => true) (attrsOr x.varAttrs) r.data
  let coords := setAttrs (fun _ => true) (attrsOr x.varAttrs) r.coords
  -- 111-112
  let coords := setAttrs (fun _ => true) (attrsOr x.coordAttrs) coords
  -- 114-115
  let coords := setAttrs (fun d => r.dimNames.contains d)
    (fun d => if x.dimNames.contains d then attrsOr x.coordAttrs d else []) coords
  -- 117
  ⟨data, coords, x.attrs⟩

/-- util.py:49-119 `annual_average` of a Dataset, metadata. -/
def annualMeta (x : DSMeta) (numeric : String → Bool := fun _ => true) (tcoord : String := "time") :
    DSMeta :=
  restoreAttrs x (annualReduceMeta x numeric tcoord)

/-- `str.capitalize` (ASCII letters). -/
def pyCapitalize (s : String) : String :=
  match s.toList with
  | [] => ""
  | c :: cs => String.ofList (c.toUpper :: cs.map Char.toLower)

/-- steric.py:139-174: the metadata of the two result variables, whose dimensions are `dims`. -/
def stericVars (dims : String → List String) (variant domain dtype : String) :
    List (String × VarMeta) :=
  let first : String × VarMeta :=
    if domain = "global" then ("reference_height", ⟨dims "reference_height",
      [("long_name", "Reference column height"), ("units", "m")], [("dtype", dtype)]⟩)
    else ("delta_rho", ⟨dims "delta_rho",
      [("long_name", "change in in situ density from reference state"), ("units", "kg m-3")],
      [("dtype", dtype)]⟩)
  [first, (variant, ⟨dims variant,
    [("long_name", pyCapitalize variant ++ " height adjustment"), ("units", "m")],
    [("dtype", dtype)]⟩)]

/-- steric.py:137-182: the metadata of the result of a successful run.  `dset` holds the attributes of
the variables of the (renamed) input dataset, `coords` the coordinates of the result as arithmetic
leaves them. -/
def stericMeta (dset : List (String × Dict String)) (coords : List (String × VarMeta))
    (dims : String → List String) (variant domain dtype : String) (annual : Bool) : DSMeta :=
  -- 137-174
  let data := stericVars dims variant domain dtype
  -- 177-179
  let coords := setAttrs (fun v => (dset.map Prod.fst).contains v) (attrsOr dset) coords
  let result : DSMeta := ⟨data, coords, []⟩
  -- 181-182
  if annual then annualMeta result else result

end Momlevel
