import Verif.Model.Attrs

/-!
# Attributes of `monthly_average` and `annual_cycle`

Model of what /repo/src/momlevel/util.py:122-196 and 454-511 do to the metadata of a Dataset.  Unlike
`annual_average`, these functions do not put attributes back.  Whether the reduction of a group keeps the
attributes of a variable depends on xarray (its version and its option `keep_attrs`): parameter `keep`.
Simplification as in `Model/AverageDS.lean`: every averaged variable has the time dimension.
-/

namespace Momlevel

/-- util.py:151-156 and 476-481: a new Dataset, hence without global attributes, with the numeric variables;
a coordinate comes along with a variable that has all its dimensions. -/
def numericMeta (x : DSMeta) (numeric : String → Bool) : DSMeta :=
  let vars := x.data.filter (fun p => numeric p.1)
  ⟨vars, x.coords.filter (fun p => vars.any (fun q => p.2.dims.all (fun d => q.2.dims.contains d))), []⟩

/-- `groupby(…).mean(tcoord)` (and the other statistics), then `rename` and `assign_coords` of the time axis, which
is a plain list of dates: util.py:180-194 and 490-505.  Coordinates along time are dropped. -/
def groupMeta (keep : Bool) (dims : List String → List String) (x : DSMeta) (tcoord : String) : DSMeta :=
  ⟨x.data.map (fun p => (p.1, ⟨dims p.2.dims, if keep then p.2.attrs else [], []⟩)),
    dictSet (x.coords.filter (fun p => !p.2.dims.contains tcoord)) tcoord ⟨[tcoord], [], []⟩, x.attrs⟩

/-- util.py:454-511 `monthly_average` of a Dataset, metadata; time becomes the first dimension (509). -/
def monthlyMeta (keep : Bool) (x : DSMeta) (numeric : String → Bool := fun _ => true)
    (tcoord : String := "time") : DSMeta :=
  groupMeta keep (fun ds => tcoord :: ds.filter (· != tcoord)) (numericMeta x numeric) tcoord

/-- util.py:122-196 `annual_cycle` of a Dataset, metadata. -/
def cycleMeta (keep : Bool) (x : DSMeta) (numeric : String → Bool := fun _ => true)
    (tcoord : String := "time") : DSMeta :=
  groupMeta keep id (numericMeta x numeric) tcoord

end Momlevel
