import Verif.Model.Calendar
import Verif.Model.Steric
import Mathlib.Data.List.Sort
import Mathlib.Analysis.SpecialFunctions.Sqrt

/-!
# Time averages: `annual_average`, `annual_cycle`, `monthly_average`

Model of /repo/src/momlevel/util.py:49-196 and 454-511 and of the `annual=True` option of `steric`
(/repo/src/momlevel/steric.py:181-182).

A timed object carries, besides its data, the values of its time-like coordinates by name.
Simplifications: coordinates other than the time axis and all attributes of the result are omitted
(util.py:108-117 copies them); a variable with a dimension called "time" that is not `tcoord` is not
covered (line 91 would concatenate along the existing dimension); of a dataset's non-numeric
variables only their names matter.
-/

namespace Momlevel

variable {K : Type} [Field K] [LinearOrder K]

/-- An xarray object together with its `cftime` coordinates (name ↦ values). -/
structure Timed (A : Type) where
  obj : A
  axes : List (String × TimeAxis)

/-- `xobj[tcoord].values[0].calendar` together with the axis, util.py:67, 146, 470: a KeyError without
the coordinate, an IndexError for an empty axis. -/
def Timed.axis {A : Type} (x : Timed A) (tcoord : String) : Except PyErr TimeAxis := do
  let ax ← dictGet x.axes tcoord
  match ax.stamps with
  | [] => .error .indexError
  | _ => return ax

/-- The keys of a `groupby`: the distinct values in increasing order. -/
def groupKeys (l : List Nat) : List Nat := l.dedup.insertionSort (· ≤ ·)

/-- The positions of the samples of one group, in order. -/
def groupPos (l : List Nat) (k : Nat) : List Nat :=
  (List.range l.length).filter (fun i => l.getD i 0 == k)

/-- The years of a time axis: `{tcoord}.year`. -/
def TimeAxis.years (ax : TimeAxis) : List Nat := ax.stamps.map (fun s => s.date.year)

/-- The months of a time axis: `{tcoord}.month`. -/
def TimeAxis.months (ax : TimeAxis) : List Nat := ax.stamps.map (fun s => s.date.month)

/-- `axis.isel(positions)`: the time axis of one group. -/
def TimeAxis.sel (ax : TimeAxis) (pos : List Nat) : TimeAxis :=
  ⟨ax.cal, pos.map (fun i => ax.stamps.getD i midMonths.default)⟩

/-- The days of the month of each time: `{tcoord}.dt.days_in_month`, util.py:88. -/
def TimeAxis.daysInMonth (ax : TimeAxis) : List Nat :=
  ax.stamps.map (fun s => Momlevel.daysInMonth ax.cal s.date.year s.date.month)

/-- `weighted(w).mean(dim)` of a column of (value, weight) pairs: missing values carry no weight and a
total weight of zero gives NaN (xarray `_weighted_mean`, used at util.py:87-89). -/
def weightedMean (l : List (Fl K × Nat)) : Fl K :=
  let weightedSum := Fl.nansum (l.map (fun p => Fl.fillna (.fin 0) p.1 * .fin (p.2 : K)))
  let sumOfWeights := Fl.nansum (l.map (fun p => Fl.sel (Fl.notnull p.1) (.fin (p.2 : K)) (.fin 0)))
  weightedSum / Fl.sel (!Fl.eqv sumOfWeights (.fin 0)) sumOfWeights .nan

/-- `mean(dim)` (skipna). -/
def nanmean (l : List (Fl K)) : Fl K :=
  Fl.nansum l / .fin ((l.filter Fl.notnull).length : K)

/-- `min(dim)` (skipna): NaN if everything is missing. -/
def nanmin (l : List (Fl K)) : Fl K :=
  (l.filter Fl.notnull).foldr (fun a b => if Fl.le b a then b else a) .nan

/-- `max(dim)` (skipna): NaN if everything is missing. -/
def nanmax (l : List (Fl K)) : Fl K :=
  (l.filter Fl.notnull).foldr (fun a b => if Fl.le a b then b else a) .nan

/-- `np.sqrt` -/
noncomputable def flSqrt : Fl ℝ → Fl ℝ :=
  Fl.liftFn (fun a => if a < 0 then .nan else .fin (Real.sqrt a)) .nan .pinf

/-- `std(dim)` (skipna, ddof=0), numpy's `nanstd`: root of the mean squared deviation from the mean of
the samples present.  A NaN that arises from an infinite sample is not skipped. -/
noncomputable def nanstd (l : List (Fl ℝ)) : Fl ℝ :=
  let present := l.filter Fl.notnull
  flSqrt ((present.map (fun v => (v - nanmean l) * (v - nanmean l))).foldr (· + ·) (.fin 0)
    / .fin (present.length : ℝ))

/-- The samples of one column at the given positions of the time dimension. -/
def column (x : DA (Fl K)) (tcoord : String) (e : Env) (pos : List Nat) : List (Fl K) :=
  pos.map (fun i => x.get (Function.update e tcoord i))

/-- The per-year reduction of one array, util.py:83-92: the weighted mean of each year's group,
concatenated along a new leading dimension that is always called "time". -/
def annualReduce (x : DA (Fl K)) (ax : TimeAxis) (tcoord : String) : DA (Fl K) :=
  ⟨("time", (groupKeys ax.years).length) :: x.dims.filter (fun p => p.1 != tcoord),
   fun e =>
    let pos := groupPos ax.years ((groupKeys ax.years).getD (e "time") 0)
    weightedMean ((column x tcoord e pos).zip (ax.sel pos).daysInMonth)⟩

/-- util.py:85-86: every year's group must have 12 samples. -/
def annualCheck (ax : TimeAxis) : Except PyErr Unit :=
  pyAssert ((groupKeys ax.years).all (fun y => (groupPos ax.years y).length == 12))

/-- util.py:101-104: the middle of each year. -/
def annualAxis (ax : TimeAxis) : TimeAxis :=
  ⟨ax.cal, (groupKeys ax.years).map (midYear ax.cal)⟩

/-- util.py:49-119 `annual_average` of a DataArray. -/
def annualAverage (x : Timed (DA (Fl K))) (tcoord : String := "time") :
    Except PyErr (Timed (DA (Fl K))) := do
  let ax ← x.axis tcoord
  annualCheck ax
  return ⟨annualReduce x.obj ax tcoord, [("time", annualAxis ax)]⟩

/-- util.py:71-76, 150-155, 474-479: the variables that are averaged, namely those that are neither
dimensions nor coordinates and have a numeric dtype (`isObject` tells the others); without a
variable that has the time dimension the `groupby` does not find it (KeyError). -/
def averagedVars (x : DS (Fl K)) (isObject : String → Bool) (tcoord : String) :
    Except PyErr (List (String × DA (Fl K))) :=
  let vars := x.vars.filter (fun p => !(x.dimNames.contains p.1 || x.coords.contains p.1 || isObject p.1))
  if vars.any (fun p => p.2.dimNames.contains tcoord) then .ok vars else .error .keyError

/-- util.py:49-119 `annual_average` of a Dataset.  A variable without the time dimension is averaged
too: it becomes a constant series along "time". -/
def annualAverageDS (x : Timed (DS (Fl K))) (isObject : String → Bool := fun _ => false)
    (tcoord : String := "time") : Except PyErr (Timed (DS (Fl K))) := do
  let ax ← x.axis tcoord
  let vars ← averagedVars x.obj isObject tcoord
  annualCheck ax
  return ⟨⟨vars.map (fun p => (p.1, annualReduce p.2 ax tcoord)), []⟩, [("time", annualAxis ax)]⟩

/-- util.py:486-502: the twelve monthly means of each year; assigning the twelve mid-month times fails
(ValueError) for a year without samples in some month. -/
def monthlyAverage (x : Timed (DA (Fl K))) (tcoord : String := "time") :
    Except PyErr (Timed (DA (Fl K))) := do
  let ax ← x.axis tcoord
  let ys := groupKeys ax.years
  let year : Nat → TimeAxis := fun y => ax.sel (groupPos ax.years y)
  if ys.all (fun y => (groupKeys (year y).months).length == 12) then
    return ⟨⟨(tcoord, 12 * ys.length) :: x.obj.dims.filter (fun p => p.1 != tcoord),
      fun e =>
        let y := ys.getD (e tcoord / 12) 0
        let m := (groupKeys (year y).months).getD (e tcoord % 12) 0
        let inYear := groupPos ax.years y
        let inMonth := groupPos (year y).months m
        nanmean ((column x.obj tcoord e (inMonth.map (fun i => inYear.getD i 0))))⟩,
      [(tcoord, ⟨ax.cal, ys.flatMap (midMonths ax.cal)⟩)]⟩
  else .error .valueError

/-- util.py:157-164: the year of the resulting time axis, halfway between the first and the last time
unless given. -/
def cycleYear (ax : TimeAxis) (time_axis_year : Option Nat) : Nat :=
  time_axis_year.getD
    (midpoint ax.cal (ax.stamps.headD midMonths.default)
      (ax.stamps.getLastD midMonths.default)).date.year

/-- util.py:179-188: the reduction selected by `func`. -/
noncomputable def cycleFunc (func : String) : Except PyErr (List (Fl ℝ) → Fl ℝ) :=
  if func = "mean" then .ok nanmean
  else if func = "min" then .ok nanmin
  else if func = "max" then .ok nanmax
  else if func = "std" then .ok nanstd
  else .error .valueError

/-- util.py:122-196 `annual_cycle` of a DataArray.  The month dimension takes the place of the time
dimension. -/
noncomputable def annualCycle (x : Timed (DA (Fl ℝ))) (tcoord : String := "time")
    (func : String := "mean") (time_axis_year : Option Nat := none) :
    Except PyErr (Timed (DA (Fl ℝ))) := do
  let ax ← x.axis tcoord
  let f ← cycleFunc func
  let ms := groupKeys ax.months
  if ms.length == 12 then
    return ⟨⟨x.obj.dims.map (fun p => if p.1 = tcoord then (tcoord, ms.length) else p),
      fun e => f (column x.obj tcoord e (groupPos ax.months (ms.getD (e tcoord) 0)))⟩,
      [(tcoord, ⟨ax.cal, midMonths ax.cal (cycleYear ax time_axis_year)⟩)]⟩
  else .error .valueError

/-- The names of the time coordinates after `dset.rename(varname_map)`, steric.py:84. -/
def renameAxes (axes : List (String × TimeAxis)) (map : Option (List (String × String))) :
    List (String × TimeAxis) :=
  axes.map (fun p => ((((map.getD []).lookup p.1).getD p.1), p.2))

/-- steric.py:17-184 `steric` with the option `annual`.  The result carries the time coordinates of
the input that are dimensions of the result; `annual_average(result)` (line 182) is called without
passing on the name of the time coordinate. -/
noncomputable def stericAnnual (dset : Timed (DS (Fl ℝ))) (reference : RefArg ℝ := .none)
    (coord_names : DictArg := .none) (varname_map : Option (List (String × String)) := none)
    (rhozero : Fl ℝ := (1035.0 : Fl ℝ)) (patm : DA (Fl ℝ) := DA.scalar (101325.0 : Fl ℝ))
    (equation_of_state : String := "Wright") (variant : String := "steric")
    (domain : String := "local") (strict : Bool := true) (annual : Bool := false) :
    Except PyErr (Timed (DS (Fl ℝ)) × DS (Fl ℝ)) := do
  let (r, ref) ← steric dset.obj reference coord_names varname_map rhozero patm equation_of_state
    variant domain strict
  let axes := (renameAxes dset.axes varname_map).filter (fun p => r.dimNames.contains p.1)
  if annual then
    let result ← annualAverageDS ⟨r, axes⟩
    return (result, ref)
  else return (⟨r, axes⟩, ref)

end Momlevel
