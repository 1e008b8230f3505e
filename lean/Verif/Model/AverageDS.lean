import Verif.Model.Average

/-!
# `annual_cycle` and `monthly_average` of datasets

Model of the Dataset branches of /repo/src/momlevel/util.py:122-196 and 454-511.
Simplification: every averaged variable has the time dimension (what happens to the others depends on
the version of xarray).
-/

namespace Momlevel

variable {K : Type} [Field K] [LinearOrder K]

/-- util.py:486-505: the monthly means of one variable, all years joined. -/
def monthlyReduce (x : DA (Fl K)) (ax : TimeAxis) (tcoord : String) : DA (Fl K) :=
  let ys := groupKeys ax.years
  let year : Nat → TimeAxis := fun y => ax.sel (groupPos ax.years y)
  ⟨(tcoord, 12 * ys.length) :: x.dims.filter (fun p => p.1 != tcoord),
    fun e =>
      let y := ys.getD (e tcoord / 12) 0
      let m := (groupKeys (year y).months).getD (e tcoord % 12) 0
      let inYear := groupPos ax.years y
      let inMonth := groupPos (year y).months m
      nanmean (column x tcoord e (inMonth.map (fun i => inYear.getD i 0)))⟩

/-- util.py:454-511 `monthly_average` of a Dataset. -/
def monthlyAverageDS (x : Timed (DS (Fl K))) (isObject : String → Bool := fun _ => false)
    (tcoord : String := "time") : Except PyErr (Timed (DS (Fl K))) := do
  let ax ← x.axis tcoord
  let vars ← averagedVars x.obj isObject tcoord
  if (groupKeys ax.years).all
      (fun y => (groupKeys (ax.sel (groupPos ax.years y)).months).length == 12) then
    return ⟨⟨vars.map (fun p => (p.1, monthlyReduce p.2 ax tcoord)), []⟩,
      [(tcoord, ⟨ax.cal, (groupKeys ax.years).flatMap (midMonths ax.cal)⟩)]⟩
  else .error .valueError

/-- util.py:172-194: the statistic of every month for one variable. -/
noncomputable def cycleReduce (f : List (Fl ℝ) → Fl ℝ) (x : DA (Fl ℝ)) (ax : TimeAxis)
    (tcoord : String) : DA (Fl ℝ) :=
  let ms := groupKeys ax.months
  ⟨x.dims.map (fun p => if p.1 = tcoord then (tcoord, ms.length) else p),
    fun e => f (column x tcoord e (groupPos ax.months (ms.getD (e tcoord) 0)))⟩

/-- util.py:122-196 `annual_cycle` of a Dataset.  Simplification: the month dimension takes the place of the time
dimension, as for a DataArray; where xarray puts it depends on its version. -/
noncomputable def annualCycleDS (x : Timed (DS (Fl ℝ))) (isObject : String → Bool := fun _ => false)
    (tcoord : String := "time") (func : String := "mean") (time_axis_year : Option Nat := none) :
    Except PyErr (Timed (DS (Fl ℝ))) := do
  let ax ← x.axis tcoord
  let vars ← averagedVars x.obj isObject tcoord
  let f ← cycleFunc func
  if (groupKeys ax.months).length == 12 then
    return ⟨⟨vars.map (fun p => (p.1, cycleReduce f p.2 ax tcoord)), []⟩,
      [(tcoord, ⟨ax.cal, midMonths ax.cal (cycleYear ax time_axis_year)⟩)]⟩
  else .error .valueError

end Momlevel
