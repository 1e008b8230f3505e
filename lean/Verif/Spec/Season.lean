import Verif.Model.Season
import Verif.Spec.Calendar

/-! What a seasonal model should be. -/

namespace Momlevel.Spec
open Momlevel

/-- The regressors at the decimal years `t`: constant, centred trend, annual and semi-annual sine and
cosine. -/
noncomputable def regressor {n : Nat} (t : Fin n → ℝ) (k : Fin n) : Fin 6 → ℝ
  | 0 => 1
  | 1 => t k - (∑ j, t j) / n
  | 2 => Real.sin (2 * Real.pi * t k)
  | 3 => Real.cos (2 * Real.pi * t k)
  | 4 => Real.sin (4 * Real.pi * t k)
  | 5 => Real.cos (4 * Real.pi * t k)

/-- `m` is a combination of the regressors and the residual `y - m` is orthogonal to each of them,
that is, `m` is the least-squares fit of `y` (see `Props.fit_unique` and `Props.fit_least`). -/
structure IsFit {n : Nat} (t : Fin n → ℝ) (y m : Fin n → ℝ) : Prop where
  combination : ∃ c : Fin 6 → ℝ, ∀ k, m k = ∑ j, c j * regressor t k j
  orthogonal : ∀ j, ∑ k, (y k - m k) * regressor t k j = 0

/-- The sum of squared residuals. -/
noncomputable def squares {n : Nat} (y m : Fin n → ℝ) : ℝ := ∑ k, (y k - m k) ^ 2

/-- The number of the day in its year, from the table of month lengths. -/
def dayNumber (c : Calendar) (d : Date) : Nat :=
  ∑ m ∈ Finset.range (d.month - 1), monthLength c d.year (m + 1) + d.day

/-- The decimal years documented for `seasonal_model`: the year plus the elapsed days (in whole
hours) divided by 365. -/
noncomputable def yearsOf (ax : TimeAxis) (n : Nat) (k : Fin n) : ℝ :=
  match ax.stamps[k.1]? with
  | none => 0
  | some s => s.date.year +
      (24 * ((dayNumber ax.cal s.date : ℝ) - 1) + (s.us / (60 * 60 * 1000000) : Nat)) / (24 * 365)

/-- The length of the year a time falls in, leap years having 366 days and all others 365. -/
def daysOf (ax : TimeAxis) (k : Nat) : Nat :=
  match ax.stamps[k]? with
  | none => 365
  | some s => if Leap ax.cal s.date.year then 366 else 365

/-- The times `deseason` uses: the number of the sample over the length of the year it falls in. -/
noncomputable def sampleYears (ax : TimeAxis) (n : Nat) (k : Fin n) : ℝ := k / daysOf ax k

/-- The array has a dimension "time" with `n` dates and no dimension called "coeff". -/
structure HasTime (x : SeasonArray) (ax : TimeAxis) (n : Nat) : Prop where
  distinct : x.da.dimNames.Nodup
  dim_mem : ("time", n) ∈ x.da.dims
  axis : x.axes.lookup "time" = some ax
  count : ax.stamps.length = n
  no_coeff : "coeff" ∉ x.da.dimNames

/-- The chunks of the array cover it: one list of sizes per dimension, adding up to its size. -/
def Covered (x : SeasonArray) : Prop :=
  ∀ cs, x.chunks = some cs → cs.map List.sum = x.da.dims.map Prod.snd

/-- The index coordinates are dimensions of the array, each listed once. -/
def Indexed (x : SeasonArray) : Prop :=
  x.indexOrder.Nodup ∧ ∀ c ∈ x.indexOrder, c ∈ x.da.dimNames

/-- The series of the array at the point `e`. -/
def atPoint (a : DA (Fl ℝ)) (e : Env) (k : Nat) : Fl ℝ := a.get (Function.update e "time" k)

/-- The series of the array at the point `e` has the finite values `y`. -/
def SeriesIs (a : DA (Fl ℝ)) (e : Env) {n : Nat} (y : Fin n → ℝ) : Prop :=
  ∀ k : Fin n, atPoint a e k = .fin (y k)

/-- The first dimension of the arrays returned by `deseason`, then the others in order. -/
def leading (x : SeasonArray) (first : String × Nat) : List (String × Nat) :=
  first :: x.da.dims.filter (fun p => p.1 ≠ "time")

/-- The three output formats. -/
def knownFormat (fmt : String) : Prop := fmt = "residuals" ∨ fmt = "model" ∨ fmt = "coeff"

end Momlevel.Spec

namespace Momlevel.Spec

/-- The text `deseason` adds to "long_name". -/
def addedText (fmt : String) : String :=
  if fmt = "residuals" then " residuals from detrending and deseasonalizing"
  else if fmt = "model" then " model of linear trend and seasonal cycle"
  else " seasonal model polynomial coefficients"

/-- The text `deseason` stores under "processing". -/
def processingText (fmt : String) : String :=
  if fmt = "residuals" then "Residuals from detrending and deseasonalizing"
  else if fmt = "model" then "Model of linear trend and seasonal cycle"
  else "Seasonal model polynomial coefficients"

/-- A text repeated. -/
def repeated (s : String) : Nat → String
  | 0 => ""
  | k + 1 => s ++ repeated s k

end Momlevel.Spec
