import Verif.Model.Trend

/-!
# Linear trends with the cut-off of the least-squares solver

`calc_linear_trend` (/repo/src/momlevel/trend.py:214-290) calls `DataArray.polyfit` (trend.py:247), which
calls `np.linalg.lstsq` with `rcond` equal to the number of points times the machine epsilon: singular
values of the scaled design matrix that are not larger than `rcond` times the largest one count as zero.
`Model/Trend.lean` leaves this out; here it is put in.

Simplifications: as in `Model/Trend.lean`; what the solver returns when the cut-off acts on a matrix of full
rank is a parameter (`trunc`).  The singular values are those in exact arithmetic.
-/

namespace Momlevel

variable {K : Type} [Field K] [LinearOrder K]

/-- Determinant and trace of `AᵀA`, with `A` the rows of the design matrix `[t, 1]` that belong to the valid
`pairs`, each column divided by its length over all `times` (xarray's `polyfit`, called in trend.py:247). -/
def gramDetTrace (times : List K) (pairs : List (K × K)) : K × K :=
  let n : K := pairs.length
  let st := (pairs.map (fun p => p.1)).sum
  let stt := (pairs.map (fun p => p.1 * p.1)).sum
  let s1 := (times.map (fun t => t * t)).sum
  let s0 : K := times.length
  ((n * stt - st * st) / (s1 * s0), stt / s1 + n / s0)

/-- Is the smaller singular value of `A` at most `r` times the larger one?  Written with determinant and trace of
`AᵀA`, whose eigenvalues are the squares of the singular values (`cut_iff` in Props/TrendCut.lean). -/
def cutActs (r : K) (times : List K) (pairs : List (K × K)) : Bool :=
  let dt := gramDetTrace times pairs
  decide (dt.1 * (1 + r * r) ^ 2 ≤ r * r * dt.2 ^ 2)

/-- `polyfit(dim, 1)` of one series (trend.py:247) with the cut-off: as `polyfit1`, except that a matrix of full
rank whose smaller singular value is cut off gives `trunc`.  A matrix of rank one has a singular value zero,
whose removal changes nothing. -/
def polyfitCut (eps : K) (trunc : List K → List (K × K) → Fl K × Fl K) (times : List K)
    (vals : List (Fl K)) : Fl K × Fl K :=
  let pairs := validPairs (times.zip vals)
  if vals.any isInf then (.nan, .nan)
  else if pairs.isEmpty then (.nan, .nan)
  else if (gramDetTrace times pairs).1 ≠ 0 ∧ cutActs (times.length * eps) times pairs then trunc times pairs
  else fitLine times pairs

/-- `polyfitCoefficients` (trend.py:247-258) with the cut-off. -/
def polyfitCoefficientsCut (eps : K) (trunc : List K → List (K × K) → Fl K × Fl K) (x : TrendArray K)
    (dim : String) (ix : DimIndex K) : Except PyErr (DA (Fl K) × DA (Fl K)) :=
  if x.da.dimNames.contains dim then
    let fit := fun e => polyfitCut eps trunc ix.numbers (series x.da dim ix.numbers.length e)
    let dims := x.da.dims.filter (fun p => p.1 != dim)
    .ok (⟨dims, fun e => (fit e).1⟩, ⟨dims, fun e => (fit e).2⟩)
  else .error .keyError

/-- `calc_linear_trend`, trend.py:214-290, with the cut-off. -/
def calcLinearTrendCut (eps : K) (trunc : List K → List (K × K) → Fl K × Fl K) (x : TrendArray K)
    (dim : String := "time") (timeUnits : Option String := none) :
    Except PyErr (TrendArray K × TrendArray K) := do
  let ix ← dictGet x.indexes dim
  let (m, b) ← polyfitCoefficientsCut eps trunc x dim ix
  let others := x.indexes.filter (fun p => p.1 != dim)
  let slope ← scaleSlope
    ⟨m, others, dictSet x.attrs "comment" "Slope of linear trend"⟩ ix timeUnits
  return (slope, ⟨b, others, dictSet x.attrs "comment" "Y-intercept of linear trend"⟩)

end Momlevel
