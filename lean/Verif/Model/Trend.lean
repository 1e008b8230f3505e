import Verif.Model.Calendar
import Verif.Model.Dataset

/-!
# Linear trends

Model of /repo/src/momlevel/trend.py:20-357: `broadcast_trend`, `time_conversion_factor`,
`_detrend_array`, `calc_linear_trend`, `linear_detrend`.

Simplifications: attributes are strings; units are given as strings; warnings and the text of the
"detrend_comment" attribute are omitted; coordinates that `arr` and the fit share are identical; an
index of a dimension holds either `cftime` dates or finite numbers.  The least-squares solver works in
exact arithmetic (its cut-off for nearly dependent columns is in `Model/TrendCut.lean`).
-/

namespace Momlevel

variable {K : Type} [Field K] [LinearOrder K]

/-- The index of a dimension (`arr.indexes[dim]`): a `CFTimeIndex` or an index of numbers. -/
inductive DimIndex (K : Type)
  | cftime (ax : TimeAxis)
  | numeric (vals : List K)

/-- `isinstance(index, CFTimeIndex)`, trend.py:58-59, 261-262. -/
def DimIndex.isCftime : DimIndex K → Bool
  | .cftime _ => true
  | .numeric _ => false

/-- The numbers xarray uses for an index (`get_clean_interp_index`, also inside `polyfit`): for
dates the nanoseconds since 1970-01-01 in the calendar of the index; trend.py:101, 247. -/
def DimIndex.numbers : DimIndex K → List K
  | .cftime ax =>
    ax.stamps.map (fun s =>
      (1000 : K) * ((s.toUs ax.cal - (Stamp.midnight ⟨1970, 1, 1⟩).toUs ax.cal : Int) : K))
  | .numeric vals => vals

/-- `get_clean_interp_index(arr, dim)`: a ValueError unless the index increases strictly;
trend.py:101. -/
def cleanInterpIndex (ix : DimIndex K) : Except PyErr (List K) :=
  if ix.numbers.Pairwise (· < ·) then .ok ix.numbers else .error .valueError

/-- A `DataArray` with the indexes of its dimensions and its attributes. -/
structure TrendArray (K : Type) where
  da : DA (Fl K)
  indexes : List (String × DimIndex K)
  attrs : List (String × String)

/-- `s.split(" ")`, trend.py:65. -/
def splitSpace : List Char → List (List Char)
  | [] => [[]]
  | c :: r =>
    if c = ' ' then [] :: splitSpace r
    else match splitSpace r with
      | [] => [[c]]
      | h :: t => (c :: h) :: t

/-- `"-1" in s`, trend.py:66. -/
def hasPer : List Char → Bool
  | [] => false
  | c :: r => (c == '-' && r.head? == some '1') || hasPer r

/-- `s.replace("-1", "")`, trend.py:66. -/
def dropPer : List Char → List Char
  | [] => []
  | '-' :: '1' :: r => dropPer r
  | c :: r => c :: dropPer r

/-- The time units named in a units string, trend.py:65-66. -/
def perUnits (units : String) : List String :=
  ((splitSpace units.toList).filter hasPer).map (fun t => String.ofList (dropPer t))

/-- trend.py:145-153: nanoseconds in each unit. -/
def nsFrom (daysPerMonth daysPerYear : Fl K) : List (String × Fl K) :=
  [("ns", 1.0),
   ("s", 1.0e9),
   ("min", 1.0e9 * 60.0),
   ("hr", 1.0e9 * 60.0 * 60.0),
   ("day", 1.0e9 * 60.0 * 60.0 * 24.0),
   ("mon", 1.0e9 * 60.0 * 60.0 * 24.0 * daysPerMonth),
   ("yr", 1.0e9 * 60.0 * 60.0 * 24.0 * daysPerYear)]

/-- `1.0 / v` on a Python float: a ZeroDivisionError for zero. -/
def pyRecip (v : Fl K) : Except PyErr (Fl K) :=
  if Fl.eqv v (.fin 0) then .error .zeroDivisionError else .ok (1.0 / v)

/-- `time_conversion_factor`, trend.py:115-164. -/
def timeConversionFactor (src dst : String) (daysPerMonth : Fl K := 30.417)
    (daysPerYear : Fl K := 365.0) : Except PyErr (Fl K) := do
  let from_ := nsFrom daysPerMonth daysPerYear
  let to_ ← from_.mapM (fun p => do return (p.1, ← pyRecip p.2))
  pyAssert ((from_.map Prod.fst).contains src)
  pyAssert ((to_.map Prod.fst).contains dst)
  return (← dictGet from_ src) * (← dictGet to_ dst)

/-- The finite (time, value) pairs of a series without its missing values. -/
def validPairs : List (K × Fl K) → List (K × K)
  | [] => []
  | (t, .fin v) :: r => (t, v) :: validPairs r
  | _ :: r => validPairs r

/-- Straight line through `(time, value)` pairs: slope and intercept from the normal equations when
the times differ; otherwise the solution of least norm after scaling each column of the design matrix
`[t, 1]` by its length over all `times`, which is what `np.linalg.lstsq` returns inside
`Dataset.polyfit`. -/
def fitLine (times : List K) (pairs : List (K × K)) : Fl K × Fl K :=
  let n : K := pairs.length
  let st := (pairs.map (fun p => p.1)).sum
  let sv := (pairs.map (fun p => p.2)).sum
  let stt := (pairs.map (fun p => p.1 * p.1)).sum
  let stv := (pairs.map (fun p => p.1 * p.2)).sum
  let det := n * stt - st * st
  if det ≠ 0 then
    let m := (n * stv - st * sv) / det
    (.fin m, .fin ((sv - m * st) / n))
  else
    let s1 := (times.map (fun t => t * t)).sum
    let s0 : K := times.length
    let t0 := st / n
    let d := t0 * t0 * s0 + s1
    if d = 0 then (.nan, .nan)
    else (.fin (sv / n * t0 * s0 / d), .fin (sv / n * s1 / d))

/-- `np.isinf` -/
def isInf : Fl K → Bool
  | .ninf => true
  | .pinf => true
  | _ => false

/-- `polyfit(dim, 1)` of one series, trend.py:247: missing values are left out; nothing but missing
values gives NaN; an infinite value makes the fit NaN. -/
def polyfit1 (times : List K) (vals : List (Fl K)) : Fl K × Fl K :=
  if vals.any isInf then (.nan, .nan)
  else if (validPairs (times.zip vals)).isEmpty then (.nan, .nan)
  else fitLine times (validPairs (times.zip vals))

/-- One series of an array: its values along a dimension with `n` points. -/
def series (a : DA (Fl K)) (dim : String) (n : Nat) (e : Env) : List (Fl K) :=
  (List.range n).map (fun i => a.get (Function.update e dim i))

/-- The slope and intercept arrays, trend.py:247-258 (a KeyError for an unknown dimension). -/
def polyfitCoefficients (x : TrendArray K) (dim : String) (ix : DimIndex K) :
    Except PyErr (DA (Fl K) × DA (Fl K)) :=
  if x.da.dimNames.contains dim then
    let fit := fun e => polyfit1 ix.numbers (series x.da dim ix.numbers.length e)
    let dims := x.da.dims.filter (fun p => p.1 != dim)
    .ok (⟨dims, fun e => (fit e).1⟩, ⟨dims, fun e => (fit e).2⟩)
  else .error .keyError

/-- trend.py:265-270: the units string of the slope. -/
def slopeUnits (attrs : List (String × String)) (timeUnits : String) : String :=
  (match attrs.lookup "units" with
    | some u => u ++ " "
    | none => "") ++ " " ++ timeUnits ++ "-1"

/-- trend.py:261-278: scale the slope of a time trend to the requested unit. -/
def scaleSlope (slope : TrendArray K) (ix : DimIndex K) (timeUnits : Option String) :
    Except PyErr (TrendArray K) :=
  if ix.isCftime then do
    let u := timeUnits.getD "ns"
    let factor ← timeConversionFactor "ns" u
    return { slope with
      da := slope.da * DA.scalar (1.0 / factor)
      attrs := dictSet slope.attrs "units" (slopeUnits slope.attrs u) }
  else .ok slope

/-- `calc_linear_trend`, trend.py:214-290: slope and intercept. -/
def calcLinearTrend (x : TrendArray K) (dim : String := "time") (timeUnits : Option String := none) :
    Except PyErr (TrendArray K × TrendArray K) := do
  let ix ← dictGet x.indexes dim
  let (m, b) ← polyfitCoefficients x dim ix
  let others := x.indexes.filter (fun p => p.1 != dim)
  let slope ← scaleSlope
    ⟨m, others, dictSet x.attrs "comment" "Slope of linear trend"⟩ ix timeUnits
  return (slope, ⟨b, others, dictSet x.attrs "comment" "Y-intercept of linear trend"⟩)

/-- A coordinate array as passed to `broadcast_trend`: its dimensions and the index of the first. -/
structure AxisArray (K : Type) where
  dims : List String
  index : Option (DimIndex K)

/-- trend.py:64-83: convert the slope to nanoseconds when its units name another time unit. -/
def slopeToNs (slope : TrendArray K) : Except PyErr (DA (Fl K)) :=
  match slope.attrs.lookup "units" with
  | none => .ok slope.da
  | some units =>
    match perUnits units with
    | [] => .ok slope.da
    | [u] =>
      if u = "ns" then .ok slope.da
      else do
        let factor ← timeConversionFactor u "ns"
        return slope.da * DA.scalar (1.0 / factor)
    | _ => .error .valueError

/-- trend.py:58-98: only the slope of a time trend is converted. -/
def slopeForIndex (slope : TrendArray K) (ix : DimIndex K) : Except PyErr (DA (Fl K)) :=
  if ix.isCftime then slopeToNs slope else .ok slope.da

/-- The one-dimensional array of the index values, trend.py:101-102. -/
def indexArray (dim : String) (ts : List K) : DA (Fl K) :=
  ⟨[(dim, ts.length)], fun e => .fin (ts.getD (e dim) 0)⟩

/-- trend.py:107-109: subtract the first time step; the dimension is always called "time". -/
def subtractFirst (a : DA (Fl K)) : Except PyErr (DA (Fl K)) :=
  if a.dimNames.contains "time" then
    if a.size "time" = 0 then .error .indexError else .ok (a - a.isel "time" 0)
  else .error .valueError

/-- `broadcast_trend`, trend.py:20-112.  `none` stands for an argument that is no `DataArray`. -/
def broadcastTrend (slope : Option (TrendArray K)) (axis : Option (AxisArray K))
    (subtractTimeZero : Bool := false) : Except PyErr (DA (Fl K)) := do
  let slope ← slope.elim (Except.error PyErr.assertionError) Except.ok
  let axis ← axis.elim (Except.error PyErr.assertionError) Except.ok
  pyAssert (axis.dims.length == 1)
  let dim := axis.dims.headD ""
  let ix ← axis.index.elim (Except.error PyErr.keyError) Except.ok
  let m ← slopeForIndex slope ix
  let ts ← cleanInterpIndex ix
  let result := m * indexArray dim ts
  if subtractTimeZero then subtractFirst result else return result

/-- trend.py:191-195: the fitted line for a mode. -/
def modeFit (mode : String) (line intercept : DA (Fl K)) : Except PyErr (DA (Fl K)) :=
  if mode = "remove" then .ok (line + intercept)
  else if mode = "correct" then .ok line
  else .error .valueError

/-- `_detrend_array`, trend.py:167-211 (attributes: those of the input plus a "detrend_comment"). -/
def detrendArray (x : TrendArray K) (dim : String := "time") (order : Int := 1)
    (mode : String := "remove") : Except PyErr (TrendArray K) := do
  pyAssert (order == 1)
  let (slope, intercept) ← calcLinearTrend x dim
  let ix ← dictGet x.indexes dim
  let line ← broadcastTrend (some slope) (some ⟨[dim], some ix⟩)
  let fit ← modeFit mode line intercept.da
  return { x with da := x.da - fit, attrs := dictSet x.attrs "detrend_comment" mode }

/-- The object passed to `linear_detrend`: a `DataArray`, a `Dataset` or something else. -/
inductive DetrendArg (K : Type)
  | array (x : TrendArray K)
  | dataset (vars : List (String × TrendArray K))
  | other

/-- trend.py:344-349: one variable of a dataset. -/
def detrendVar (dim : String) (order : Int) (mode : String) (x : TrendArray K) :
    Except PyErr (TrendArray K) :=
  if x.da.dimNames.contains dim then detrendArray x dim order mode else .ok x

/-- `linear_detrend`, trend.py:293-357.  Not modelled: attributes of a dataset itself, which are lost. -/
def linearDetrend (x : DetrendArg K) (dim : String := "time") (order : Int := 1)
    (mode : String := "remove") : Except PyErr (DetrendArg K) :=
  match x with
  | .array a => do return .array (← detrendArray a dim order mode)
  | .dataset vars => do
    let out ← vars.mapM (fun p => do return (p.1, ← detrendVar dim order mode p.2))
    return .dataset out
  | .other => .error .typeError

end Momlevel
