import Verif.Model.Pinv
import Verif.Model.Calendar
import Verif.Model.Dataset
import Verif.Model.Util
import Mathlib.Analysis.SpecialFunctions.Trigonometric.Basic

/-!
# Seasonal cycle

Model of /repo/src/momlevel/trend.py:360-856: `seasonal_model`, `seasonal_cycle_model`,
`_detrend_deseason_chunk`, `_detrend_deseason_lazy`, `deseason`.

Simplifications: the input is a `DataArray`, its time coordinate holds `cftime` dates, its attributes
are strings, its dimensions are not empty and none is called "coeff"; arithmetic is exact.
-/

set_option linter.unusedSectionVars false

namespace Momlevel
open Matrix

/-- Column `k` of the regressors, trend.py:403-410 and 511-520: constant, trend, annual and
semi-annual harmonics. -/
noncomputable def seasonRow (mean t : ℝ) : Fin 6 → ℝ :=
  ![1, t - mean, Real.sin (2 * Real.pi * t), Real.cos (2 * Real.pi * t),
    Real.sin (4 * Real.pi * t), Real.cos (4 * Real.pi * t)]

/-- The matrix `model`, trend.py:403-410 and 511-520. -/
noncomputable def seasonDesign {n : Nat} (t : Fin n → ℝ) : Matrix (Fin 6) (Fin n) ℝ :=
  Matrix.of (fun r k => seasonRow ((∑ j, t j) / n) (t k) r)

/-- `np.dot` (and `DataArray.dot`) of two vectors: a plain sum, a NaN spreads; trend.py:428-431,
526-529. -/
noncomputable def npDot {n : Nat} (f : Fin n → Fl ℝ) : Fl ℝ := (List.ofFn f).foldr (· + ·) (.fin 0)

/-- Coefficients, residuals and model of a fit. -/
structure SeasonFit (n : Nat) where
  coeff : Fin 6 → Fl ℝ
  residuals : Fin n → Fl ℝ
  smodel : Fin n → Fl ℝ

/-- trend.py:510-534 (and 403-431): the fit for given decimal times. -/
noncomputable def seasonalFit {n : Nat} (t : Fin n → ℝ) (ts : Fin n → Fl ℝ) : SeasonFit n :=
  let model := seasonDesign t
  let pmodel := pinv model
  let mcoeff : Fin 6 → Fl ℝ := fun r => npDot (fun k => ts k * .fin (pmodel k r))
  let smodel : Fin n → Fl ℝ := fun k => npDot (fun r => mcoeff r * .fin (model r k))
  ⟨mcoeff, fun k => ts k - smodel k, smodel⟩

/-- The `daysinyear` argument: a Python number, or an array (a numpy integer acts like an array with
one entry); trend.py:501-504. -/
inductive DaysInYear
  | scalar (d : ℝ)
  | array (ds : List ℝ)

/-- `np.arange(n) / daysinyear` with numpy broadcasting and the check of the length,
trend.py:500-508.  A zero entry makes the matrix non-finite, for which `np.linalg.pinv` (line 523)
raises a LinAlgError, a kind of ValueError. -/
noncomputable def decimalTime (n : Nat) : DaysInYear → Except PyErr (Fin n → ℝ)
  | .scalar _ => .ok (fun k => (k : ℝ) / 365.0)
  | .array ds =>
    if ds.length = n ∨ ds.length = 1 then
      if (0 : ℝ) ∈ ds then .error .valueError
      else .ok (fun k => (k : ℝ) / (if ds.length = n then ds.getD k 0 else ds.getD 0 0))
    else if n = 1 then .error .assertionError
    else .error .valueError

/-- `seasonal_cycle_model`, trend.py:464-534. -/
noncomputable def seasonalCycleModel {n : Nat} (ts : Fin n → Fl ℝ)
    (daysinyear : DaysInYear := .scalar 365.0) : Except PyErr (SeasonFit n) := do
  let t ← decimalTime n daysinyear
  return seasonalFit t ts

/-- A `DataArray` with its `cftime` coordinates, the order of its index coordinates, its attributes
and its dask chunks (sizes per dimension; none for a numpy array). -/
structure SeasonArray where
  da : DA (Fl ℝ)
  axes : List (String × TimeAxis)
  indexOrder : List String
  attrs : Dict String
  chunks : Option (List (List Nat))

/-- The series of an array along a dimension, at the other indices of `e`. -/
def seriesAt (a : DA (Fl ℝ)) (dim : String) (n : Nat) (e : Env) : Fin n → Fl ℝ :=
  fun k => a.get (Function.update e dim k)

/-- An entry of a vector. -/
def entry {n : Nat} (f : Fin n → Fl ℝ) (i : Nat) : Fl ℝ := if h : i < n then f ⟨i, h⟩ else .nan

/-! ### `seasonal_model` -/

/-- `date.dayofyr`, the source of `dt.dayofyear` at trend.py:399. -/
def dayOfYear (c : Calendar) (d : Date) : Nat :=
  ((List.range (d.month - 1)).map (fun m => daysInMonth c d.year (m + 1))).sum + d.day

/-- trend.py:397-401: the decimal year of a time (`dt.hour` is the whole hour). -/
noncomputable def decimalYear (c : Calendar) (s : Stamp) : ℝ :=
  (s.date.year : ℝ) +
    (((dayOfYear c s.date : ℝ) - 1 + ((s.us / 3600000000 : Nat) : ℝ) / 24) / 365)

/-- The decimal years of a time axis. -/
noncomputable def decimalYears (ax : TimeAxis) (n : Nat) : Fin n → ℝ :=
  fun k => decimalYear ax.cal (ax.stamps.getD k ⟨⟨1, 1, 1⟩, 0⟩)

/-- `da_timeseries[tcoord]` followed by `.dt`, trend.py:397-399: a KeyError for an unknown name, an
AttributeError for a dimension without dates. -/
def timeCoord (x : SeasonArray) (tcoord : String) : Except PyErr TimeAxis :=
  match x.axes.lookup tcoord with
  | some ax => .ok ax
  | none => if x.da.dimNames.contains tcoord then .error .attributeError else .error .keyError

/-- `xr.DataArray(model, dims=["coeff", "time"], coords={..., "time": da_timeseries[tcoord]})`,
trend.py:414-418: the coordinate must lie along the dimension "time". -/
def checkTimeDim (tcoord : String) : Except PyErr Unit :=
  if tcoord = "time" then .ok () else .error .valueError

/-- trend.py:433-457: the attributes of a result. -/
def seasonLabels (attrs : Dict String) (suffix label : String) : Dict String :=
  [("standard_name", match attrs.lookup "standard_name" with
      | some s => s ++ ("_" ++ suffix)
      | none => suffix),
   ("long_name", match attrs.lookup "long_name" with
      | some s => label ++ ", " ++ s
      | none => label),
   ("units", match attrs.lookup "units" with
      | some s => s
      | none => "")]

/-- The dimensions of the model array: `expand_dims` puts the index coordinates first, then come
"time" and the rest; trend.py:388-394, 419-431. -/
def modelDims (x : SeasonArray) : List (String × Nat) :=
  let coords := x.indexOrder.filter (fun c => c != "time")
  (coords.map (fun c => (c, x.da.size c))) ++ [("time", x.da.size "time")] ++
    x.da.dims.filter (fun p => p.1 != "time" && !coords.contains p.1)

/-- `seasonal_model` with `return_model=True`, trend.py:360-461: the model and the residuals, each
with its attributes.  (`return_model=False` returns the second only.) -/
noncomputable def seasonalModel (x : SeasonArray) (tcoord : String := "time") :
    Except PyErr ((DA (Fl ℝ) × Dict String) × (DA (Fl ℝ) × Dict String)) := do
  let ax ← timeCoord x tcoord
  checkTimeDim tcoord
  let n := ax.stamps.length
  let t := decimalYears ax n
  let smodel : DA (Fl ℝ) :=
    ⟨modelDims x, fun e => entry (seasonalFit t (seriesAt x.da "time" n e)).smodel (e "time")⟩
  let residuals := x.da - smodel
  return ((smodel, seasonLabels x.attrs "smodel" "Seasonal model"),
    (residuals, seasonLabels x.attrs "sresid" "Seasonal residuals"))

/-! ### `deseason` -/

/-- `arr.time.values`, trend.py:776: an AttributeError without a time coordinate of dates. -/
def timeAttr (x : SeasonArray) : Except PyErr TimeAxis :=
  match x.axes.lookup "time" with
  | some ax => .ok ax
  | none => .error .attributeError

/-- trend.py:771-779: the length of the year of every time. -/
noncomputable def yearDays (ax : TimeAxis) : List ℝ :=
  ax.stamps.map (fun s => if isLeap ax.cal s.date.year then 366 else 365)

/-- trend.py:753-769: the chunks, with a single chunk along the time dimension. -/
def timeChunks (x : SeasonArray) (tdim : String) : List (List Nat) :=
  match x.chunks with
  | none => x.da.dims.map (fun p => [p.2])
  | some cs =>
    let i := x.da.dimNames.idxOf tdim
    if (cs.getD i []).length ≠ 1 then cs.set i [x.da.size tdim] else cs

/-- The block of a dimension an index falls into: its start, its size and the index within it. -/
def locate : List Nat → Nat → Nat × Nat × Nat
  | [], i => (0, 0, i)
  | s :: r, i =>
    if i < s then (0, s, i)
    else ((locate r (i - s)).1 + s, (locate r (i - s)).2.1, (locate r (i - s)).2.2)

/-- The chunk sizes along a dimension. -/
def chunkSizes (a : DA (Fl ℝ)) (chunks : List (List Nat)) (d : String) : List Nat :=
  chunks.getD (a.dimNames.idxOf d) []

/-- The block of the array that holds the element at `e`. -/
def block (a : DA (Fl ℝ)) (chunks : List (List Nat)) (e : Env) : DA (Fl ℝ) :=
  ⟨a.dims.map (fun p => (p.1, (locate (chunkSizes a chunks p.1) (e p.1)).2.1)),
   fun e' => a.get (fun d => (locate (chunkSizes a chunks d) (e d)).1 + e' d)⟩

/-- The position of the element at `e` within its block. -/
def blockIndex (a : DA (Fl ℝ)) (chunks : List (List Nat)) (e : Env) : Env :=
  fun d => (locate (chunkSizes a chunks d) (e d)).2.2

/-- `_detrend_deseason_chunk`, trend.py:537-616 (time is the last axis).  For "coeff",
`chunk.reshape(np.prod(()), n)` is a TypeError if time is the only dimension. -/
noncomputable def processChunk (tdim : String) (daysinyear : DaysInYear) (fmt : String)
    (b : DA (Fl ℝ)) : Except PyErr (DA (Fl ℝ)) :=
  let n := b.size tdim
  if fmt = "coeff" then
    if b.ndim = 1 then .error .typeError
    else do
      let t ← decimalTime n daysinyear
      return ⟨b.dims.filter (fun p => p.1 != tdim) ++ [("coeff", 6)],
        fun e => entry (seasonalFit t (seriesAt b tdim n e)).coeff (e "coeff")⟩
  else do
    let t ← decimalTime n daysinyear
    if fmt = "residuals" then
      return ⟨b.dims, fun e => entry (seasonalFit t (seriesAt b tdim n e)).residuals (e tdim)⟩
    else if fmt = "model" then
      return ⟨b.dims, fun e => entry (seasonalFit t (seriesAt b tdim n e)).smodel (e tdim)⟩
    else .error .valueError

/-- trend.py:781-808: the dimensions of the result, time (or "coeff") last; an unknown format is a
ValueError. -/
def seasonDims (x : SeasonArray) (tdim fmt : String) : Except PyErr (List (String × Nat)) :=
  let others := x.da.dims.filter (fun p => p.1 != tdim)
  if fmt = "residuals" ∨ fmt = "model" then .ok (others ++ [(tdim, x.da.size tdim)])
  else if fmt = "coeff" then .ok (others ++ [("coeff", 6)])
  else .error .valueError

/-- `_detrend_deseason_lazy`, trend.py:619-680, called at 811-818: the chunk function is applied to
every block (`map_overlap` with depth 0).  The blocks of "coeff" are those of the single time
chunk. -/
noncomputable def deseasonLazy (x : SeasonArray) (tdim : String) (daysinyear : DaysInYear)
    (fmt : String) (outDims : List (String × Nat)) : DA (Except PyErr (Fl ℝ)) :=
  let chunks := timeChunks x tdim
  ⟨outDims, fun e =>
    let at' := if fmt = "coeff" then Function.update e tdim 0 else e
    (processChunk tdim daysinyear fmt (block x.da chunks at')).map
      (fun r => r.get (blockIndex x.da chunks at'))⟩

/-- trend.py:820-825: "coeff" or "time" is moved to the front, a ValueError without "time". -/
def moveFirst {V : Type} (a : DA V) (fmt : String) : Except PyErr (DA V) :=
  if fmt = "coeff" then .ok (a.transposeFirst "coeff")
  else if a.dimNames.contains "time" then .ok (a.transposeFirst "time")
  else .error .valueError

/-- The failure of an element, if any. -/
def failure {V : Type} : Except PyErr V → Option PyErr
  | .ok _ => none
  | .error er => some er

/-- The element, if it could be computed. -/
def element : Except PyErr (Fl ℝ) → Fl ℝ
  | .ok v => v
  | .error _ => .nan

/-- `result.load()`, trend.py:828-829: compute all blocks. -/
def loadBlocks (a : DA (Except PyErr (Fl ℝ))) : Except PyErr (DA (Fl ℝ)) :=
  match (DA.envs a.dims).findSome? (fun e => failure (a.get e)) with
  | some er => .error er
  | none => .ok ⟨a.dims, fun e => element (a.get e)⟩

/-- trend.py:831-851: the edit of the attribute dictionary. -/
def editAttrs (fmt : String) (attrs : Dict String) : Dict String :=
  let addLong := fun (d : Dict String) (text : String) =>
    match d.lookup "long_name" with
    | some s => dictSet d "long_name" (s ++ text)
    | none => d
  let attrs := dictPop attrs "standard_name"
  if fmt = "residuals" then
    dictSet (addLong attrs " residuals from detrending and deseasonalizing") "processing"
      "Residuals from detrending and deseasonalizing"
  else if fmt = "model" then
    dictSet (addLong attrs " model of linear trend and seasonal cycle") "processing"
      "Model of linear trend and seasonal cycle"
  else if fmt = "coeff" then
    dictPop (dictSet (addLong attrs " seasonal model polynomial coefficients") "processing"
      "Seasonal model polynomial coefficients") "units"
  else attrs

/-- What `deseason` leaves behind: the values of the result (as they come out when computed), its
attributes, the labels of its "coeff" coordinate, and the attributes of the array that was passed
in. -/
structure Deseasoned where
  values : Except PyErr (DA (Fl ℝ))
  attrs : Dict String
  labels : List String
  argAttrs : Dict String

/-- trend.py:796-803, 822: the labels of the coefficients. -/
def coeffLabels (fmt : String) : List String :=
  if fmt = "coeff" then
    ["constant", "trend", "sin_annual", "cos_annual", "sin_semiannual", "cos_semiannual"]
  else []

/-- trend.py:828-829: the result is computed at once for a numpy input, later for a dask input. -/
def loadNow (x : SeasonArray) (values : Except PyErr (DA (Fl ℝ))) : Except PyErr Unit :=
  match x.chunks, values with
  | none, .error er => .error er
  | _, _ => .ok ()

/-- `deseason`, trend.py:683-856.  The attributes are edited through the reference
`attrs = arr.attrs` (line 745), so the argument changes as well; the result gets a copy. -/
noncomputable def deseason (x : SeasonArray) (tdim : String := "time")
    (fmt : String := "residuals") : Except PyErr Deseasoned := do
  pyAssert (x.da.dimNames.contains tdim)
  let ax ← timeAttr x
  let outDims ← seasonDims x tdim fmt
  let moved ← moveFirst (deseasonLazy x tdim (.array (yearDays ax)) fmt outDims) fmt
  let values := loadBlocks moved
  loadNow x values
  let attrs := editAttrs fmt x.attrs
  return ⟨values, attrs, coeffLabels fmt, attrs⟩

end Momlevel
