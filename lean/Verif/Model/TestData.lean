import Verif.Model.TimeStub
import Verif.Model.Average
import Verif.Model.Dataset

/-!
# Test datasets

Model of /repo/src/momlevel/test_data/__init__.py, tripolar/horizontal.py and tripolar/vertical.py.

The random number generator is a parameter: `np.random.default_rng(seed).normal(loc, scale, shape)` is
`loc + scale * z` for the standard normal draws `z` of that seed taken in row-major order, and
`uniform(low, high, shape)` is `low + (high - low) * u` for its draws `u` in [0, 1).
Simplifications: attributes are omitted; the variables that hold dates (`time` of a calendar axis,
`time_bnds`, `average_T1`, `average_T2`, `average_DT`) are not part of the dataset of numbers but of
its time axis, see `Verif.Model.TimeStub`; `nyears` is a natural number.
-/

namespace Momlevel

variable {K : Type} [Field K] [LinearOrder K]

/-- The generators of numpy: for every seed its standard normal and its uniform draws. -/
structure Rng (K : Type) where
  normal : Nat → Nat → K
  uniform : Nat → Nat → K

/-- Row-major position of an element. -/
def rowMajor (dims : List (String × Nat)) (e : Env) : Nat :=
  dims.foldl (fun acc p => acc * p.2 + e p.1) 0

/-- `np.random.default_rng(seed).normal(loc, scale, shape)` with named dimensions. -/
def Rng.normalArray (rng : Rng K) (seed : Nat) (loc scale : K) (dims : List (String × Nat)) :
    DA (Fl K) :=
  ⟨dims, fun e => .fin (loc + scale * rng.normal seed (rowMajor dims e))⟩

/-- `np.random.default_rng(seed).uniform(low, high, shape)[i]` -/
def Rng.uniformAt (rng : Rng K) (seed : Nat) (low high : K) (i : Nat) : K :=
  low + (high - low) * rng.uniform seed i

/-- `xr.DataArray(l, dims=d)` -/
def arr1 (d : String) (l : List K) : DA (Fl K) := ⟨[(d, l.length)], fun e => .fin (l.getD (e d) 0)⟩

/-- `dset[name] = a`; an array along the dimension of its own name becomes a coordinate. -/
def DS.setVar {V : Type} (d : DS V) (name : String) (a : DA V) : DS V :=
  ⟨dictSet d.vars name a, if a.dimNames = [name] then d.coords ++ [name] else d.coords⟩

/-- horizontal.py:37-56 `point_dict`: x and y dimension, longitude, latitude, area. -/
def pointDict : List (String × (String × String × String × String × String)) :=
  [("h", ("xh", "yh", "geolon", "geolat", "areacello")),
   ("u", ("xq", "yh", "geolon_u", "geolat_u", "areacello_cu")),
   ("v", ("xh", "yq", "geolon_v", "geolat_v", "areacello_cv")),
   ("c", ("xq", "yq", "geolon_c", "geolat_c", "areacello_bu"))]

/-- `np.arange(start, stop, step)` for whole numbers and a positive step. -/
def arangeInt (start stop step : Int) : List K :=
  (List.range ((stop - start + step - 1) / step).toNat).map (fun i => ((start + i * step : Int) : K))

/-- horizontal.py:86-87: the midpoints of neighbouring values. -/
def centres (l : List K) : List K :=
  (List.range (l.length - 1)).map (fun x => (l.getD x 0 + l.getD (x + 1) 0) / 2)

/-- horizontal.py:110-115 and __init__.py:301-306: random areas scaled to the area of the ocean. -/
def scaledArea (raw : DA (Fl K)) : DA (Fl K) :=
  let areacello := raw / raw.sumAll
  areacello * DA.scalar (3.6111092e14 : Fl K)

/-- horizontal.py:11-122 `xy_fields` -/
def xyFields (rng : Rng K) (dset : DS (Fl K) := ⟨[], []⟩) (point : String := "h") (seed : Nat := 123) :
    Except PyErr (DS (Fl K)) := do
  -- 58
  let (xd, yd, lonName, latName, areaName) ← dictGet pointDict point
  -- 60-80
  let dset := dset.setVar xd (arr1 xd [1.0, 2.0, 3.0, 4.0, 5.0])
  let dset := dset.setVar yd (arr1 yd [1.0, 2.0, 3.0, 4.0, 5.0])
  -- 83-84
  let lon : List K := arangeInt 0 361 72
  let lat : List K := arangeInt (-90) 91 36
  -- 86-88 (`meshgrid`)
  let lon := centres lon
  let lat := centres lat
  let geolon : DA (Fl K) := ⟨[(yd, lat.length), (xd, lon.length)], fun e => .fin (lon.getD (e xd) 0)⟩
  let geolat : DA (Fl K) := ⟨[(yd, lat.length), (xd, lon.length)], fun e => .fin (lat.getD (e yd) 0)⟩
  -- 90-108
  let dset := dset.setVar lonName geolon
  let dset := dset.setVar latName geolat
  -- 110-115
  let areacello := scaledArea (rng.normalArray seed 100.0 10.0 [(yd, 5), (xd, 5)])
  return dset.setVar areaName areacello

/-- vertical.py:61-69: one row of depths per latitude, each from a new generator with the same seed. -/
def testDepth (rng : Rng K) (seed : Nat) : DA (Fl K) :=
  ⟨[("yh", 5), ("xh", 5)], fun e =>
    .fin (rng.uniformAt seed 0.0 (([5.0, 15.0, 185.0, 1815.0, 6185.0] : List K).getD (e "yh") 0)
      (e "xh"))⟩

/-- vertical.py:13-86 `zlevel_fields` -/
def zlevelFields (rng : Rng K) (dset : DS (Fl K) := ⟨[], []⟩) (include_deptho : Bool := true)
    (seed : Nat := 123) : Except PyErr (DS (Fl K)) := do
  -- 37-58
  let dset := dset.setVar "z_i" (arr1 "z_i" [0.0, 5.0, 15.0, 185.0, 1815.0, 6185.0])
  let dset := dset.setVar "z_l" (arr1 "z_l" [2.5, 10.0, 100.0, 1000.0, 4000.0])
  -- 60
  if include_deptho then
    -- 71-72
    let dset ← if !dset.dimNames.contains "yh" || !dset.dimNames.contains "xh" then xyFields rng dset
      else .ok dset
    -- 74-84
    return dset.setVar "deptho" (testDepth rng seed)
  else return dset

/-- __init__.py:44-61 and 222-239: an empty dataset with five numbered times, or a monthly calendar
axis. -/
def testTimes (start_year nyears : Nat) (calendar : Calendar) : Except PyErr (Timed (DS (Fl K)) × Nat) := do
  if nyears ≥ 1 then
    let stub ← generateTimeStub start_year nyears calendar
    return (⟨⟨[], ["time"]⟩, [("time", ⟨calendar, stub.time⟩)]⟩, stub.time.length)
  else
    let time : DA (Fl K) := arr1 "time" [1.0, 2.0, 3.0, 4.0, 5.0]
    return (⟨DS.setVar ⟨[], []⟩ "time" time, []⟩, time.size "time")

/-- __init__.py:16-105 `generate_test_data` -/
def generateTestData (rng : Rng K) (start_year : Nat := 1981) (nyears : Nat := 0)
    (calendar : Calendar := .noleap) (seed : Nat := 123) : Except PyErr (Timed (DS (Fl K))) := do
  -- 44-61
  let (x, ntimes) ← testTimes start_year nyears calendar
  -- 63-64
  let dset ← xyFields rng x.obj
  let dset ← zlevelFields rng dset
  -- 66-103
  let dims := [("time", ntimes), ("z_l", 5), ("yh", 5), ("xh", 5)]
  let dset := dset.setVar "thetao" (rng.normalArray seed 15.0 5.0 dims)
  let dset := dset.setVar "so" (rng.normalArray seed 35.0 1.5 dims)
  let dset := dset.setVar "volcello" (rng.normalArray seed 1000.0 100.0 dims)
  return ⟨dset, x.axes⟩

/-- __init__.py:108-140 `generate_test_data_dz` -/
def generateTestDataDz (rng : Rng K) (seed : Nat := 123) : DS (Fl K) :=
  -- 121-125
  let xh : DA (Fl K) := arr1 "xh" (arangeInt 1 6 1)
  let yh : DA (Fl K) := arr1 "yh" (arangeInt 10 60 10)
  -- 127-130
  let deptho : DA (Fl K) := ⟨[("yh", 5), ("xh", 5)], fun e =>
    if e "yh" = 2 ∧ e "xh" = 2 then .nan
    else if e "yh" = 2 ∧ e "xh" = 3 then .nan
    else .fin (rng.uniformAt seed 0.0 100.0 (rowMajor [("yh", 5), ("xh", 5)] e))⟩
  -- 132-136
  let z_i : List K := [0.0, 5.0, 10.0, 20.0, 50.0, 100.0]
  let z_l : List K := (z_i.tail.zip z_i.dropLast).map (fun p => (p.1 + p.2) / 2)
  -- 138
  ⟨[("deptho", deptho), ("z_l", arr1 "z_l" z_l), ("z_i", arr1 "z_i" z_i), ("yh", yh), ("xh", xh)],
    ["z_l", "z_i", "yh", "xh"]⟩

/-- __init__.py:143-191 `generate_test_data_time` -/
def generateTestDataTime (rng : Rng K) (start_year : Nat := 1981) (nyears : Nat := 5)
    (calendar : Calendar := .noleap) (seed : Nat := 123) (frequency : String := "MS") :
    Except PyErr (Timed (DS (Fl K))) := do
  -- 167-169
  let stub ← generateTimeStub start_year nyears calendar frequency
  -- 171-175
  let lon : DA (Fl K) := arr1 "lon" [1.0, 2.0, 3.0, 4.0, 5.0]
  let lat : DA (Fl K) := arr1 "lat" [1.0, 2.0, 3.0, 4.0, 5.0]
  -- 177-189
  let dims := [("time", stub.time.length), ("lat", 5), ("lon", 5)]
  return ⟨⟨[("lat", lat), ("lon", lon), ("var_a", rng.normalArray seed 100 20 dims),
    ("var_b", rng.normalArray (seed * 2) 100 20 dims)], ["time", "lat", "lon"]⟩,
    [("time", ⟨calendar, stub.time⟩)]⟩

/-- __init__.py:194-315 `generate_test_data_uv` -/
def generateTestDataUv (rng : Rng K) (start_year : Nat := 1981) (nyears : Nat := 0)
    (calendar : Calendar := .noleap) (seed : Nat := 123) : Except PyErr (Timed (DS (Fl K))) := do
  -- 222-239
  let (x, ntimes) ← testTimes start_year nyears calendar
  -- 241-242
  let dset ← xyFields rng x.obj
  let dset ← zlevelFields rng dset
  -- 244-245
  let dset := dset.setVar "xq" (arr1 "xq" [1.5, 2.5, 3.5, 4.5, 5.5])
  let dset := dset.setVar "yq" (arr1 "yq" [1.5, 2.5, 3.5, 4.5, 5.5])
  -- 247-300
  let dset := dset.setVar "uo" (rng.normalArray seed 0.0061 0.08
    [("time", ntimes), ("z_l", 5), ("yh", 5), ("xq", 5)])
  let dset := dset.setVar "vo" (rng.normalArray seed 0.00077 0.04
    [("time", ntimes), ("z_l", 5), ("yq", 5), ("xh", 5)])
  let dset := dset.setVar "dxCu" ⟨[("yh", 5), ("xq", 5)], fun _ => .fin 1⟩
  let dset := dset.setVar "dyCv" ⟨[("yq", 5), ("xh", 5)], fun _ => .fin 1⟩
  let dset := dset.setVar "Coriolis" (rng.normalArray seed 1.21e-5 0.00011 [("yq", 5), ("xq", 5)])
  -- 301-306
  return ⟨dset.setVar "areacello_bu"
    (scaledArea (rng.normalArray seed 100.0 10.0 [("yq", 5), ("xq", 5)])), x.axes⟩

end Momlevel
