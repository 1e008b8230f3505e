import Verif.Model.Tidegauge
import Verif.Spec.Sphere

/-! What the extraction of tide gauge series should give. -/

namespace Momlevel.Spec
open Momlevel

/-- The number a finite float stands for. -/
def real : Fl ℝ → ℝ
  | .fin x => x
  | _ => 0

/-- A grid: a latitude and a longitude for each cell, which cells are wet, and which cells exist. -/
structure Grid where
  lat : Env → Fl ℝ
  lon : Env → Fl ℝ
  wet : Env → Prop
  inside : Env → Prop

/-- Great-circle distance in km from a location to a cell, on a sphere of radius 6378 km. -/
noncomputable def gaugeDistance (g : Grid) (loc : String × (String → Fl ℝ)) (e : Env) : ℝ :=
  6378 * centralAngle (real (loc.2 "lat"), real (loc.2 "lon")) (real (g.lat e), real (g.lon e))

/-- `e` is a wet cell and no wet cell is nearer to the location. -/
def NearestWet (g : Grid) (loc : String × (String → Fl ℝ)) (e : Env) : Prop :=
  g.inside e ∧ g.wet e ∧ ∀ e', g.inside e' → g.wet e' → gaugeDistance g loc e ≤ gaugeDistance g loc e'

/-- The location is within the threshold of its cell. -/
noncomputable def kept (g : Grid) (thr : Option ℝ) (loc : String × (String → Fl ℝ)) (e : Env) : Bool :=
  match thr with
  | none => true
  | some t => decide (gaugeDistance g loc e ≤ t)

/-- The series of `a` at a cell: the dimensions `dims` are fixed to their indices in `e`. -/
def seriesAt {V : Type} (a : DA V) (dims : List String) (e : Env) : DA V :=
  ⟨a.dims.filter (fun q => decide (q.1 ∉ dims)),
    fun env => a.get (fun d => if d ∈ dims then e d else env d)⟩

/-- The coordinate denoted by a coordinate argument, with its name. -/
inductive Denotes {V : Type} (a : GaugeArray V) : AxisArg → String → LabelledDA → Prop
  | da (n : String) (c : LabelledDA) : Denotes a (.da n c) n c
  | name (s : String) (c : DA (Fl ℝ)) (h : a.coords.lookup s = some c) :
      Denotes a (.name s) s ⟨c, a.label⟩

/-- Two arrays with the same coordinates that differ only in their values and along the dimension `tc`. -/
structure SameBut {V W : Type} (tc : String) (a : GaugeArray V) (a' : GaugeArray W) : Prop where
  coords : a'.coords = a.coords
  labels : ∀ d, d ≠ tc → a'.label d = a.label d
  dims : a'.da.dims.filter (fun p => p.1 != tc) = a.da.dims.filter (fun p => p.1 != tc)

/-- The csv file meant by the `csv` argument. -/
def gaugeFile (csv : String) : String :=
  match csv with
  | "us" => "momlevel/resources/us_tide_gauges.csv"
  | "global" => "momlevel/resources/global_tide_gauges.csv"
  | path => path

/-- The cell counts as wet for a mask argument. -/
def maskWet : MaskArg → Env → Prop
  | .da m, e => m.da.get e = .fin 1
  | _, _ => True

/-- The coordinates, the mask and the array share the dimensions and labels of the grid, and labels
identify positions. -/
structure SameGrid {V : Type} (a : GaugeArray V) (x y : LabelledDA) : Prop where
  dims : y.da.dims = x.da.dims
  some_dim : x.da.dims ≠ []
  nodup : (x.da.dims.map Prod.fst).Nodup
  labels : ∀ p ∈ x.da.dims, ∀ k < p.2, y.label p.1 k = x.label p.1 k ∧ a.label p.1 k = x.label p.1 k
  inj : ∀ p ∈ x.da.dims, ∀ k < p.2, ∀ k' < p.2, x.label p.1 k = x.label p.1 k' → k = k'
  arr : ∀ p ∈ x.da.dims, p ∈ a.da.dims
  arr_nodup : (a.da.dims.map Prod.fst).Nodup
  wfx : x.da.WF
  wfy : y.da.WF

/-- The mask lives on the same grid. -/
structure MaskOn (x m : LabelledDA) : Prop where
  dims : m.da.dims = x.da.dims
  labels : ∀ p ∈ x.da.dims, ∀ k < p.2, m.label p.1 k = x.label p.1 k
  wf : m.da.WF

/-- Labels tell the positions along each dimension apart, and no dimension is named twice. -/
structure Labels (m : LabelledDA) : Prop where
  nodup : (m.da.dims.map Prod.fst).Nodup
  inj : ∀ p ∈ m.da.dims, ∀ k < p.2, ∀ k' < p.2, m.label p.1 k = m.label p.1 k' → k = k'
  wf : m.da.WF

/-- The cell `e` of the coordinates is one whose labels the mask has, with the value 1. -/
def WetByLabel (x m : LabelledDA) (e : Env) : Prop :=
  ∃ e', m.da.InBounds e' ∧
    m.da.dims.map (fun p => m.label p.1 (e' p.1)) = x.da.dims.map (fun p => x.label p.1 (e p.1)) ∧
    m.da.get e' = .fin 1

/-- The result `out` is right: every gauge has a nearest wet cell, and the variable called `name` is the
series at the cell of the last kept gauge with that name. -/
def GaugesRight {V : Type} (a : DA V) (dims : List String) (g : Grid) (thr : Option ℝ)
    (gauges : List (String × (String → Fl ℝ))) (out : List (String × DA V)) : Prop :=
  (out.map Prod.fst).Nodup ∧
  ∃ cell : List Env, List.Forall₂ (NearestWet g) gauges cell ∧
    ∀ name, out.lookup name =
      (((gauges.zip cell).filter (fun p => kept g thr p.1 p.2 && decide (p.1.1 = name))).getLast?).map
        (fun p => seriesAt a dims p.2)

end Momlevel.Spec
