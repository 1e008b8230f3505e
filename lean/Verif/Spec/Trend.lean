import Verif.Model.Trend

/-! What trends and detrending should give. -/

namespace Momlevel.Spec
open Momlevel

variable {K : Type} [Field K] [LinearOrder K]

/-- The time units that are recognised. -/
def Recognised (u : String) : Prop := u ∈ ["ns", "s", "min", "hr", "day", "mon", "yr"]

/-- Nanoseconds in a time unit, for a month of `dpm` days and a year of `dpy` days. -/
def nsIn (dpm dpy : K) (u : String) : Option K :=
  if u = "ns" then some 1
  else if u = "s" then some 1000000000
  else if u = "min" then some 60000000000
  else if u = "hr" then some 3600000000000
  else if u = "day" then some 86400000000000
  else if u = "mon" then some (86400000000000 * dpm)
  else if u = "yr" then some (86400000000000 * dpy)
  else none

/-- Nanoseconds in a time unit with the default month (30.417 days) and year (365 days). -/
def nsPer (u : String) : Option K := nsIn (30417 / 1000) 365 u

/-- The number of points of an index. -/
def pointCount : DimIndex K → Nat
  | .cftime ax => ax.stamps.length
  | .numeric vals => vals.length

/-- The position of a point on the axis: nanoseconds since 1970-01-01 for dates. -/
def position (ix : DimIndex K) (k : Nat) : K :=
  match ix with
  | .cftime ax =>
    (ax.stamps.map (fun s => (((s.toUs ax.cal - Stamp.toUs ax.cal ⟨⟨1970, 1, 1⟩, 0⟩) * 1000 : Int) : K))).getD k 0
  | .numeric vals => vals.getD k 0

/-- What a slope per unit of position is multiplied with to express it in the requested unit. -/
def unitScale (ix : DimIndex K) (u : Option String) : Option K :=
  match ix, u with
  | .numeric _, _ => some 1
  | .cftime _, none => some 1
  | .cftime _, some u => nsPer u

/-- The contribution of a sample to a sum over the valid (finite) samples. -/
def ifValid (x : Fl K) (f : K → K) : K :=
  match x with
  | .fin v => f v
  | _ => 0

/-- A sum over the valid (finite) samples of a series of `n` values. -/
def overValid (n : Nat) (x : Nat → Fl K) (f : Nat → K → K) : K :=
  ∑ k ∈ Finset.range n, ifValid (x k) (f k)

/-- Sum of squared misfits of the line `m t + b` over the valid samples. -/
def misfit (n : Nat) (t : Nat → K) (x : Nat → Fl K) (m b : K) : K :=
  overValid n x (fun k v => (v - (m * t k + b)) ^ 2)

/-- The array has the dimension `dim`, with `n` points at the positions of the index `ix`. -/
structure HasAxis (x : TrendArray K) (dim : String) (ix : DimIndex K) (n : Nat) : Prop where
  distinct : x.da.dimNames.Nodup
  index : x.indexes.lookup dim = some ix
  dim_mem : (dim, n) ∈ x.da.dims
  count : pointCount ix = n

/-- The positions increase (true of every usable time axis). -/
def Increasing (ix : DimIndex K) (n : Nat) : Prop :=
  ∀ i j, i < j → j < n → position ix i < position ix j

/-- The series of the array through the point `e` along `dim`. -/
def along (x : TrendArray K) (dim : String) (e : Env) (k : Nat) : Fl K :=
  x.da.get (Function.update e dim k)

/-- Every sample of the series is a finite number or missing. -/
def Ordinary (n : Nat) (s : Nat → Fl K) : Prop := ∀ k < n, s k = .nan ∨ ∃ v, s k = .fin v

/-- The text "-1" occurs in a string. -/
def mentionsPer (s : String) : Prop := ['-', '1'] <:+: s.toList

/-- If the axis holds dates, the units attribute, if any, does not contain "-1". -/
def PlainUnits (ix : DimIndex K) (x : TrendArray K) : Prop :=
  ∀ ax, ix = .cftime ax → ∀ s, x.attrs.lookup "units" = some s → ¬ mentionsPer s

/-- The fit is determined by the data or at least does not have all its positions at zero. -/
def OffOrigin (ix : DimIndex K) (n : Nat) : Prop := ∃ k < n, position ix k ≠ 0

end Momlevel.Spec
