import Verif.Model.Derived

/-!
# `calc_n2` on cell interfaces

Model of the `interfaces` option of `calc_n2`, /repo/src/momlevel/derived.py:389-395.

External: `xgcm.Grid.transform(…, method="linear")` interpolates linearly along the axis (`np.interp`),
sets values outside the range of the levels to NaN (`mask_edges=True` is its default) and puts the new
dimension last.  `xgcm.Grid` is made without `periodic=False`; releases of xgcm in which axes are periodic
by default refuse to transform along such an axis (ValueError).  Which of the two holds is the parameter
`refuses`; the package is not part of the repository.  Simplifications: the levels increase; the
interfaces are a one-dimensional array whose dimension has its name, different from those of `thetao`
and `so`.
-/

namespace Momlevel

variable {K : Type} [Field K] [LinearOrder K]

/-- `np.interp(x, xp, fp)` for increasing `xp` of length `n`.  `c` is the number of nodes at or below
`x`.  If the value computed from the left node is NaN, numpy tries the right node, then whether both
ends agree.  NaN for a NaN `x`. -/
def npInterp (n : Nat) (xp fp : Nat → Fl K) (x : Fl K) : Fl K :=
  let c := ((List.range n).filter (fun k => Fl.le (xp k) x)).length
  if Fl.isnull x then .nan
  else if c = 0 then fp 0
  else if c = n then fp (n - 1)
  else
    let j := c - 1
    if Fl.eqv (xp j) x then fp j
    else
      let slope := (fp (j + 1) - fp j) / (xp (j + 1) - xp j)
      let r := slope * (x - xp j) + fp j
      let r := Fl.sel (Fl.isnull r) (slope * (x - xp (j + 1)) + fp (j + 1)) r
      Fl.sel (Fl.isnull r && Fl.eqv (fp j) (fp (j + 1))) (fp j) r

/-- xgcm's linear interpolation with `mask_edges=True`: missing outside the range of the levels. -/
def interpMasked (n : Nat) (xp fp : Nat → Fl K) (x : Fl K) : Fl K :=
  Fl.sel (Fl.lt x (xp 0) || Fl.lt (xp (n - 1)) x) .nan (npInterp n xp fp x)

/-- `grid.transform(a, "Z", interfaces, method="linear")`, derived.py:392-393; `z` are the levels, `w`
the `m` interfaces. -/
def gridTransform (a : DA (Fl K)) (zcoord : String) (z : Nat → Fl K) (name : String) (m : Nat)
    (w : Nat → Fl K) : DA (Fl K) :=
  ⟨a.dims.filter (fun p => p.1 != zcoord) ++ [(name, m)], fun e =>
    interpMasked (a.size zcoord) z (fun k => a.get (Function.update e zcoord k)) (w (e name))⟩

/-- derived.py:328-411 `calc_n2` with `interfaces` (called `name`, values `w`, length `m`). -/
def calcN2Interfaces (refuses : Bool) (thetao so : DA (Fl K)) (z : Nat → Fl K) (name : String) (m : Nat)
    (w : Nat → Fl K) (eos : String := "Wright") (gravity : Fl K := (-9.8 : Fl K))
    (patm : DA (Fl K) := DA.scalar (101325.0 : Fl K)) (zcoord : String := "z_l")
    (adjust_negative : Bool := false) : Except PyErr (DA (Fl K)) :=
  -- 391: the grid needs the dimension
  if zcoord ∉ thetao.dimNames ∧ zcoord ∉ so.dimNames then .error .valueError
  -- 392-393
  else if refuses then .error .valueError
  -- an array without the dimension cannot be transformed along it
  else if zcoord ∉ thetao.dimNames ∨ zcoord ∉ so.dimNames then .error .keyError
  -- 394-411
  else calcN2 (gridTransform thetao zcoord z name m w) (gridTransform so zcoord z name m w) w eos
    gravity patm name adjust_negative

end Momlevel
