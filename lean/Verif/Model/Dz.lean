import Verif.Model.DA

/-!
# Partial-cell thickness

Models `calc_dz` of `/repo/src/momlevel/derived.py`.
-/

set_option linter.unusedSectionVars false

namespace Momlevel

variable {K : Type} [Field K] [LinearOrder K]

/-- `xr.where(part < 0.0, 0.0, part)` -/
def clip0 (part : Fl K) : Fl K := Fl.sel (Fl.lt part (.fin 0)) (.fin 0) part

/-- derived.py:295-298: missing depths become 0, then the bottom boundary is applied. -/
def limitDepth (depth : DA (Fl K)) (bottom : Option (Fl K)) : DA (Fl K) :=
  let depth := depth.map (Fl.fillna (.fin 0))
  match bottom with
  | some b => depth.map (fun d => Fl.minimum d b)
  | none => depth

/-- derived.py:249-325 `calc_dz`.

`levels` and `interfaces` are one-dimensional (anything else is outside the documented use and
mapped to ValueError); line 301/303: the two shifted interface arrays take the coordinates of
`levels`, which requires `len(interfaces) - 1 == len(levels)`.  `xr.broadcast` (302, 304) puts the
dimensions of depth first, `broadcast_like` (305) those of `levels` first; values are unaffected. -/
def calcDz (levels interfaces depth : DA (Fl K)) (top : Fl K := .fin 0)
    (bottom : Option (Fl K) := none) (fraction : Bool := false) :
    Except PyErr (DA (Fl K)) := do
  -- 284-292
  pyAssert ((depth.map (Fl.fillna (.fin 0))).all (fun d => Fl.le (.fin 0) d))
  pyAssert (levels.all (fun d => Fl.le (.fin 0) d))
  pyAssert (interfaces.all (fun d => Fl.le (.fin 0) d))
  -- 295-298
  let depth := limitDepth depth bottom
  match levels.dims, interfaces.dims with
  | [(z, n)], [(zi, m)] =>
    if m - 1 ≠ n then .error .valueError else
    -- 301-305
    let ztop : DA (Fl K) := ⟨DA.bdims depth.dims [(z, n)],
      fun e => interfaces.get (Function.update e zi (e z))⟩
    let zbot : DA (Fl K) := ⟨DA.bdims depth.dims [(z, n)],
      fun e => interfaces.get (Function.update e zi (e z + 1))⟩
    let depth : DA (Fl K) := ⟨DA.bdims [(z, n)] depth.dims, depth.get⟩
    -- 308
    let dz_field := zbot - ztop
    -- 311-313
    let part := depth - ztop
    let part := part.map clip0
    let result := DA.zip Fl.minimum part dz_field
    -- 316-318
    let part := zbot - DA.scalar top
    let part := part.map clip0
    let result := DA.zip Fl.minimum part result
    -- 320-323
    if fraction then
      let _dz_field := dz_field.map (fun v => Fl.sel (Fl.eqv v (.fin 0)) .nan v)
      let _dz_part := result.map (fun v => Fl.sel (Fl.eqv v (.fin 0)) .nan v)
      .ok (_dz_part / _dz_field)
    else .ok result
  | _, _ => .error .valueError

end Momlevel
