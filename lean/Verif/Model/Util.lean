import Verif.Model.Dataset
import Mathlib.Data.String.Basic
import Mathlib.Data.List.Sort

/-!
# Small utilities

Models `alphabetize_dataset`, `reset_encoding` and `get_pv_colormap` of `/repo/src/momlevel/util.py`.

Simplifications: variable names are strings; attributes are omitted.
-/

set_option linter.unusedSectionVars false

namespace Momlevel

/-- util.py:32-46 `alphabetize_dataset`: `ds[sorted(ds.variables.keys())]`.  Selecting a list of names
copies the variables in that order; the selected coordinates stay coordinates. -/
def alphabetizeDataset {V : Type} (ds : DS V) : DS V :=
  let names := ds.names.insertionSort (· ≤ ·)
  ⟨names.filterMap (fun n => (ds.vars.lookup n).map (fun a => (n, a))),
   ds.coords.filter (fun n => names.contains n)⟩

/-- A Python dictionary with string keys. -/
abbrev Dict (α : Type) := List (String × α)

/-- `d.pop(key, None)`: the dictionary without the key. -/
def dictPop {α : Type} (d : Dict α) (key : String) : Dict α := d.filter (fun p => p.1 != key)

/-- The encodings of an xarray object: those of a DataArray and its coordinates, of a Dataset and its
variables, or something that is not an xarray object. -/
inductive EncObj (α : Type)
  | dataArray (enc : Dict α) (coords : List (String × Dict α))
  | dataset (enc : Dict α) (vars : List (String × Dict α))
  | other

/-- util.py:533-535: one pass of the loop for a DataArray. -/
def EncObj.popArray {α : Type} (enc : Dict α) (attrs : List String) : Dict α :=
  attrs.foldl (fun enc attr => dictPop enc attr) enc

/-- util.py:537-541: the loop for a Dataset. -/
def EncObj.popDataset {α : Type} (enc : Dict α) (vars : List (String × Dict α)) (attrs : List String) :
    Dict α × List (String × Dict α) :=
  attrs.foldl (fun s attr => (dictPop s.1 attr, s.2.map (fun v => (v.1, dictPop v.2 attr)))) (enc, vars)

/-- util.py:514-545 `reset_encoding`.  Python edits the object in place and returns it; here the new
state is returned. -/
def resetEncoding {α : Type} (xobj : EncObj α) (attrs : Option (List String) := none) :
    Except PyErr (EncObj α) :=
  let attrs := attrs.getD ["chunks", "preferred_chunks"]
  match xobj with
  | .dataArray enc coords => .ok (.dataArray (EncObj.popArray enc attrs) coords)
  | .dataset enc vars =>
    let s := EncObj.popDataset enc vars attrs
    .ok (.dataset s.1 s.2)
  | .other => .error .valueError

variable {K : Type} [Field K] [LinearOrder K]

/-- `np.arange(start, stop, step)` for a positive step: as many terms `start + k*step` as lie below
`stop`; `count` is an upper bound of their number. -/
def npArange (start stop step : Fl K) (count : Nat) : List (Fl K) :=
  ((List.range count).map (fun k => start + (.fin (k : K)) * step)).filter (fun x => Fl.lt x stop)

/-- util.py:370-396 `get_pv_colormap` -/
def getPvColormap : List (Fl K) × List String :=
  let colors :=
    ["#ffffff"]
    ++ List.replicate 5 "#66ff00"
    ++ List.replicate 7 "#99ff00"
    ++ List.replicate 4 "#ccff00"
    ++ List.replicate 2 "#ffccff"
    ++ List.replicate 2 "#ff99ff"
    ++ List.replicate 5 "#ff4cff"
    ++ List.replicate 4 "#ff00ff"
  let levels :=
    [(0.0 : Fl K), (0.0001 : Fl K)]
    ++ npArange (1.0 : Fl K) (10.0 : Fl K) (1.0 : Fl K) 20
    ++ [(10.0 : Fl K), (15.0 : Fl K)]
    ++ npArange (20.0 : Fl K) (100.0 : Fl K) (10.0 : Fl K) 20
    ++ npArange (100.0 : Fl K) (200.0 : Fl K) (20.0 : Fl K) 20
    ++ npArange (200.0 : Fl K) (500.0 : Fl K) (100.0 : Fl K) 20
    ++ [(2000.0 : Fl K)]
  (levels, colors)

end Momlevel
