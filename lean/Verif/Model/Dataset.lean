import Verif.Model.DA

/-!
# Datasets

Model of the part of `xarray.Dataset` that momlevel uses: an ordered list of named variables, some
of which are coordinates.  Simplification: a name occurs at most once is not enforced by the type;
lookups take the first occurrence.
-/

namespace Momlevel

/-- Model of `xarray.Dataset`. -/
structure DS (V : Type) where
  /-- `dset.variables`: data variables and coordinates, in order. -/
  vars : List (String × DA V)
  /-- Names of the variables that are coordinates (`dset.coords`). -/
  coords : List String := []

namespace DS

variable {V : Type}

/-- `list(dset.variables)` -/
def names (d : DS V) : List String := d.vars.map Prod.fst

/-- `dset[name]` for an existing variable; KeyError otherwise. -/
def getVar (d : DS V) (name : String) : Except PyErr (DA V) :=
  match d.vars.lookup name with
  | some a => .ok a
  | none => .error .keyError

/-- `dset.dims` as a list of names (with repetitions). -/
def dimNames (d : DS V) : List String := d.vars.flatMap (fun p => p.2.dimNames)

end DS

/-- `dict[key]` on a Python dictionary. -/
def dictGet {α : Type} (d : List (String × α)) (key : String) : Except PyErr α :=
  match d.lookup key with
  | some a => .ok a
  | none => .error .keyError

/-- `d[key] = v` on a Python dictionary. -/
def dictSet {α : Type} (d : List (String × α)) (key : String) (v : α) : List (String × α) :=
  if (d.map Prod.fst).contains key then d.map (fun p => if p.1 = key then (key, v) else p)
  else d ++ [(key, v)]

/-- `{k: v for ...}`: later entries replace earlier ones with the same key. -/
def pyDict {α : Type} (l : List (String × α)) : List (String × α) :=
  l.foldl (fun d p => dictSet d p.1 p.2) []

end Momlevel
