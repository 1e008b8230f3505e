import Verif.Model.Attrs

/-!
# Attributes of the reference state

Model of the attributes left by /repo/src/momlevel/reference.py:56-85.  `isel`, `squeeze` and
`reset_coords(drop=True)` keep the attributes of the array; each of the calculated variables gets the dictionary
of its function (`calcAttrs`).
-/

namespace Momlevel

/-- `dset.rename(varname_map)` on attributes, steric.py:84: a renamed variable keeps its attributes. -/
def renameAttrs (vm : Option (List (String × String))) (dset : List (String × Dict String)) :
    List (String × Dict String) :=
  match vm with
  | none => dset
  | some m => dset.map (fun p => ((m.lookup p.1).getD p.1, p.2))

/-- reference.py:56-85: the attributes of the variables of the reference state, in order.  `dset` holds the
attributes of the variables of the input, `eos` is the name of the equation of state as passed. -/
def referenceAttrs (dset : List (String × Dict String)) (eos : String := "Wright") :
    List (String × Dict String) :=
  [("thetao", attrsOr dset "thetao"), ("so", attrsOr dset "so"), ("volcello", attrsOr dset "volcello"),
    ("rho", calcAttrs (.rho eos)), ("volo", calcAttrs .volo), ("masso", calcAttrs .masso),
    ("rhoga", calcAttrs .rhoga), ("areacello", attrsOr dset "areacello")]

/-- steric.py:98-109: the attributes of the reference returned by `steric`; `given` are those of a reference that
was passed. -/
def stericRefAttrs (dset : List (String × Dict String)) (vm : Option (List (String × String)))
    (given : Option (List (String × Dict String))) (eos : String := "Wright") : List (String × Dict String) :=
  match given with
  | some g => g
  | none => referenceAttrs (renameAttrs vm dset) eos

end Momlevel
