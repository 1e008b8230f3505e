import Verif.Model.Steric

/-!
# Datasets that differ in their cell volumes and areas
-/

namespace Momlevel.Spec
open Momlevel Momlevel.Fl

/-- `v` is `c` times `u`. -/
structure Times (c : ℝ) (u v : DA (Fl ℝ)) : Prop where
  dims : v.dims = u.dims
  get : ∀ e, v.get e = fin c * u.get e

/-- `u` and `v` have the same dimensions and miss the same entries. -/
structure SameMask (u v : DA (Fl ℝ)) : Prop where
  dims : v.dims = u.dims
  missing : ∀ e, v.get e = nan ↔ u.get e = nan

/-- `d'` has the content of `d`, except perhaps `volcello` and `areacello`. -/
structure OtherCells (d d' : DS (Fl ℝ)) : Prop where
  vars : ∀ x, x ≠ "volcello" → x ≠ "areacello" → d'.getVar x = d.getVar x
  items : ∀ x, x ≠ "volcello" → x ≠ "areacello" → d'.getItem x = d.getItem x

end Momlevel.Spec
