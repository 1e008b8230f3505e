import Verif.Model.Geolocate
import Verif.Spec.Sphere

/-! What it means for a location to be mapped to a nearest model point. -/

namespace Momlevel.Spec
open Momlevel

/-- The row `r` maps the location `loc` to the entry number `r.mod_index` of the list `wet` of usable
model points: it carries that point's label and coordinates, the great-circle distance to it on a sphere
of radius `R`, and no other usable point is nearer. -/
def MapsTo {I : Type} (wet : List (I × (String → Fl ℝ))) (ycoord xcoord lat lon : String) (R : ℝ)
    (loc : String × (String → Fl ℝ)) (r : Located I) : Prop :=
  r.name = loc.1 ∧ r.cols = loc.2 ∧ r.real_coords = (loc.2 "lat", loc.2 "lon") ∧
  ∃ (m : I × (String → Fl ℝ)) (p q : ℝ × ℝ),
    wet[r.mod_index]? = some m ∧ r.dim_vals = m.1 ∧
    r.model_coords = (m.2 ycoord, m.2 xcoord) ∧
    m.2 ycoord = .fin p.1 ∧ m.2 xcoord = .fin p.2 ∧ loc.2 lat = .fin q.1 ∧ loc.2 lon = .fin q.2 ∧
    r.distance = .fin (R * centralAngle q p) ∧
    ∀ m' ∈ wet, ∃ p' : ℝ × ℝ, m'.2 ycoord = .fin p'.1 ∧ m'.2 xcoord = .fin p'.2 ∧
      centralAngle q p ≤ centralAngle q p'

/-- The row's distance is at most `t`. -/
noncomputable def atMost {I : Type} (t : ℝ) (r : Located I) : Bool :=
  match r.distance with
  | .fin d => decide (d ≤ t)
  | _ => false

/-- The row's distance is at least `t`. -/
noncomputable def atLeast {I : Type} (t : ℝ) (r : Located I) : Bool :=
  match r.distance with
  | .fin d => decide (t ≤ d)
  | _ => false

/-- Two tables give coordinates at most the angle `ε` (radians) apart. -/
def WithinAngle (yc xc : String) (ε : ℝ) (f g : String → Fl ℝ) : Prop :=
  ∃ p q : ℝ × ℝ, f yc = .fin p.1 ∧ f xc = .fin p.2 ∧ g yc = .fin q.1 ∧ g xc = .fin q.2 ∧
    centralAngle p q ≤ ε

end Momlevel.Spec
