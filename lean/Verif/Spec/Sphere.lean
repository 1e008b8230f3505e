import Mathlib.Analysis.SpecialFunctions.Trigonometric.Basic
import Mathlib.Analysis.SpecialFunctions.Trigonometric.Inverse

/-! Areas and distances on a sphere; angles in degrees. -/

namespace Momlevel.Spec

/-- Degrees to radians. -/
noncomputable def rad (x : ℝ) : ℝ := x / 180 * Real.pi

/-- Area between two parallels and two meridians on a sphere of radius `r`. -/
noncomputable def quadArea (r lat0 lat1 lon0 lon1 : ℝ) : ℝ :=
  r ^ 2 * |Real.sin (rad lat1) - Real.sin (rad lat0)| * |rad lon1 - rad lon0|

/-- A uniform axis of cell centres starting at `a` with step `d`. -/
def IsUniform (l : List ℝ) (a d : ℝ) : Prop := ∀ (k : Nat) (x : ℝ), l[k]? = some x → x = a + k * d

/-- A point of the unit sphere from its latitude and longitude: the directions of the intersection of
equator and zero meridian, of 90° East on the equator, and of the north pole. -/
noncomputable def spherePoint (lat lon : ℝ) : ℝ × ℝ × ℝ :=
  (Real.cos (rad lat) * Real.cos (rad lon), Real.cos (rad lat) * Real.sin (rad lon),
    Real.sin (rad lat))

/-- Scalar product. -/
def dot (u v : ℝ × ℝ × ℝ) : ℝ := u.1 * v.1 + u.2.1 * v.2.1 + u.2.2 * v.2.2

/-- The great-circle angle between two points (latitude, longitude): the angle between the two
directions seen from the centre of the sphere. -/
noncomputable def centralAngle (p q : ℝ × ℝ) : ℝ :=
  Real.arccos (dot (spherePoint p.1 p.2) (spherePoint q.1 q.2))

end Momlevel.Spec
