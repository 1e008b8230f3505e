import Verif.Spec.Season

/-! Properties of time axes and series used to state when seasonal fits agree. -/

namespace Momlevel.Spec
open Momlevel

/-- The series of an array at a point is finite, or has a missing value. -/
def FiniteOrMissing (a : DA (Fl ℝ)) (e : Env) (n : Nat) : Prop :=
  (∃ y : Fin n → ℝ, SeriesIs a e y) ∨ ∃ i < n, atPoint a e i = .nan

/-- The times of the axis are a day apart. -/
def Daily (ax : TimeAxis) : Prop :=
  ∀ (k : Nat) (s s' : Stamp), ax.stamps[k]? = some s → ax.stamps[k + 1]? = some s' →
    s'.toUs ax.cal = s.toUs ax.cal + 86400000000

/-- The times of the axis lie on whole hours. -/
def WholeHours (ax : TimeAxis) : Prop := ∀ s ∈ ax.stamps, 3600000000 ∣ s.us

/-- The times of the axis exist in its calendar. -/
def ValidTimes (ax : TimeAxis) : Prop :=
  ∀ s ∈ ax.stamps, s.date.Valid ax.cal ∧ s.us < 86400000000

end Momlevel.Spec
