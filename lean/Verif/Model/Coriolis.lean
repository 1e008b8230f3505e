import Verif.Model.AdjustN2

/-!
# Coriolis parameter and Rossby radius

Models `calc_coriolis` and `calc_rossby_rd` of `/repo/src/momlevel/derived.py`.
-/

namespace Momlevel

/-- `np.sin` on a float. -/
noncomputable def npSin : Fl ℝ → Fl ℝ
  | .fin x => .fin (Real.sin x)
  | _ => .nan

/-- derived.py:162-184 `calc_coriolis` (attributes and the array name omitted). -/
noncomputable def calcCoriolis (lat : DA (Fl ℝ)) : DA (Fl ℝ) :=
  -- 177
  lat.map (fun x => (2.0 : Fl ℝ) * ((2.0 : Fl ℝ) * npPi / ((60.0 : Fl ℝ) * (60.0 : Fl ℝ) * (24.0 : Fl ℝ)))
    * npSin (x * npPi / (180.0 : Fl ℝ)))

/-- derived.py:568-594 `calc_rossby_rd` (attributes and the array name omitted). -/
def calcRossbyRd {K : Type} [Field K] [LinearOrder K] (wave_speed coriolis : DA (Fl K)) :
    DA (Fl K) :=
  -- 588
  wave_speed / coriolis.map Fl.abs

end Momlevel
