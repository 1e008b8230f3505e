import Verif.Model.Eos
import Verif.Model.Spice
import Verif.Model.Trend
import Verif.Model.TimeStub
import Verif.Model.Grid
import Verif.Model.Util
import Mathlib.Tactic.NormNum

/-!
# Values recorded in the tests of the repository

The numbers that /repo/tests asserts for fixed arguments, evaluated in the model in exact arithmetic
(not properties; a check of the transcription of coefficients and formulas, see DESIGN.md section 5).
-/

namespace Momlevel.Props
open Momlevel Momlevel.Eos Momlevel.Fl

/-! /repo/tests/test_wright.py, /repo/tests/test_linear.py: scalar arguments -/

example : |Wright.density (18.0 : ℚ) 35.0 200000.0 - 1025.359957453976| ≤ 1e-12 := by
  norm_num [Wright.density, Wright.A0, Wright.A1, Wright.A2, Wright.B0, Wright.B1, Wright.B2,
    Wright.B3, Wright.B4, Wright.B5, Wright.C0, Wright.C1, Wright.C2, Wright.C3, Wright.C4,
    Wright.C5, abs_le]

example : |Wright.drho_dtemp (18.0 : ℚ) 35.0 200000.0 + 0.24680005918175105| ≤ 1e-14 := by
  norm_num [Wright.drho_dtemp, Wright.A0, Wright.A1, Wright.A2, Wright.B0, Wright.B1, Wright.B2,
    Wright.B3, Wright.B4, Wright.B5, Wright.C0, Wright.C1, Wright.C2, Wright.C3, Wright.C4,
    Wright.C5, abs_le]

example : |Wright.drho_dsal (18.0 : ℚ) 35.0 200000.0 - 0.7652676800174607| ≤ 1e-14 := by
  norm_num [Wright.drho_dsal, Wright.A0, Wright.A1, Wright.A2, Wright.B0, Wright.B1, Wright.B2,
    Wright.B3, Wright.B4, Wright.B5, Wright.C0, Wright.C1, Wright.C2, Wright.C3, Wright.C4,
    Wright.C5, abs_le]

example : |Wright.alpha (18.0 : ℚ) 35.0 200000.0 - 0.0002406960183958898| ≤ 1e-17 := by
  norm_num [Wright.alpha, Wright.drho_dtemp, Wright.density, Wright.A0, Wright.A1, Wright.A2,
    Wright.B0, Wright.B1, Wright.B2, Wright.B3, Wright.B4, Wright.B5, Wright.C0, Wright.C1,
    Wright.C2, Wright.C3, Wright.C4, Wright.C5, abs_le]

example : |Wright.beta (18.0 : ℚ) 35.0 200000.0 - 0.0007463405162784603| ≤ 1e-17 := by
  norm_num [Wright.beta, Wright.drho_dsal, Wright.density, Wright.A0, Wright.A1, Wright.A2,
    Wright.B0, Wright.B1, Wright.B2, Wright.B3, Wright.B4, Wright.B5, Wright.C0, Wright.C1,
    Wright.C2, Wright.C3, Wright.C4, Wright.C5, abs_le]

example : Linear.density (18.0 : ℚ) 35.0 200000.0 = 1024.4 := by
  norm_num [Linear.density, Linear.RHO_T0_S0, Linear.DRHO_DT, Linear.DRHO_DS]

/-! /repo/tests/test_flament.py: the sum over 31 temperatures and the 42 salinities of
`np.arange(33.0, 37.1, 0.1)` -/

/-- The sum of the test, point by point. -/
def flamentSum : Except PyErr (Fl ℚ) := do
  let r ← (List.range 31).mapM (fun i => do
    let row ← (List.range 42).mapM (fun k => do
      let v ← Spice.spice (.num (fin (i : ℚ))) (.num (fin (33 + (k : ℚ) / 10)))
      return Spice.npsum v.data)
    return Spice.npsum row)
  return Spice.npsum r

example : (match flamentSum with
    | .ok (.fin x) => decide (3283.6803841693 ≤ x ∧ x ≤ 3283.6803841695)
    | _ => false) = true := by decide +kernel

/-! /repo/tests/test_testdata.py, /repo/tests/test_util.py: time axes -/

example : (generateDailyTimeaxis).length = 730 := by decide +kernel
example : (generateDailyTimeaxis (calendar := .prolepticGregorian)).length = 731 := by decide +kernel
example : (generateTimeStub).map (fun r => (r.time.length, r.time_bnds.head?))
    = .ok (60, some (⟨⟨1981, 1, 1⟩, 0⟩, ⟨⟨1981, 2, 1⟩, 0⟩)) := by decide +kernel

/-! /repo/tests/test_trend.py: `time_conversion_factor` -/

example : timeConversionFactor "ns" "ns" = .ok (1.0 : Fl ℚ) := by decide +kernel
example : timeConversionFactor "yr" "day" = .ok (365.0 : Fl ℚ) := by decide +kernel
example : timeConversionFactor "day" "hr" = .ok (24.0 : Fl ℚ) := by decide +kernel
example : timeConversionFactor "day" "s" = .ok (86400.0 : Fl ℚ) := by decide +kernel
example : timeConversionFactor "mon" "day" = .ok (30.417 : Fl ℚ) := by decide +kernel

end Momlevel.Props
