import Verif.Spec.Average
import Mathlib.Data.Real.Basic

/-! # Weights of the samples present -/

namespace Momlevel.Spec
open Momlevel.Fl

/-- The weight of sample `i`, zero where it is missing. -/
noncomputable def presentWeight (w : ℕ → ℕ) (v : ℕ → Fl ℝ) (i : ℕ) : ℕ := by
  classical exact if v i = nan then 0 else w i

end Momlevel.Spec
