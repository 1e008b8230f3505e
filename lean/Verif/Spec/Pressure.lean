import Verif.Model.Dataset
import Verif.Model.DA
import Mathlib.Data.Real.Basic

/-! # The pressure the equation of state is evaluated at (specification) -/

namespace Momlevel.Spec
open Momlevel Momlevel.Fl

/-- `z` holds the depths of the levels: the values of the coordinate, or the numbers 0, 1, 2, … of the levels
if the dimension has no coordinate. -/
def IsDepth (d : DS (Fl ℝ)) (zc : String) (z : DA (Fl ℝ)) : Prop :=
  d.vars.lookup zc = some z ∨
    d.vars.lookup zc = none ∧ ∃ n, (d.vars.flatMap (fun p => p.2.dims)).lookup zc = some n ∧
      z = ⟨[(zc, n)], fun e => fin (e zc)⟩

/-- The pressure is 10⁴ Pa per metre of depth on top of the pressure at the surface. -/
def IsPressure (d : DS (Fl ℝ)) (zc : String) (patm pres : DA (Fl ℝ)) : Prop :=
  ∃ z, IsDepth d zc z ∧ pres = z * DA.scalar (fin 10000) + patm

theorem IsDepth.unique {d : DS (Fl ℝ)} {zc : String} {y z : DA (Fl ℝ)} (hy : IsDepth d zc y)
    (hz : IsDepth d zc z) : y = z := by
  rcases hy with h1 | ⟨h1, n, h2, rfl⟩ <;> rcases hz with g1 | ⟨g1, m, g2, rfl⟩
  · exact Option.some.inj (h1.symm.trans g1)
  · cases h1.symm.trans g1
  · cases h1.symm.trans g1
  · cases h2.symm.trans g2; rfl

theorem IsPressure.unique {d : DS (Fl ℝ)} {zc : String} {patm p q : DA (Fl ℝ)} (hp : IsPressure d zc patm p)
    (hq : IsPressure d zc patm q) : p = q := by
  obtain ⟨z, h1, rfl⟩ := hp
  obtain ⟨z', h2, rfl⟩ := hq
  cases h1.unique h2
  rfl

end Momlevel.Spec
