import Verif.Model.Dataset

/-! Taking some positions of one dimension, `isel({x: [i, j, …]})`. -/

namespace Momlevel.Spec

variable {V : Type}

/-- The positions `idx` of dimension `x`, in that order.  (Arrays without the dimension do not look at it, so
nothing happens to them.) -/
def pick (x : String) (idx : List Nat) (a : DA V) : DA V :=
  ⟨a.dims.map (fun p => if p.1 = x then (x, idx.length) else p),
   fun e => a.get (Function.update e x (idx.getD (e x) 0))⟩

/-- The same for every variable of a dataset. -/
def pickDS (x : String) (idx : List Nat) (d : DS V) : DS V :=
  ⟨d.vars.map (fun p => (p.1, pick x idx p.2)), d.coords⟩

end Momlevel.Spec
