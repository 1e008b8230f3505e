import Verif.Model.Dataset

/-! Arrays and datasets that differ only in the order of dimensions, `arr.transpose(...)`. -/

namespace Momlevel.Spec

variable {V : Type}

/-- The same array with its dimensions (all of different names) in another order. -/
structure Transposed (a b : DA V) : Prop where
  perm : a.dims.Perm b.dims
  get : a.get = b.get
  nodup : a.dimNames.Nodup

/-- The same dataset with the dimensions of its variables in other orders. -/
structure TransposedDS (d d' : DS V) : Prop where
  vars : List.Forall₂ (fun p q => p.1 = q.1 ∧ Transposed p.2 q.2) d.vars d'.vars
  coords : d.coords = d'.coords

/-- Both fail with the same error, or both succeed with results related by `R`. -/
def SameOutcome {α β : Type} (R : α → β → Prop) : Except PyErr α → Except PyErr β → Prop
  | .ok a, .ok b => R a b
  | .error e, .error e' => e = e'
  | _, _ => False

end Momlevel.Spec
