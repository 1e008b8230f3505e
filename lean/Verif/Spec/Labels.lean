import Verif.Model.Align

/-!
# Arrays seen through their labels

The value of a labelled array at a label of every dimension, independently of the order and the number of
positions.
-/

namespace Momlevel

variable {L V W : Type} [DecidableEq L]

/-- The positions of the labels `ℓ`. -/
def labelEnv (idx : Index L) (ℓ : String → L) : Env := fun d =>
  match idx d with
  | some la => la.idxOf (ℓ d)
  | none => 0

/-- The value at the labels `ℓ` (`arr.sel(ℓ)`). -/
def LA.sel (a : LA L V) (ℓ : String → L) : V := a.arr.get (labelEnv a.idx ℓ)

/-- A proper labelled array: distinct dimensions, each with as many distinct labels as positions. -/
structure LA.Proper (a : LA L V) : Prop where
  wf : a.arr.WF
  nodup : a.arr.dimNames.Nodup
  labels : ∀ p ∈ a.arr.dims, ∃ la, a.idx p.1 = some la ∧ la.Nodup ∧ la.length = p.2

/-- `x` is a label of dimension `d`. -/
def LA.HasLabel (a : LA L V) (d : String) (x : L) : Prop := ∃ la, a.idx d = some la ∧ x ∈ la

/-- All ways to choose a label of each listed dimension (the others as in `ℓ`). -/
def labelCombos : List (String × List L) → (String → L) → List (String → L)
  | [], ℓ => [ℓ]
  | (d, la) :: ds, ℓ => (labelCombos ds ℓ).flatMap (fun m => la.map (fun x => Function.update m d x))

/-- The labels `ℓ` occur in the array. -/
def LA.Valid (a : LA L V) (ℓ : String → L) : Prop := ∀ d ∈ a.arr.dimNames, a.HasLabel d (ℓ d)

/-- The labels a sum over the common cells runs over: the labels of the data that the reference has too, or
those of whichever side has the dimension. -/
def commonLabels (inD inR : Prop) [Decidable inD] [Decidable inR] (la lb : Option (List L)) : List L :=
  if inD then
    if inR then (la.getD []).filter (fun x => decide (x ∈ lb.getD [])) else la.getD []
  else lb.getD []

/-- Agreement of the indexes on shared dimensions. -/
def Agree (a : LA L V) (b : LA L W) : Prop := ∀ d, d ∈ a.arr.dimNames → d ∈ b.arr.dimNames → a.idx d = b.idx d

/-- Every variable of the dataset is a proper labelled array. -/
def LDS.Proper (d : LDS L K) : Prop := ∀ p ∈ d.ds.vars, (⟨p.2, d.idx⟩ : LA L (Fl K)).Proper

end Momlevel
