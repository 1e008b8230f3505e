import Verif.Model.XGrid
import Verif.Spec.Corner
import Verif.Lemmas.DA
import Mathlib.Tactic.Linarith
import Mathlib.Tactic.Ring
import Mathlib.Tactic.SplitIfs

/-! Helper lemmas about the staggered-grid operations. -/

set_option linter.unusedSectionVars false

namespace Momlevel
open Fl

variable {K : Type} [Field K] [LinearOrder K]

/-- The coordinate dictionary with the four given names. -/
def coordDict (xc yc xq yq : String) : List (String × String) :=
  [("xcenter", xc), ("ycenter", yc), ("xcorner", xq), ("ycorner", yq)]

theorem getXgcmGrid_eq (dn : List String) (xc yc xq yq : String) (s : Bool) :
    getXgcmGrid dn (some (coordDict xc yc xq yq)) s
      = if xc ∈ dn ∧ xq ∈ dn ∧ yc ∈ dn ∧ yq ∈ dn then .ok ⟨⟨xc, xq, s⟩, ⟨yc, yq, s⟩⟩
        else .error .valueError := rfl

theorem getXgcmGrid_none (dn : List String) (s : Bool) :
    getXgcmGrid dn none s = getXgcmGrid dn (some (coordDict "xh" "yh" "xq" "yq")) s := rfl

/-- `toCorner` in terms of zero padding and centre/corner offsets. -/
theorem toCorner_eq (op : Fl K → Fl K → Fl K) (c q : String) (s : Bool) (a : DA (Fl K))
    (h : c ∈ a.dimNames) :
    ∃ r, toCorner op ⟨c, q, s⟩ a = .ok r ∧ r.dims = cornerDims ⟨c, q, s⟩ a.dims ∧
      ∀ e, r.get e =
        let P := Spec.pad (fin 0) (a.size c) (fun k => a.get (Function.update e c k))
        op (P (e q - Spec.shift s)) (P (e q + 1 - Spec.shift s)) := by
  refine ⟨_, by simp only [toCorner, if_pos h]; rfl, rfl, fun e => ?_⟩
  cases s with
  | false =>
    simp only [Spec.pad, Spec.shift, Bool.false_eq_true, if_false, sub_zero]
    congr 1
    · have : (0 ≤ (e q : ℤ) ∧ (e q : ℤ) < (a.size c : ℤ)) ↔ e q < a.size c := by omega
      simp only [this, Int.toNat_natCast]
    · have : (0 ≤ (e q : ℤ) + 1 ∧ (e q : ℤ) + 1 < (a.size c : ℤ)) ↔ e q + 1 < a.size c := by omega
      have h2 : ((e q : ℤ) + 1).toNat = e q + 1 := by omega
      simp only [this, h2]
  | true =>
    simp only [Spec.pad, Spec.shift, if_true]
    congr 1
    · by_cases h0 : e q = 0
      · rw [if_pos h0, if_neg (by omega)]
      · rw [if_neg h0]
        have h1 : (0 ≤ (e q : ℤ) - 1 ∧ (e q : ℤ) - 1 < (a.size c : ℤ)) ↔ e q - 1 < a.size c := by
          omega
        have h2 : ((e q : ℤ) - 1).toNat = e q - 1 := by omega
        simp only [h1, h2]
    · have h1 : (0 ≤ (e q : ℤ) + 1 - 1 ∧ (e q : ℤ) + 1 - 1 < (a.size c : ℤ)) ↔ e q < a.size c := by
        omega
      have h2 : ((e q : ℤ) + 1 - 1).toNat = e q := by omega
      simp only [h1, h2]

theorem cornerDims_mem {ax : XAxis} {l : List (String × Nat)} {d : String}
    (h : d ∈ l.map Prod.fst) (hd : d ≠ ax.center) : d ∈ (cornerDims ax l).map Prod.fst := by
  obtain ⟨p, hp, rfl⟩ := List.mem_map.1 h
  unfold cornerDims
  rw [List.map_map]
  refine List.mem_map.2 ⟨p, hp, ?_⟩
  simp [hd]

theorem cornerDims_size {ax : XAxis} (l : List (String × Nat)) {d : String}
    (hd : d ≠ ax.center) (hq : d ≠ ax.corner) :
    (((cornerDims ax l).find? (fun p => p.1 == d)).map Prod.snd).getD 0
      = ((l.find? (fun p => p.1 == d)).map Prod.snd).getD 0 := by
  unfold cornerDims
  induction l with
  | nil => rfl
  | cons p l ih =>
    rw [List.map_cons, List.find?_cons, List.find?_cons]
    by_cases h : p.1 = ax.center
    · have h1 : ((if p.1 = ax.center then (ax.corner, if ax.outer = true then p.2 + 1 else p.2)
          else p).1 == d) = false := by
        rw [if_pos h, beq_eq_false_iff_ne]; exact fun e => hq e.symm
      have h2 : (p.1 == d) = false := by rw [beq_eq_false_iff_ne, h]; exact fun e => hd e.symm
      rw [h1, h2]
      exact ih
    · rw [if_neg h]
      cases p.1 == d
      · exact ih
      · rfl

/-- Size of a dimension of a product is the size in the first factor, if present there. -/
theorem size_bdims {a b : List (String × Nat)} {d : String} (h : d ∈ a.map Prod.fst) :
    (((DA.bdims a b).find? (fun p => p.1 == d)).map Prod.snd).getD 0
      = ((a.find? (fun p => p.1 == d)).map Prod.snd).getD 0 := by
  unfold DA.bdims
  rw [List.find?_append]
  obtain ⟨p, hp, hpd⟩ := List.mem_map.1 h
  have : (a.find? (fun p => p.1 == d)).isSome := by
    rw [List.find?_isSome]
    exact ⟨p, hp, by simp [hpd]⟩
  obtain ⟨q, hq⟩ := Option.isSome_iff_exists.1 this
  rw [hq]; rfl

theorem mem_bdims_left {a b : List (String × Nat)} {d : String} (h : d ∈ a.map Prod.fst) :
    d ∈ (DA.bdims a b).map Prod.fst := by
  unfold DA.bdims
  rw [List.map_append, List.mem_append]
  exact Or.inl h

end Momlevel
