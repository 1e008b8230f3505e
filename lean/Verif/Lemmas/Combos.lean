import Verif.Lemmas.Labels

/-! # Sums over labels do not depend on the order of the dimensions -/

set_option linter.unusedSectionVars false

namespace Momlevel
open Fl

variable {L : Type} [DecidableEq L] {K : Type} [Field K] [LinearOrder K]

theorem Fl.add_left_comm' (a b c : Fl K) : a + (b + c) = b + (a + c) := by
  show Fl.add a (Fl.add b c) = Fl.add b (Fl.add a c)
  cases a <;> cases b <;> cases c <;> simp [Fl.add]
  ring

theorem nansum_perm {l l' : List (Fl K)} (h : l.Perm l') : Fl.nansum l = Fl.nansum l' := by
  unfold Fl.nansum
  have : LeftCommutative (fun a b : Fl K => a + b) := ⟨Fl.add_left_comm'⟩
  exact (h.map _).foldr_eq _

theorem flatMap_swap {α β γ : Type} (A : List α) (B : List β) (g : α → β → γ) :
    (A.flatMap (fun a => B.map (fun b => g a b))).Perm (B.flatMap (fun b => A.map (fun a => g a b))) := by
  induction A with
  | nil => simp
  | cons a A ih =>
    rw [List.flatMap_cons]
    simp only [List.map_cons]
    refine ((List.Perm.append_left _ ih)).trans ?_
    clear ih
    induction B with
    | nil => simp
    | cons b B ih2 =>
      simp only [List.map_cons, List.flatMap_cons, List.cons_append]
      refine List.Perm.cons _ ?_
      refine (List.perm_append_comm_assoc _ _ _).trans ?_
      exact List.Perm.append_left _ ih2

theorem combos_perm {ds ds' : List (String × List L)} (h : ds.Perm ds') :
    (ds.map Prod.fst).Nodup → ∀ ℓ, (labelCombos ds ℓ).Perm (labelCombos ds' ℓ) := by
  induction h with
  | nil => intro _ _; exact List.Perm.refl _
  | cons p _ ih =>
    obtain ⟨d, la⟩ := p
    intro hn ℓ
    rw [List.map_cons, List.nodup_cons] at hn
    exact (ih hn.2 ℓ).flatMap_right _
  | swap p q l =>
    obtain ⟨d, la⟩ := p
    obtain ⟨d', lb⟩ := q
    intro hn ℓ
    simp only [List.map_cons, List.nodup_cons, List.mem_cons, not_or] at hn
    simp only [labelCombos, List.flatMap_assoc, List.flatMap_map]
    refine List.Perm.flatMap_left _ (fun m _ => ?_)
    have e : ∀ x y, Function.update (Function.update m d x) d' y
        = Function.update (Function.update m d' y) d x := fun x y => Function.update_comm (Ne.symm hn.1.1) _ _ _
    simp only [e]
    exact flatMap_swap la lb (fun x y => Function.update (Function.update m d' y) d x)
  | trans h1 _ ih1 ih2 =>
    intro hn ℓ
    exact (ih1 hn ℓ).trans (ih2 ((h1.map _).nodup_iff.1 hn) ℓ)

end Momlevel
