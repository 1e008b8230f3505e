import Verif.Spec.Sum
import Verif.Lemmas.DA
import Mathlib.Algebra.Order.BigOperators.Group.Finset
import Mathlib.Algebra.BigOperators.Ring.Finset

/-! Sums over named dimensions. -/

set_option linter.unusedSectionVars false

namespace Momlevel
open Spec

variable {M : Type*} [AddCommMonoid M]

/-- Two sums agree when the summands agree on corresponding environments. -/
theorem sumOver_rel {D : List (String × Nat)} (hn : (D.map Prod.fst).Nodup) {f g : Env → M}
    {e e' : Env}
    (h : ∀ a b : Env, (∀ p ∈ D, a p.1 < p.2) → (∀ d ∈ D.map Prod.fst, a d = b d) →
      (∀ d, d ∉ D.map Prod.fst → a d = e d) → (∀ d, d ∉ D.map Prod.fst → b d = e' d) → f a = g b) :
    sumOver D f e = sumOver D g e' := by
  induction D generalizing e e' with
  | nil => exact h e e' (by simp) (by simp) (fun _ _ => rfl) (fun _ _ => rfl)
  | cons q D ih =>
    obtain ⟨d, n⟩ := q
    simp only [List.map_cons, List.nodup_cons] at hn
    simp only [sumOver]
    refine Finset.sum_congr rfl (fun i hi => ih hn.2 (fun a b h1 h2 h3 h4 => ?_))
    have ha : a d = i := by rw [h3 d hn.1, Function.update_self]
    have hb : b d = i := by rw [h4 d hn.1, Function.update_self]
    refine h a b ?_ ?_ ?_ ?_
    · intro p hp
      rcases List.mem_cons.1 hp with rfl | hp
      · simpa [ha] using hi
      · exact h1 p hp
    · intro x hx
      rw [List.map_cons, List.mem_cons] at hx
      rcases hx with rfl | hx
      · exact ha.trans hb.symm
      · exact h2 x hx
    · intro x hx
      simp only [List.map_cons, List.mem_cons, not_or] at hx
      rw [h3 x hx.2, Function.update_of_ne hx.1]
    · intro x hx
      simp only [List.map_cons, List.mem_cons, not_or] at hx
      rw [h4 x hx.2, Function.update_of_ne hx.1]

theorem sumOver_congr {D : List (String × Nat)} (hn : (D.map Prod.fst).Nodup) {f g : Env → M}
    {e : Env} (h : ∀ a : Env, (∀ p ∈ D, a p.1 < p.2) →
      (∀ d, d ∉ D.map Prod.fst → a d = e d) → f a = g a) :
    sumOver D f e = sumOver D g e := by
  refine sumOver_rel hn (fun a b h1 h2 h3 h4 => ?_)
  have : a = b := by
    funext d
    by_cases hd : d ∈ D.map Prod.fst
    · exact h2 d hd
    · rw [h3 d hd, h4 d hd]
  subst this
  exact h a h1 h3

theorem sumOver_update {D : List (String × Nat)} {f : Env → M} {d : String} {i : Nat}
    (hd : d ∉ D.map Prod.fst) (e : Env) :
    sumOver D (fun a => f (Function.update a d i)) e = sumOver D f (Function.update e d i) := by
  induction D generalizing e with
  | nil => rfl
  | cons q D ih =>
    obtain ⟨x, n⟩ := q
    simp only [List.map_cons, List.mem_cons, not_or] at hd
    simp only [sumOver]
    refine Finset.sum_congr rfl (fun j _ => ?_)
    rw [ih hd.2, Function.update_comm hd.1]

theorem sumOver_sum {D : List (String × Nat)} {n : Nat} (f : Nat → Env → M) (e : Env) :
    sumOver D (fun a => ∑ i ∈ Finset.range n, f i a) e = ∑ i ∈ Finset.range n, sumOver D (f i) e := by
  induction D generalizing e with
  | nil => rfl
  | cons q D ih =>
    obtain ⟨x, m⟩ := q
    simp only [sumOver]
    simp only [ih]
    rw [Finset.sum_comm]

/-- The model's list of environments enumerates exactly the index combinations. -/
theorem sum_envs {D : List (String × Nat)} (hn : (D.map Prod.fst).Nodup) (f : Env → M) :
    ((DA.envs D).map f).sum = sumOver D f (fun _ => 0) := by
  induction D generalizing f with
  | nil => simp [DA.envs, sumOver]
  | cons q D ih =>
    obtain ⟨d, n⟩ := q
    simp only [List.map_cons, List.nodup_cons] at hn
    have : ((DA.envs ((d, n) :: D)).map f).sum
        = ((DA.envs D).map (fun e => ∑ i ∈ Finset.range n, f (Function.update e d i))).sum := by
      simp only [DA.envs]
      induction DA.envs D with
      | nil => simp
      | cons a l ih' =>
        rw [List.flatMap_cons, List.map_append, List.sum_append, ih', List.map_cons, List.sum_cons,
          List.map_map, Fl.sum_map_range]
        rfl
    rw [this, ih hn.2, sumOver_sum]
    simp only [sumOver]
    exact Finset.sum_congr rfl (fun i _ => sumOver_update hn.1 _)

theorem sumOver_le {K : Type*} [Field K] [LinearOrder K] [IsStrictOrderedRing K]
    {D : List (String × Nat)} (hn : (D.map Prod.fst).Nodup) {f g : Env → K} {e : Env}
    (h : ∀ a : Env, (∀ p ∈ D, a p.1 < p.2) → (∀ d, d ∉ D.map Prod.fst → a d = e d) → f a ≤ g a) :
    sumOver D f e ≤ sumOver D g e := by
  induction D generalizing e with
  | nil => exact h e (by simp) (fun _ _ => rfl)
  | cons q D ih =>
    obtain ⟨d, n⟩ := q
    simp only [List.map_cons, List.nodup_cons] at hn
    simp only [sumOver]
    refine Finset.sum_le_sum (fun i hi => ih hn.2 (fun a h1 h3 => ?_))
    have ha : a d = i := by rw [h3 d hn.1, Function.update_self]
    refine h a ?_ ?_
    · intro p hp
      rcases List.mem_cons.1 hp with rfl | hp
      · simpa [ha] using hi
      · exact h1 p hp
    · intro x hx
      simp only [List.map_cons, List.mem_cons, not_or] at hx
      rw [h3 x hx.2, Function.update_of_ne hx.1]

theorem sumOver_mul {K : Type*} [Field K] {D : List (String × Nat)} (c : K) (f : Env → K) (e : Env) :
    sumOver D (fun a => c * f a) e = c * sumOver D f e := by
  induction D generalizing e with
  | nil => rfl
  | cons q D ih =>
    obtain ⟨d, n⟩ := q
    simp only [sumOver, ih, Finset.mul_sum]

theorem sumOver_zero {D : List (String × Nat)} (e : Env) :
    sumOver D (fun _ => (0 : M)) e = 0 := by
  induction D generalizing e with
  | nil => rfl
  | cons q D ih => simp only [sumOver, ih, Finset.sum_const_zero]

/-- A sum of non-negative terms with a positive one is positive. -/
theorem sumOver_pos {K : Type*} [Field K] [LinearOrder K] [IsStrictOrderedRing K]
    {D : List (String × Nat)} (hn : (D.map Prod.fst).Nodup) {f : Env → K} {e : Env}
    (h : ∀ a : Env, (∀ p ∈ D, a p.1 < p.2) → (∀ d, d ∉ D.map Prod.fst → a d = e d) → 0 ≤ f a)
    {b : Env} (hb : ∀ p ∈ D, b p.1 < p.2) (hb' : ∀ d, d ∉ D.map Prod.fst → b d = e d)
    (hpos : 0 < f b) : 0 < sumOver D f e := by
  induction D generalizing e with
  | nil =>
    have : b = e := funext (fun d => hb' d (by simp))
    subst this; exact hpos
  | cons q D ih =>
    obtain ⟨d, n⟩ := q
    simp only [List.map_cons, List.nodup_cons] at hn
    simp only [sumOver]
    have hlift : ∀ i < n, ∀ a : Env, (∀ p ∈ D, a p.1 < p.2) →
        (∀ x, x ∉ D.map Prod.fst → a x = Function.update e d i x) → 0 ≤ f a := by
      intro i hi a h1 h3
      have ha : a d = i := by rw [h3 d hn.1, Function.update_self]
      refine h a ?_ ?_
      · intro p hp
        rcases List.mem_cons.1 hp with rfl | hp
        · simpa [ha] using hi
        · exact h1 p hp
      · intro x hx
        simp only [List.map_cons, List.mem_cons, not_or] at hx
        rw [h3 x hx.2, Function.update_of_ne hx.1]
    refine Finset.sum_pos' (fun i hi => ?_) ⟨b d, Finset.mem_range.2 (hb (d, n) (by simp)), ?_⟩
    · have := sumOver_le hn.2 (f := fun _ => (0 : K)) (hlift i (Finset.mem_range.1 hi))
      rwa [sumOver_zero] at this
    · refine ih hn.2 (hlift (b d) (hb (d, n) (by simp))) (fun p hp => hb p (by simp [hp])) ?_
      intro x hx
      by_cases hxd : x = d
      · subst hxd; rw [Function.update_self]
      · rw [Function.update_of_ne hxd]
        exact hb' x (by simp only [List.map_cons, List.mem_cons, not_or]; exact ⟨hxd, hx⟩)

namespace DA
variable {K : Type*} [Field K] [LinearOrder K]

/-- `arr.sum()` of finite-or-missing values. -/
theorem get_sumAll {a : DA (Fl K)} (hn : a.dimNames.Nodup) (hw : a.WF)
    (hf : ∀ e, a.InBounds e → Fl.FN (a.get e)) (e : Env) :
    a.sumAll.get e = .fin (sumOver a.dims (fun e => Fl.val0 (a.get e)) e) := by
  show Fl.nansum a.vals = _
  unfold vals
  rw [Fl.nansum_eq, List.map_map, sum_envs hn]
  · congr 1
    refine sumOver_rel hn (fun x y h1 h2 _ _ => ?_)
    show Fl.val0 (a.get x) = _
    rw [hw x y h2]
  · intro x hx
    obtain ⟨y, hy, rfl⟩ := List.mem_map.1 hx
    exact hf y (mem_envs_bounds hy hn)

/-- `arr.sum(ds)` of finite-or-missing values. -/
theorem get_sumDims {a : DA (Fl K)} (hn : a.dimNames.Nodup) (hw : a.WF) {ds : List String} {e : Env}
    (hf : ∀ e', (∀ p ∈ a.dims, p.1 ∈ ds → e' p.1 < p.2) → (∀ d, d ∉ ds → e' d = e d) →
      Fl.FN (a.get e')) :
    (a.sumDims ds).get e
      = .fin (sumOver (a.dims.filter (fun p => ds.contains p.1)) (fun e => Fl.val0 (a.get e)) e) := by
  have hn' : ((a.dims.filter (fun p => ds.contains p.1)).map Prod.fst).Nodup :=
    hn.sublist (List.filter_sublist.map _)
  show Fl.nansum _ = _
  rw [Fl.nansum_eq, List.map_map, sum_envs hn']
  · congr 1
    refine sumOver_rel hn' (fun x y h1 h2 h3 h4 => ?_)
    show Fl.val0 (a.get _) = _
    congr 1
    refine hw _ _ (fun d hd => ?_)
    obtain ⟨p, hp, rfl⟩ := List.mem_map.1 hd
    by_cases hc : p.1 ∈ ds
    · have : ds.contains p.1 = true := by simpa using hc
      rw [if_pos this]
      exact h2 _ (List.mem_map_of_mem (List.mem_filter.2 ⟨hp, this⟩))
    · have hc' : ds.contains p.1 = false := by simpa using hc
      rw [hc', if_neg (by simp)]
      refine (h4 p.1 (fun hmem => ?_)).symm
      obtain ⟨q, hq, hqp⟩ := List.mem_map.1 hmem
      have := (List.mem_filter.1 hq).2
      rw [hqp, hc'] at this
      cases this
  · intro x hx
    obtain ⟨y, hy, rfl⟩ := List.mem_map.1 hx
    have hb := mem_envs_bounds hy hn'
    refine hf _ (fun p hp hc => ?_) (fun d hd => ?_)
    · have : ds.contains p.1 = true := by simpa using hc
      simp only [this, if_true]
      exact hb p (List.mem_filter.2 ⟨hp, this⟩)
    · have : ds.contains d = false := by simpa using hd
      simp only [this, Bool.false_eq_true, if_false]

end DA

end Momlevel
