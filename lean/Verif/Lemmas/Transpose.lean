import Verif.Spec.Transpose
import Verif.Lemmas.Combos
import Verif.Lemmas.Steric
import Verif.Props.Validate

/-! Operations on arrays do not depend on the order of the dimensions. -/

set_option linter.unusedSectionVars false

namespace Momlevel
open Spec

variable {α β γ δ : Type} {V W U X : Type}

theorem Spec.SameOutcome.bind {R : α → β → Prop} {S : γ → δ → Prop} {x : Except PyErr α} {y : Except PyErr β}
    {f : α → Except PyErr γ} {g : β → Except PyErr δ} (h : SameOutcome R x y) (hf : ∀ a b, R a b → SameOutcome S (f a) (g b)) :
    SameOutcome S (x >>= f) (y >>= g) := by
  cases x with
  | error e =>
    cases y with
    | error e' =>
      have : e = e' := h
      subst this
      exact rfl
    | ok b => exact h.elim
  | ok a =>
    cases y with
    | error e => exact h.elim
    | ok b => exact hf a b h

theorem Spec.SameOutcome.same {S : γ → δ → Prop} {x : Except PyErr α}
    {f : α → Except PyErr γ} {g : α → Except PyErr δ} (hf : ∀ a, SameOutcome S (f a) (g a)) :
    SameOutcome S (x >>= f) (x >>= g) := by
  cases x with
  | error e => exact rfl
  | ok a => exact hf a

theorem Spec.SameOutcome.bind_eq {R : α → β → Prop} {S : γ → δ → Prop} {x : Except PyErr α} {y : Except PyErr β}
    {f : α → Except PyErr γ} {g : β → Except PyErr δ} (h : SameOutcome R x y)
    (hf : ∀ a b, x = .ok a → y = .ok b → R a b → SameOutcome S (f a) (g b)) :
    SameOutcome S (x >>= f) (y >>= g) := by
  cases x with
  | error e =>
    cases y with
    | error e' =>
      have : e = e' := h
      subst this
      exact rfl
    | ok b => exact h.elim
  | ok a =>
    cases y with
    | error e => exact h.elim
    | ok b => exact hf a b rfl rfl h

theorem Spec.SameOutcome.same_eq {S : γ → δ → Prop} {x : Except PyErr α}
    {f : α → Except PyErr γ} {g : α → Except PyErr δ} (hf : ∀ a, x = .ok a → SameOutcome S (f a) (g a)) :
    SameOutcome S (x >>= f) (x >>= g) := by
  cases x with
  | error e => exact rfl
  | ok a => exact hf a rfl

theorem Spec.SameOutcome.of_eq {x y : Except PyErr α} (h : x = y) : SameOutcome Eq x y := by
  subst h
  cases x <;> exact rfl

theorem envs_perm_dims {D D' : List (String × Nat)} (h : D.Perm D') :
    (D.map Prod.fst).Nodup → (DA.envs D).Perm (DA.envs D') := by
  induction h with
  | nil => intro _; exact List.Perm.refl _
  | cons p _ ih =>
    intro hn
    simp only [List.map_cons, List.nodup_cons] at hn
    exact (ih hn.2).flatMap_right _
  | swap p q l =>
    intro hn
    simp only [List.map_cons, List.nodup_cons, List.mem_cons, not_or] at hn
    have hne : q.1 ≠ p.1 := hn.1.1
    obtain ⟨a, n⟩ := p
    obtain ⟨b, m⟩ := q
    simp only [DA.envs, List.flatMap_assoc]
    refine List.Perm.flatMap_left _ (fun e _ => ?_)
    simp only [List.flatMap_map]
    refine (flatMap_swap _ _ _).trans (List.Perm.of_eq ?_)
    refine List.flatMap_congr (fun i _ => List.map_congr_left (fun j _ => ?_))
    exact Function.update_comm hne.symm _ _ _
  | trans h1 _ ih1 ih2 =>
    intro hn
    exact (ih1 hn).trans (ih2 ((h1.map _).nodup_iff.1 hn))

namespace DA

theorem names_perm {a : DA V} {b : DA W} (h : a.dims.Perm b.dims) : a.dimNames.Perm b.dimNames := h.map _

theorem bdims_perm {a a' b b' : List (String × Nat)} (ha : a.Perm a') (hb : b.Perm b') :
    (bdims a b).Perm (bdims a' b') := by
  unfold bdims
  refine ha.append ?_
  have : (fun p : String × Nat => !(a.map Prod.fst).contains p.1) = fun p => !(a'.map Prod.fst).contains p.1 := by
    funext p
    have : (a.map Prod.fst).contains p.1 = (a'.map Prod.fst).contains p.1 := by
      rw [Bool.eq_iff_iff]
      simp only [List.contains_iff_mem]
      exact (ha.map _).mem_iff
    rw [this]
  rw [this]
  exact hb.filter _

theorem bdims_nodup' {a b : List (String × Nat)} (ha : (a.map Prod.fst).Nodup) (hb : (b.map Prod.fst).Nodup) :
    ((bdims a b).map Prod.fst).Nodup := by
  unfold bdims
  rw [List.map_append, List.nodup_append]
  refine ⟨ha, hb.sublist (List.filter_sublist.map _), ?_⟩
  intro x hx y hy hxy
  obtain ⟨p, hp, rfl⟩ := List.mem_map.1 hy
  have := (List.mem_filter.1 hp).2
  subst hxy
  simp only [List.contains_eq_mem, hx, decide_true, Bool.not_true] at this
  cases this

end DA

namespace Spec.Transposed
variable {a b : DA V} {a' b' : DA W}

theorem _root_.Momlevel.Spec.Transposed.refl' {a : DA V} (h : a.dimNames.Nodup) : Transposed a a :=
  ⟨List.Perm.refl _, rfl, h⟩

theorem symm' (h : Transposed a b) : Transposed b a :=
  ⟨h.perm.symm, h.get.symm, (DA.names_perm h.perm).nodup_iff.1 h.nodup⟩

theorem mem (h : Transposed a b) {s : String} : s ∈ a.dimNames ↔ s ∈ b.dimNames :=
  (DA.names_perm h.perm).mem_iff

theorem scalar (v : V) : Transposed (DA.scalar v) (DA.scalar v) := refl' (by simp [DA.dimNames])

theorem map (h : Transposed a b) (f : V → U) : Transposed (a.map f) (b.map f) :=
  ⟨h.perm, by unfold DA.map; rw [h.get], h.nodup⟩

theorem zip (h : Transposed a b) (h' : Transposed a' b') (f : V → W → U) :
    Transposed (DA.zip f a a') (DA.zip f b b') :=
  ⟨DA.bdims_perm h.perm h'.perm, by unfold DA.zip; rw [h.get, h'.get], DA.bdims_nodup' h.nodup h'.nodup⟩

theorem zip3 {a'' b'' : DA U} (h : Transposed a b) (h' : Transposed a' b') (h'' : Transposed a'' b'')
    (f : V → W → U → X) : Transposed (DA.zip3 f a a' a'') (DA.zip3 f b b' b'') :=
  ⟨DA.bdims_perm (DA.bdims_perm h.perm h'.perm) h''.perm, by unfold DA.zip3; rw [h.get, h'.get, h''.get],
    DA.bdims_nodup' (DA.bdims_nodup' h.nodup h'.nodup) h''.nodup⟩

theorem filter (h : Transposed a b) (q : String × Nat → Bool) {g g' : Env → U} (hg : g = g') :
    Transposed (⟨a.dims.filter q, g⟩ : DA U) ⟨b.dims.filter q, g'⟩ :=
  ⟨h.perm.filter _, hg, h.nodup.sublist (List.filter_sublist.map _)⟩

theorem isel (h : Transposed a b) (d : String) (i : Nat) : Transposed (a.isel d i) (b.isel d i) :=
  h.filter _ (by rw [h.get])

theorem squeeze (h : Transposed a b) : Transposed a.squeeze b.squeeze := by
  refine h.filter _ ?_
  funext e
  rw [h.get]
  congr 1
  funext d
  simp only [h.perm.mem_iff]

theorem ndim (h : Transposed a b) : a.ndim = b.ndim := h.perm.length_eq

theorem find (h : Transposed a b) (d : String) :
    a.dims.find? (fun p => p.1 == d) = b.dims.find? (fun p => p.1 == d) := by
  have key : ∀ {l : List (String × Nat)}, (l.map Prod.fst).Nodup → ∀ {p : String × Nat}, p ∈ l → p.1 = d →
      l.find? (fun p => p.1 == d) = some p := by
    intro l
    induction l with
    | nil => intro _ p hp; simp at hp
    | cons q l ih =>
      intro hn p hp hd
      simp only [List.map_cons, List.nodup_cons] at hn
      rcases List.mem_cons.1 hp with rfl | hp
      · simp [hd]
      · have : (q.1 == d) = false := by
          rw [beq_eq_false_iff_ne]
          rintro rfl
          exact hn.1 (hd ▸ List.mem_map_of_mem hp)
        rw [List.find?_cons, this]
        exact ih hn.2 hp hd
  have hnb := h.symm'.nodup
  cases ha : a.dims.find? (fun p => p.1 == d) with
  | none =>
    symm
    rw [List.find?_eq_none] at ha ⊢
    exact fun p hp => ha p (h.perm.mem_iff.2 hp)
  | some p =>
    have h1 := List.mem_of_find?_eq_some ha
    have h2 := List.find?_some ha
    exact (key hnb (h.perm.mem_iff.1 h1) (by simpa using h2)).symm

theorem size (h : Transposed a b) (d : String) : a.size d = b.size d := by
  unfold DA.size
  rw [h.find]

theorem vals (h : Transposed a b) : a.vals.Perm b.vals := by
  unfold DA.vals
  rw [h.get]
  exact (envs_perm_dims h.perm h.nodup).map _

theorem all (h : Transposed a b) (p : V → Bool) : a.all p = b.all p := by
  unfold DA.all
  exact h.vals.all_eq

theorem transposeFirst (h : Transposed a b) (d : String) : Transposed (a.transposeFirst d) (b.transposeFirst d) := by
  have hp : ∀ c : DA V, (c.transposeFirst d).dims.Perm c.dims := by
    intro c
    unfold DA.transposeFirst
    have : (fun p : String × Nat => p.1 != d) = fun p => !(p.1 == d) := rfl
    rw [this]
    exact List.filter_append_perm _ _
  refine ⟨(hp a).trans (h.perm.trans (hp b).symm), h.get, ?_⟩
  exact (DA.names_perm (hp a)).nodup_iff.2 h.nodup

/-- Transposing never changes values. -/
theorem of_transposeFirst (h : a.dimNames.Nodup) (d : String) : Transposed a (a.transposeFirst d) := by
  have hp : (a.transposeFirst d).dims.Perm a.dims := by
    unfold DA.transposeFirst
    have : (fun p : String × Nat => p.1 != d) = fun p => !(p.1 == d) := rfl
    rw [this]
    exact List.filter_append_perm _ _
  exact ⟨hp.symm, rfl, h⟩

variable {K : Type} [Field K] [LinearOrder K] {x y x' y' : DA (Fl K)}

theorem add (h : Transposed x y) (h' : Transposed x' y') : Transposed (x + x') (y + y') := h.zip h' _
theorem sub (h : Transposed x y) (h' : Transposed x' y') : Transposed (x - x') (y - y') := h.zip h' _
theorem mul (h : Transposed x y) (h' : Transposed x' y') : Transposed (x * x') (y * y') := h.zip h' _
theorem div (h : Transposed x y) (h' : Transposed x' y') : Transposed (x / x') (y / y') := h.zip h' _
theorem neg (h : Transposed x y) : Transposed (-x) (-y) := h.map _

theorem sumDim (h : Transposed x y) (d : String) : Transposed (x.sumDim d) (y.sumDim d) :=
  h.filter _ (by rw [h.get, h.size])

theorem sumAll (h : Transposed x y) : Transposed x.sumAll y.sumAll := by
  refine ⟨List.Perm.refl _, ?_, by simp [DA.dimNames, DA.sumAll]⟩
  unfold DA.sumAll
  rw [nansum_perm h.vals]

theorem sumDims (h : Transposed x y) {ds ds' : List String} (hd : ∀ s, s ∈ ds ↔ s ∈ ds') :
    Transposed (x.sumDims ds) (y.sumDims ds') := by
  have hc : ∀ s, ds.contains s = ds'.contains s := by
    intro s
    rw [Bool.eq_iff_iff]
    simp only [List.contains_iff_mem, hd]
  unfold DA.sumDims
  simp only [hc]
  refine h.filter _ ?_
  funext e
  rw [h.get]
  refine nansum_perm (List.Perm.map _ (envs_perm_dims (h.perm.filter _) ?_))
  exact h.nodup.sublist (List.filter_sublist.map _)

theorem iselE (h : Transposed a b) (d : String) (i : Int) : SameOutcome Transposed (a.iselE d i) (b.iselE d i) := by
  unfold DA.iselE
  simp only [← h.mem, h.size]
  split
  · exact SameOutcome.same (fun k => h.isel d k)
  · exact rfl

theorem transposeE (h : Transposed a b) (d : String) : SameOutcome Transposed (a.transposeE d) (b.transposeE d) := by
  unfold DA.transposeE
  simp only [← h.mem]
  split
  · exact h.transposeFirst d
  · exact rfl

theorem sumDimE (h : Transposed x y) (d : String) : SameOutcome Transposed (x.sumDimE d) (y.sumDimE d) := by
  unfold DA.sumDimE
  simp only [← h.mem]
  split
  · exact h.sumDim d
  · exact rfl

/-- One-dimensional arrays have only one order. -/
theorem single (h : Transposed a b) {p : String × Nat} (hp : a.dims = [p]) : b.dims = [p] := by
  have := h.perm
  rw [hp] at this
  exact List.perm_singleton.1 this.symm

end Spec.Transposed

namespace Spec.TransposedDS
variable {d d' : DS V}

theorem names (h : TransposedDS d d') : d.names = d'.names := by
  have := h.vars
  unfold DS.names
  generalize d.vars = l at this ⊢
  generalize d'.vars = l' at this ⊢
  induction this with
  | nil => rfl
  | cons h1 _ ih => simp only [List.map_cons, h1.1, ih]

theorem lookup (h : TransposedDS d d') (n : String) :
    (d.vars.lookup n = none ∧ d'.vars.lookup n = none) ∨
    ∃ a b, d.vars.lookup n = some a ∧ d'.vars.lookup n = some b ∧ Transposed a b := by
  have := h.vars
  generalize d.vars = l at this ⊢
  generalize d'.vars = l' at this ⊢
  induction this with
  | nil => exact Or.inl ⟨rfl, rfl⟩
  | @cons p q _ _ h1 _ ih =>
    obtain ⟨p1, p2⟩ := p
    obtain ⟨q1, q2⟩ := q
    obtain ⟨rfl, h2⟩ := h1
    simp only [List.lookup_cons]
    split
    · exact Or.inr ⟨_, _, rfl, rfl, h2⟩
    · exact ih

theorem getVar (h : TransposedDS d d') (n : String) : SameOutcome Transposed (d.getVar n) (d'.getVar n) := by
  unfold DS.getVar
  rcases h.lookup n with ⟨h1, h2⟩ | ⟨a, b, h1, h2, h3⟩
  · rw [h1, h2]; exact rfl
  · rw [h1, h2]; exact h3

theorem getAttr (h : TransposedDS d d') (n : String) : SameOutcome Transposed (d.getAttr n) (d'.getAttr n) := by
  unfold DS.getAttr
  rcases h.lookup n with ⟨h1, h2⟩ | ⟨a, b, h1, h2, h3⟩
  · rw [h1, h2]; exact rfl
  · rw [h1, h2]; exact h3

end Spec.TransposedDS

end Momlevel
