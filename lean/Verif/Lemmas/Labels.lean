import Verif.Spec.Labels
import Verif.Lemmas.Align

/-! Labelled arrays: alignment is selection by label. -/

set_option linter.unusedSectionVars false

namespace Momlevel
open Fl Eos Props

variable {L V W U : Type} [DecidableEq L]
variable {K : Type} [Field K] [LinearOrder K]

theorem mem_joinLabels {a b : List L} {x : L} : x ∈ joinLabels a b ↔ x ∈ a ∧ x ∈ b := by
  simp [joinLabels]

theorem joinLabels_self (a : List L) : joinLabels a a = a := by
  unfold joinLabels
  rw [List.filter_eq_self]
  intro x hx
  simpa using hx

theorem joinLabels_nodup {a b : List L} (h : a.Nodup) : (joinLabels a b).Nodup := h.filter _

theorem getD_map_idxOf {l : List L} {f : L → Nat} {x : L} (h : x ∈ l) :
    (l.map f).getD (l.idxOf x) 0 = f x := by
  have hlt := List.idxOf_lt_length_of_mem h
  rw [List.getD_eq_getElem?_getD, List.getElem?_map, List.getElem?_eq_getElem hlt]
  simp [List.getElem_idxOf]

theorem sel_reindex {a : LA L V} {d : String} {l : List L} {ℓ : String → L} (h : ℓ d ∈ l) :
    (a.reindex d l).sel ℓ = a.sel ℓ := by
  unfold LA.reindex
  cases hi : a.idx d with
  | none => rfl
  | some la =>
    unfold LA.sel DA.take
    simp only
    congr 1
    funext x
    by_cases hx : x = d
    · subst hx
      simp only [Function.update_self, labelEnv, hi]
      exact getD_map_idxOf h
    · simp only [Function.update_of_ne hx, labelEnv]

theorem dimNames_take (a : DA V) (d : String) (ps : List Nat) : (a.take d ps).dimNames = a.dimNames := by
  unfold DA.take DA.dimNames
  rw [List.map_map]
  apply List.map_congr_left
  intro p _
  by_cases h : p.1 = d <;> simp [h]

theorem dimNames_reindex (a : LA L V) (d : String) (l : List L) :
    (a.reindex d l).arr.dimNames = a.arr.dimNames := by
  unfold LA.reindex
  cases a.idx d with
  | none => rfl
  | some la => exact dimNames_take _ _ _

theorem idx_reindex {a : LA L V} {d : String} {l la : List L} (h : a.idx d = some la) :
    (a.reindex d l).idx = Function.update a.idx d (some l) := by
  unfold LA.reindex
  rw [h]

theorem WF_take {a : DA V} (h : a.WF) {d : String} (hd : d ∈ a.dimNames) (ps : List Nat) :
    (a.take d ps).WF := by
  intro e e' he
  rw [dimNames_take] at he
  apply h
  intro x hx
  by_cases hxd : x = d
  · subst hxd
    simp [Function.update_self, he x hd]
  · simp [Function.update_of_ne hxd, he x hx]

theorem Proper.reindex {a : LA L V} (h : a.Proper) {d : String} (hd : d ∈ a.arr.dimNames) {l la : List L}
    (hi : a.idx d = some la) (hl : l.Nodup) : (a.reindex d l).Proper := by
  refine ⟨?_, ?_, ?_⟩
  · unfold LA.reindex
    rw [hi]
    exact WF_take h.wf hd _
  · rw [dimNames_reindex]
    exact h.nodup
  · intro p hp
    rw [idx_reindex hi]
    unfold LA.reindex at hp
    rw [hi] at hp
    obtain ⟨q, hq, rfl⟩ := List.mem_map.1 hp
    by_cases hqd : q.1 = d
    · rw [if_pos hqd]
      refine ⟨l, by simp, hl, by simp⟩
    · rw [if_neg hqd, Function.update_of_ne hqd]
      exact h.labels q hq

theorem Proper.idx_some {a : LA L V} (h : a.Proper) {d : String} (hd : d ∈ a.arr.dimNames) :
    ∃ la, a.idx d = some la ∧ la.Nodup ∧ la.length = a.arr.size d := by
  obtain ⟨p, hp, rfl⟩ := List.mem_map.1 hd
  obtain ⟨la, h1, h2, h3⟩ := h.labels p hp
  exact ⟨la, h1, h2, by rw [h3, DA.size_of_mem h.nodup hp]⟩

/-- What inner alignment yields. -/
structure Aligned (ds : List String) (a a' : LA L V) (b b' : LA L W) : Prop where
  properA : a'.Proper
  properB : b'.Proper
  namesA : a'.arr.dimNames = a.arr.dimNames
  namesB : b'.arr.dimNames = b.arr.dimNames
  outA : ∀ d, d ∉ ds → a'.idx d = a.idx d
  outB : ∀ d, d ∉ ds → b'.idx d = b.idx d
  idxA : ∀ d ∈ ds, ∀ la lb, a.idx d = some la → b.idx d = some lb → a'.idx d = some (joinLabels la lb)
  idxB : ∀ d ∈ ds, ∀ la lb, a.idx d = some la → b.idx d = some lb → b'.idx d = some (joinLabels la lb)
  selA : ∀ ℓ : String → L, (∀ d ∈ ds, ∀ la lb, a.idx d = some la → b.idx d = some lb →
    ℓ d ∈ joinLabels la lb) → a'.sel ℓ = a.sel ℓ
  selB : ∀ ℓ : String → L, (∀ d ∈ ds, ∀ la lb, a.idx d = some la → b.idx d = some lb →
    ℓ d ∈ joinLabels la lb) → b'.sel ℓ = b.sel ℓ

theorem alignDim_spec {a : LA L V} {b : LA L W} (ha : a.Proper) (hb : b.Proper) {d : String}
    (h1 : d ∈ a.arr.dimNames) (h2 : d ∈ b.arr.dimNames) :
    ∃ a' b', LA.alignDim a b d = .ok (a', b') ∧ Aligned [d] a a' b b' := by
  obtain ⟨la, hla, na, -⟩ := Proper.idx_some ha h1
  obtain ⟨lb, hlb, nb, -⟩ := Proper.idx_some hb h2
  unfold LA.alignDim
  rw [hla, hlb]
  simp only
  by_cases hab : la = lb
  · subst hab
    rw [if_pos rfl]
    refine ⟨a, b, rfl, ha, hb, rfl, rfl, fun _ _ => rfl, fun _ _ => rfl, ?_, ?_, fun _ _ => rfl,
      fun _ _ => rfl⟩
    · intro x hx la' lb' h3 h4
      rw [List.mem_singleton] at hx
      subst hx
      rw [hla] at h3
      rw [hlb] at h4
      cases h3; cases h4
      rw [joinLabels_self, hla]
    · intro x hx la' lb' h3 h4
      rw [List.mem_singleton] at hx
      subst hx
      rw [hla] at h3
      rw [hlb] at h4
      cases h3; cases h4
      rw [joinLabels_self, hlb]
  · rw [if_neg hab]
    refine ⟨_, _, rfl, Proper.reindex ha h1 hla (joinLabels_nodup na),
      Proper.reindex hb h2 hlb (joinLabels_nodup na), dimNames_reindex _ _ _, dimNames_reindex _ _ _, ?_, ?_,
      ?_, ?_, ?_, ?_⟩
    · intro x hx
      rw [idx_reindex hla, Function.update_of_ne (by simpa using hx)]
    · intro x hx
      rw [idx_reindex hlb, Function.update_of_ne (by simpa using hx)]
    · intro x hx la' lb' h3 h4
      rw [List.mem_singleton] at hx
      subst hx
      rw [hla] at h3
      rw [hlb] at h4
      cases h3; cases h4
      rw [idx_reindex hla, Function.update_self]
    · intro x hx la' lb' h3 h4
      rw [List.mem_singleton] at hx
      subst hx
      rw [hla] at h3
      rw [hlb] at h4
      cases h3; cases h4
      rw [idx_reindex hlb, Function.update_self]
    · intro ℓ hℓ
      exact sel_reindex (hℓ d (by simp) la lb hla hlb)
    · intro ℓ hℓ
      exact sel_reindex (hℓ d (by simp) la lb hla hlb)

theorem foldAlign_spec : ∀ (ds : List String) {a : LA L V} {b : LA L W}, a.Proper → b.Proper → ds.Nodup →
    (∀ d ∈ ds, d ∈ a.arr.dimNames) → (∀ d ∈ ds, d ∈ b.arr.dimNames) →
    ∃ a' b', ds.foldlM (fun (p : LA L V × LA L W) d => LA.alignDim p.1 p.2 d) (a, b) = .ok (a', b') ∧
      Aligned ds a a' b b' := by
  intro ds
  induction ds with
  | nil =>
    intro a b ha hb _ _ _
    exact ⟨a, b, rfl, ha, hb, rfl, rfl, fun _ _ => rfl, fun _ _ => rfl, by simp, by simp,
      fun _ _ => rfl, fun _ _ => rfl⟩
  | cons d ds ih =>
    intro a b ha hb hn h1 h2
    rw [List.nodup_cons] at hn
    obtain ⟨a1, b1, e1, s1⟩ := alignDim_spec ha hb (h1 d (by simp)) (h2 d (by simp))
    obtain ⟨a2, b2, e2, s2⟩ := ih s1.properA s1.properB hn.2
      (fun x hx => by rw [s1.namesA]; exact h1 x (by simp [hx]))
      (fun x hx => by rw [s1.namesB]; exact h2 x (by simp [hx]))
    have oA : ∀ x ∈ ds, a1.idx x = a.idx x := fun x hx =>
      s1.outA x (by rw [List.mem_singleton]; rintro rfl; exact hn.1 hx)
    have oB : ∀ x ∈ ds, b1.idx x = b.idx x := fun x hx =>
      s1.outB x (by rw [List.mem_singleton]; rintro rfl; exact hn.1 hx)
    refine ⟨a2, b2, by rw [List.foldlM_cons, e1, ok_bind]; exact e2, s2.properA, s2.properB,
      s2.namesA.trans s1.namesA, s2.namesB.trans s1.namesB, ?_, ?_, ?_, ?_, ?_, ?_⟩
    · intro x hx
      rw [List.mem_cons, not_or] at hx
      rw [s2.outA x hx.2, s1.outA x (by simpa using hx.1)]
    · intro x hx
      rw [List.mem_cons, not_or] at hx
      rw [s2.outB x hx.2, s1.outB x (by simpa using hx.1)]
    · intro x hx la lb h3 h4
      rcases List.mem_cons.1 hx with rfl | hx
      · rw [s2.outA x hn.1]
        exact s1.idxA x (by simp) la lb h3 h4
      · exact s2.idxA x hx la lb (by rw [oA x hx, h3]) (by rw [oB x hx, h4])
    · intro x hx la lb h3 h4
      rcases List.mem_cons.1 hx with rfl | hx
      · rw [s2.outB x hn.1]
        exact s1.idxB x (by simp) la lb h3 h4
      · exact s2.idxB x hx la lb (by rw [oA x hx, h3]) (by rw [oB x hx, h4])
    · intro ℓ hℓ
      rw [s2.selA ℓ (fun x hx la lb h3 h4 => hℓ x (by simp [hx]) la lb (by rw [← oA x hx, h3])
        (by rw [← oB x hx, h4])), s1.selA ℓ (fun x hx la lb h3 h4 => ?_)]
      rw [List.mem_singleton] at hx
      subst hx
      exact hℓ x (by simp) la lb h3 h4
    · intro ℓ hℓ
      rw [s2.selB ℓ (fun x hx la lb h3 h4 => hℓ x (by simp [hx]) la lb (by rw [← oA x hx, h3])
        (by rw [← oB x hx, h4])), s1.selB ℓ (fun x hx la lb h3 h4 => ?_)]
      rw [List.mem_singleton] at hx
      subst hx
      exact hℓ x (by simp) la lb h3 h4

theorem mem_shared {a : LA L V} {b : LA L W} {d : String} :
    d ∈ LA.shared a b ↔ d ∈ a.arr.dimNames ∧ d ∈ b.arr.dimNames := by
  simp [LA.shared]

theorem alignInner_spec {a : LA L V} {b : LA L W} (ha : a.Proper) (hb : b.Proper) :
    ∃ a' b', LA.alignInner a b = .ok (a', b') ∧ Aligned (LA.shared a b) a a' b b' :=
  foldAlign_spec _ ha hb (ha.nodup.filter _) (fun _ h => (mem_shared.1 h).1) (fun _ h => (mem_shared.1 h).2)

theorem mem_dimNames_zip {f : V → W → U} {a : DA V} {b : DA W} {d : String} :
    d ∈ (DA.zip f a b).dimNames ↔ d ∈ a.dimNames ∨ d ∈ b.dimNames := by
  unfold DA.zip DA.bdims DA.dimNames
  rw [List.map_append, List.mem_append]
  constructor
  · rintro (h | h)
    · exact Or.inl h
    · obtain ⟨p, hp, rfl⟩ := List.mem_map.1 h
      exact Or.inr (List.mem_map_of_mem (List.mem_filter.1 hp).1)
  · rintro (h | h)
    · exact Or.inl h
    · by_cases ha : d ∈ a.dims.map Prod.fst
      · exact Or.inl ha
      · obtain ⟨p, hp, rfl⟩ := List.mem_map.1 h
        exact Or.inr (List.mem_map.2 ⟨p, List.mem_filter.2 ⟨hp, by simpa using ha⟩, rfl⟩)

theorem nodup_zip {f : V → W → U} {a : DA V} {b : DA W} (ha : a.dimNames.Nodup) (hb : b.dimNames.Nodup) :
    (DA.zip f a b).dimNames.Nodup := by
  unfold DA.zip DA.bdims DA.dimNames
  rw [List.map_append, List.nodup_append]
  refine ⟨ha, (List.filter_sublist.map _).nodup hb, ?_⟩
  intro x hx y hy
  obtain ⟨p, hp, rfl⟩ := List.mem_map.1 hy
  have := (List.mem_filter.1 hp).2
  rintro rfl
  simp only [Bool.not_eq_true', List.contains_eq_mem, decide_eq_false_iff_not] at this
  exact this hx

theorem mergeIdx_left {a : LA L V} {b : LA L W} (ha : a.Proper) {d : String} (hd : d ∈ a.arr.dimNames) :
    LA.mergeIdx a b d = a.idx d := by
  obtain ⟨la, h, -⟩ := Proper.idx_some ha hd
  unfold LA.mergeIdx
  rw [if_pos ⟨hd, by rw [h]; rfl⟩]

theorem mergeIdx_right {a : LA L V} {b : LA L W} (ha : a.Proper) (hab : Agree a b) {d : String}
    (hd : d ∈ b.arr.dimNames) : LA.mergeIdx a b d = b.idx d := by
  by_cases h : d ∈ a.arr.dimNames
  · rw [mergeIdx_left ha h, hab d h hd]
  · unfold LA.mergeIdx
    rw [if_neg (fun h' => h h'.1)]

theorem sel_zip {f : V → W → U} {a : LA L V} {b : LA L W} (ha : a.Proper) (hb : b.Proper) (hab : Agree a b)
    (ℓ : String → L) :
    (⟨DA.zip f a.arr b.arr, LA.mergeIdx a b⟩ : LA L U).sel ℓ = f (a.sel ℓ) (b.sel ℓ) := by
  unfold LA.sel
  rw [DA.get_zip]
  congr 1
  · apply ha.wf
    intro d hd
    simp only [labelEnv, mergeIdx_left ha hd]
  · apply hb.wf
    intro d hd
    simp only [labelEnv, mergeIdx_right ha hab hd]

theorem Proper.zip {f : V → W → U} {a : LA L V} {b : LA L W} (ha : a.Proper) (hb : b.Proper)
    (hab : Agree a b) : (⟨DA.zip f a.arr b.arr, LA.mergeIdx a b⟩ : LA L U).Proper := by
  refine ⟨?_, nodup_zip ha.nodup hb.nodup, ?_⟩
  · intro e e' he
    show f _ _ = f _ _
    rw [ha.wf e e' (fun d hd => he d (mem_dimNames_zip.2 (Or.inl hd))),
      hb.wf e e' (fun d hd => he d (mem_dimNames_zip.2 (Or.inr hd)))]
  · intro p hp
    rcases List.mem_append.1 hp with hp | hp
    · show ∃ la, LA.mergeIdx a b p.1 = _ ∧ _
      rw [mergeIdx_left ha (List.mem_map_of_mem hp)]
      exact ha.labels p hp
    · have hp' := (List.mem_filter.1 hp).1
      show ∃ la, LA.mergeIdx a b p.1 = _ ∧ _
      rw [mergeIdx_right ha hab (List.mem_map_of_mem hp')]
      exact hb.labels p hp'

/-- The labels of the result of an inner join. -/
structure Joined (a : LA L V) (b : LA L W) (c : LA L U) (f : V → W → U) : Prop where
  proper : c.Proper
  names : ∀ d, d ∈ c.arr.dimNames ↔ d ∈ a.arr.dimNames ∨ d ∈ b.arr.dimNames
  both : ∀ d la lb, d ∈ a.arr.dimNames → d ∈ b.arr.dimNames → a.idx d = some la → b.idx d = some lb →
    c.idx d = some (joinLabels la lb)
  left : ∀ d, d ∈ a.arr.dimNames → d ∉ b.arr.dimNames → c.idx d = a.idx d
  right : ∀ d, d ∉ a.arr.dimNames → d ∈ b.arr.dimNames → c.idx d = b.idx d
  sel : ∀ ℓ, (∀ d ∈ c.arr.dimNames, c.HasLabel d (ℓ d)) → c.sel ℓ = f (a.sel ℓ) (b.sel ℓ)
  dims : c.arr.dimNames = a.arr.dimNames ++ b.arr.dimNames.filter (fun d => !a.arr.dimNames.contains d)

theorem names_zip {f : V → W → U} {a : DA V} {b : DA W} : (DA.zip f a b).dimNames =
    a.dimNames ++ b.dimNames.filter (fun d => !a.dimNames.contains d) := by
  unfold DA.zip DA.bdims DA.dimNames
  rw [List.map_append, List.filter_map]
  rfl

theorem zipInner_spec {f : V → W → U} {a : LA L V} {b : LA L W} (ha : a.Proper) (hb : b.Proper) :
    ∃ c, LA.zipInner f a b = .ok c ∧ Joined a b c f := by
  obtain ⟨a', b', e, s⟩ := alignInner_spec ha hb
  have nA : ∀ d, d ∈ a'.arr.dimNames ↔ d ∈ a.arr.dimNames := fun d => by rw [s.namesA]
  have nB : ∀ d, d ∈ b'.arr.dimNames ↔ d ∈ b.arr.dimNames := fun d => by rw [s.namesB]
  have hab : Agree a' b' := by
    intro d h1 h2
    have h1' := (nA d).1 h1
    have h2' := (nB d).1 h2
    obtain ⟨la, e1, -⟩ := Proper.idx_some ha h1'
    obtain ⟨lb, e2, -⟩ := Proper.idx_some hb h2'
    rw [s.idxA d (mem_shared.2 ⟨h1', h2'⟩) la lb e1 e2, s.idxB d (mem_shared.2 ⟨h1', h2'⟩) la lb e1 e2]
  refine ⟨_, by rw [LA.zipInner, e, ok_bind]; rfl, Proper.zip s.properA s.properB hab, ?_, ?_, ?_, ?_, ?_, ?_⟩
  · intro d
    show d ∈ (DA.zip f a'.arr b'.arr).dimNames ↔ _
    rw [mem_dimNames_zip, nA, nB]
  · intro d la lb h1 h2 h3 h4
    show LA.mergeIdx a' b' d = _
    rw [mergeIdx_left s.properA ((nA d).2 h1)]
    exact s.idxA d (mem_shared.2 ⟨h1, h2⟩) la lb h3 h4
  · intro d h1 h2
    show LA.mergeIdx a' b' d = _
    rw [mergeIdx_left s.properA ((nA d).2 h1), s.outA d (fun h => h2 (mem_shared.1 h).2)]
  · intro d h1 h2
    show LA.mergeIdx a' b' d = _
    rw [mergeIdx_right s.properA hab ((nB d).2 h2), s.outB d (fun h => h1 (mem_shared.1 h).1)]
  · intro ℓ hℓ
    rw [sel_zip s.properA s.properB hab]
    have hh : ∀ d ∈ LA.shared a b, ∀ la lb, a.idx d = some la → b.idx d = some lb →
        ℓ d ∈ joinLabels la lb := by
      intro d hd la lb h3 h4
      have hd' := mem_shared.1 hd
      obtain ⟨l, h5, h6⟩ := hℓ d (mem_dimNames_zip.2 (Or.inl ((nA d).2 hd'.1)))
      change LA.mergeIdx a' b' d = _ at h5
      rw [mergeIdx_left s.properA ((nA d).2 hd'.1), s.idxA d hd la lb h3 h4] at h5
      cases h5
      exact h6
    rw [s.selA ℓ hh, s.selB ℓ hh]
  · show (DA.zip f a'.arr b'.arr).dimNames = _
    rw [names_zip, s.namesA, s.namesB]

/-- The exact join succeeds if and only if the shared indexes are equal. -/
theorem zipExact_spec {f : V → W → U} {a : LA L V} {b : LA L W} (ha : a.Proper) (hb : b.Proper) :
    (Agree a b ∧ LA.zipExact f a b = .ok ⟨DA.zip f a.arr b.arr, LA.mergeIdx a b⟩) ∨
    (¬ Agree a b ∧ LA.zipExact f a b = .error .valueError) := by
  have key : (LA.shared a b).all (LA.exactDim a b) = true ↔ Agree a b := by
    rw [List.all_eq_true]
    constructor
    · intro h d h1 h2
      have := h d (mem_shared.2 ⟨h1, h2⟩)
      obtain ⟨la, e1, -⟩ := Proper.idx_some ha h1
      obtain ⟨lb, e2, -⟩ := Proper.idx_some hb h2
      unfold LA.exactDim at this
      rw [e1, e2] at this
      have : la = lb := by simpa using this
      rw [e1, e2, this]
    · intro h d hd
      have hd' := mem_shared.1 hd
      obtain ⟨la, e1, -⟩ := Proper.idx_some ha hd'.1
      unfold LA.exactDim
      have := h d hd'.1 hd'.2
      rw [← this, e1]
      simp
  unfold LA.zipExact LA.alignExact
  by_cases hab : Agree a b
  · left
    rw [if_pos (key.2 hab)]
    exact ⟨hab, rfl⟩
  · right
    rw [if_neg (fun h => hab (key.1 h))]
    exact ⟨hab, rfl⟩

theorem alignExact_iff {a : LA L V} {b : LA L W} (ha : a.Proper) (hb : b.Proper) :
    (Agree a b ∧ LA.alignExact a b = .ok ()) ∨ (¬ Agree a b ∧ LA.alignExact a b = .error .valueError) := by
  rcases zipExact_spec (f := fun (_ : V) (_ : W) => ()) ha hb with ⟨h, e⟩ | ⟨h, e⟩
  · left
    refine ⟨h, ?_⟩
    unfold LA.zipExact at e
    cases hx : LA.alignExact a b with
    | ok u => rfl
    | error x => rw [hx] at e; cases e
  · right
    refine ⟨h, ?_⟩
    unfold LA.zipExact at e
    cases hx : LA.alignExact a b with
    | ok u => rw [hx] at e; cases e
    | error x =>
      rw [hx, error_bind] at e
      cases e
      rfl

theorem Proper.map {f : V → W} {a : LA L V} (h : a.Proper) : (⟨a.arr.map f, a.idx⟩ : LA L W).Proper :=
  ⟨fun e e' he => by
    show f _ = f _
    rw [h.wf e e' he], h.nodup, h.labels⟩

theorem mem_names_transpose {a : DA V} {d x : String} :
    x ∈ (a.transposeFirst d).dimNames ↔ x ∈ a.dimNames := by
  unfold DA.transposeFirst DA.dimNames
  rw [List.map_append, List.mem_append]
  simp only [List.mem_map, List.mem_filter]
  constructor
  · rintro (⟨p, hp, rfl⟩ | ⟨p, hp, rfl⟩) <;> exact ⟨p, hp.1, rfl⟩
  · rintro ⟨p, hp, rfl⟩
    by_cases h : p.1 = d
    · exact Or.inl ⟨p, ⟨hp, by simpa using h⟩, rfl⟩
    · exact Or.inr ⟨p, ⟨hp, by simpa using h⟩, rfl⟩

theorem Proper.transpose {a : LA L V} (h : a.Proper) (d : String) :
    (⟨a.arr.transposeFirst d, a.idx⟩ : LA L V).Proper := by
  refine ⟨fun e e' he => h.wf e e' (fun x hx => he x (mem_names_transpose.2 hx)), ?_, fun p hp => ?_⟩
  · have := (List.filter_append_perm (fun p : String × Nat => p.1 == d) a.arr.dims).map Prod.fst
    exact (this.nodup_iff).2 h.nodup
  · rcases List.mem_append.1 hp with hp | hp <;> exact h.labels p (List.mem_filter.1 hp).1

theorem Proper.transposeE {a : LA L V} (h : a.Proper) {d : String} {b : LA L V}
    (hb : a.lift (fun x => x.transposeE d) = .ok b) :
    d ∈ a.arr.dimNames ∧ b = ⟨a.arr.transposeFirst d, a.idx⟩ ∧ b.Proper := by
  simp only [LA.lift, bind_ok, pure_ok] at hb
  obtain ⟨r, h1, rfl⟩ := hb
  obtain ⟨h2, -, rfl⟩ := transposeE_ok h1
  exact ⟨h2, rfl, Proper.transpose h d⟩

theorem names_filter_ne {l : List (String × Nat)} {d x : String} :
    x ∈ (l.filter (fun p => p.1 != d)).map Prod.fst ↔ x ∈ l.map Prod.fst ∧ x ≠ d := by
  simp only [List.mem_map, List.mem_filter]
  constructor
  · rintro ⟨p, ⟨h1, h2⟩, rfl⟩
    exact ⟨⟨p, h1, rfl⟩, by simpa using h2⟩
  · rintro ⟨⟨p, h1, rfl⟩, h2⟩
    exact ⟨p, ⟨h1, by simpa using h2⟩, rfl⟩

theorem Proper.dropDim {a : LA L V} (h : a.Proper) (d : String) {g : Env → W}
    (hg : ∀ e e', (∀ x ∈ a.arr.dimNames, x ≠ d → e x = e' x) → g e = g e') :
    (⟨⟨a.arr.dims.filter (fun p => p.1 != d), g⟩, a.idx⟩ : LA L W).Proper :=
  ⟨fun e e' he => hg e e' (fun x hx hxd => he x (names_filter_ne.2 ⟨hx, hxd⟩)),
    (List.filter_sublist.map _).nodup h.nodup, fun p hp => h.labels p (List.mem_filter.1 hp).1⟩

theorem update_agree {a : LA L V} {d : String} {e e' : Env} (i : Nat)
    (h : ∀ x ∈ a.arr.dimNames, x ≠ d → e x = e' x) :
    ∀ x ∈ a.arr.dimNames, Function.update e d i x = Function.update e' d i x := by
  intro x hx
  by_cases hxd : x = d
  · subst hxd; simp
  · simp [Function.update_of_ne hxd, h x hx hxd]

theorem Proper.sumDim {a : LA L (Fl K)} (h : a.Proper) (d : String) :
    (⟨a.arr.sumDim d, a.idx⟩ : LA L (Fl K)).Proper := by
  refine Proper.dropDim h d (fun _ _ he => ?_)
  congr 1
  funext i
  exact h.wf _ _ (update_agree i he)

theorem Proper.isel {a : LA L V} (h : a.Proper) (d : String) (i : Nat) :
    (⟨a.arr.isel d i, a.idx⟩ : LA L V).Proper :=
  Proper.dropDim h d (fun _ _ he => h.wf _ _ (update_agree i he))

/-- Position `i` is the `i`-th label. -/
theorem labelEnv_update {idx : Index L} {d : String} {la : List L} (hi : idx d = some la) (hn : la.Nodup)
    (ℓ : String → L) {i : Nat} (hlt : i < la.length) :
    Function.update (labelEnv idx ℓ) d i = labelEnv idx (Function.update ℓ d la[i]) := by
  funext x
  by_cases hx : x = d
  · subst hx
    simp only [Function.update_self, labelEnv, hi]
    exact (hn.idxOf_getElem i hlt).symm
  · simp only [Function.update_of_ne hx, labelEnv]

theorem sel_sumDim {a : LA L (Fl K)} (h : a.Proper) {d : String} (hd : d ∈ a.arr.dimNames) {la : List L}
    (hi : a.idx d = some la) (ℓ : String → L) :
    (⟨a.arr.sumDim d, a.idx⟩ : LA L (Fl K)).sel ℓ
      = Fl.nansum (la.map (fun x => a.sel (Function.update ℓ d x))) := by
  obtain ⟨la', h1, h2, h3⟩ := Proper.idx_some h hd
  rw [hi] at h1
  cases h1
  show Fl.nansumN (a.arr.size d) (fun i => a.arr.get (Function.update (labelEnv a.idx ℓ) d i)) = _
  unfold Fl.nansumN
  congr 1
  apply List.ext_getElem
  · simp [h3]
  · intro i h4 h5
    rw [List.getElem_map, List.getElem_range, List.getElem_map]
    have hlt : i < la.length := by simpa using h5
    rw [labelEnv_update hi h2 ℓ hlt]
    rfl

theorem sel_isel_zero {a : LA L V} (h : a.Proper) {d : String} (hd : d ∈ a.arr.dimNames) {la : List L}
    (hi : a.idx d = some la) (hlt : 0 < la.length) (ℓ : String → L) :
    (⟨a.arr.isel d 0, a.idx⟩ : LA L V).sel ℓ = a.sel (Function.update ℓ d la[0]) := by
  obtain ⟨la', h1, h2, h3⟩ := Proper.idx_some h hd
  rw [hi] at h1
  cases h1
  show a.arr.get (Function.update (labelEnv a.idx ℓ) d 0) = _
  rw [labelEnv_update hi h2 ℓ hlt]
  rfl

theorem LDS.Proper.getVar {d : LDS L K} (h : d.Proper) {n : String} {a : DA (Fl K)}
    (ha : d.ds.getVar n = .ok a) : (⟨a, d.idx⟩ : LA L (Fl K)).Proper := h _ (lookup_mem' (getVar_lookup.1 ha))

theorem LDS.Proper.getItem {d : LDS L K} (h : d.Proper) {n : String} {a : DA (Fl K)}
    (ha : d.ds.getItem n = .ok a) : (⟨a, d.idx⟩ : LA L (Fl K)).Proper := by
  unfold DS.getItem at ha
  split at ha
  · rename_i b hb
    cases ha
    exact h _ (lookup_mem' hb)
  · split at ha
    · rename_i m hm
      cases ha
      obtain ⟨q, hq, hq2⟩ := List.mem_flatMap.1 (lookup_mem' hm)
      refine ⟨fun e e' he => ?_, by simp [DA.dimNames], fun p hp => ?_⟩
      · show (fin _ : Fl K) = fin _
        rw [he n (by simp [DA.dimNames])]
      · simp only [List.mem_singleton] at hp
        subst hp
        exact (h q hq).labels _ hq2
    · cases ha

/-- Operands of one dataset. -/
theorem Proper.same {f : V → W → U} {idx : Index L} {a : DA V} {b : DA W}
    (ha : (⟨a, idx⟩ : LA L V).Proper) (hb : (⟨b, idx⟩ : LA L W).Proper) :
    (⟨DA.zip f a b, idx⟩ : LA L U).Proper := by
  have := Proper.zip (f := f) ha hb (fun _ _ _ => rfl)
  rwa [mergeIdx_same] at this

theorem Proper.scalar (idx : Index L) (v : V) : (⟨DA.scalar v, idx⟩ : LA L V).Proper :=
  ⟨fun _ _ _ => rfl, by simp [DA.scalar, DA.dimNames], by simp [DA.scalar]⟩

theorem LDS.Proper.pressure {d : LDS L K} (h : d.Proper) {zc : String} {patm p : DA (Fl K)}
    (hp : (⟨patm, d.idx⟩ : LA L (Fl K)).Proper) (hr : pressureField d.ds zc patm = .ok p) :
    (⟨p, d.idx⟩ : LA L (Fl K)).Proper := by
  simp only [pressureField, bind_ok, pure_ok] at hr
  obtain ⟨z, hz, rfl⟩ := hr
  exact Proper.same (Proper.same (h.getItem hz) (Proper.scalar _ _)) hp

theorem Proper.calcDz {idx : Index L} {z zi dep dz : DA (Fl K)} (hz : (⟨z, idx⟩ : LA L (Fl K)).Proper)
    (hzi : (⟨zi, idx⟩ : LA L (Fl K)).Proper) (hd : (⟨dep, idx⟩ : LA L (Fl K)).Proper)
    (h : calcDz z zi dep = .ok dz) : (⟨dz, idx⟩ : LA L (Fl K)).Proper := by
  have hl : (⟨limitDepth dep none, idx⟩ : LA L (Fl K)).Proper := Proper.map (f := Fl.fillna (.fin 0)) hd
  unfold Momlevel.calcDz at h
  simp only [bind_ok] at h
  obtain ⟨-, -, -, -, -, -, h⟩ := h
  split at h
  · rename_i zn n zin m e1 e2
    split at h
    · cases h
    · rw [if_neg (by simp)] at h
      have h := Except.ok.inj h
      subst h
      have wfi : ∀ (j : Nat → Nat) (e e' : Env), e zn = e' zn →
          zi.get (Function.update e zin (j (e zn))) = zi.get (Function.update e' zin (j (e' zn))) := by
        intro j e e' he
        apply hzi.wf
        intro x hx
        have : x = zin := by simpa [DA.dimNames, e2] using hx
        subst this
        simp [he]
      have pz : ∀ (j : Nat → Nat), (⟨⟨[(zn, n)], fun e => zi.get (Function.update e zin (j (e zn)))⟩, idx⟩ :
          LA L (Fl K)).Proper := by
        intro j
        refine ⟨fun e e' he => wfi j e e' (he zn (by simp [DA.dimNames])), by simp [DA.dimNames], ?_⟩
        intro p hp
        exact hz.labels p (by rw [e1]; exact hp)
      have b1 : ∀ (j : Nat → Nat), (⟨⟨DA.bdims (limitDepth dep none).dims [(zn, n)],
          fun e => zi.get (Function.update e zin (j (e zn)))⟩, idx⟩ : LA L (Fl K)).Proper :=
        fun j => Proper.same (f := fun (_ v : Fl K) => v) hl (pz j)
      have b2 : (⟨⟨DA.bdims [(zn, n)] (limitDepth dep none).dims, (limitDepth dep none).get⟩, idx⟩ :
          LA L (Fl K)).Proper := Proper.same (f := fun (_ v : Fl K) => v) (pz id) hl
      have t := b1 (fun i => i)
      have b := b1 (fun i => i + 1)
      exact Proper.same (Proper.map (f := clip0) (Proper.same b (Proper.scalar _ _)))
        (Proper.same (Proper.map (f := clip0) (Proper.same b2 t)) (Proper.same b t))
  · cases h

/-- The density of labelled fields. -/
structure RhoSpec (th so pres rho : LA L (Fl K)) (f : EosFn (Fl K)) : Prop where
  agree1 : Agree th so
  agree2 : Agree th pres
  agree3 : Agree so pres
  proper : rho.Proper
  names : ∀ d, d ∈ rho.arr.dimNames ↔ d ∈ th.arr.dimNames ∨ d ∈ so.arr.dimNames ∨ d ∈ pres.arr.dimNames
  idx_th : ∀ d ∈ th.arr.dimNames, rho.idx d = th.idx d
  idx_so : ∀ d ∈ so.arr.dimNames, rho.idx d = so.idx d
  idx_pres : ∀ d ∈ pres.arr.dimNames, rho.idx d = pres.idx d
  sel : ∀ ℓ, rho.sel ℓ = f (th.sel ℓ) (so.sel ℓ) (pres.sel ℓ)

theorem calcRhoL_spec {th so pres rho : LA L (Fl K)} {eos : String} (h1 : th.Proper) (h2 : so.Proper)
    (h3 : pres.Proper) (h : calcRhoL th so pres eos = .ok rho) :
    ∃ f, eosFuncFromStr eos "density" = .ok f ∧ RhoSpec th so pres rho f := by
  simp only [calcRhoL, bind_ok, pure_ok] at h
  obtain ⟨f, hf, ⟨⟩, e1, ⟨⟩, e2, ⟨⟩, e3, r, e4, rfl⟩ := h
  obtain ⟨f', hf', rfl⟩ := calcRho_ok e4
  rw [hf] at hf'
  cases hf'
  have a1 : Agree th so := by
    rcases alignExact_iff h1 h2 with ⟨h, -⟩ | ⟨-, h⟩
    · exact h
    · rw [h] at e1; cases e1
  have a2 : Agree th pres := by
    rcases alignExact_iff h1 h3 with ⟨h, -⟩ | ⟨-, h⟩
    · exact h
    · rw [h] at e2; cases e2
  have a3 : Agree so pres := by
    rcases alignExact_iff h2 h3 with ⟨h, -⟩ | ⟨-, h⟩
    · exact h
    · rw [h] at e3; cases e3
  let p : LA L (Fl K × Fl K) := ⟨DA.zip Prod.mk th.arr so.arr, LA.mergeIdx th so⟩
  have hp : p.Proper := Proper.zip h1 h2 a1
  have hn : ∀ d, d ∈ p.arr.dimNames ↔ d ∈ th.arr.dimNames ∨ d ∈ so.arr.dimNames :=
    fun d => mem_dimNames_zip
  have ap : Agree p pres := by
    intro d hd1 hd2
    rcases (hn d).1 hd1 with h | h
    · show LA.mergeIdx th so d = _
      rw [mergeIdx_left h1 h, a2 d h hd2]
    · show LA.mergeIdx th so d = _
      rw [mergeIdx_right h1 a1 h, a3 d h hd2]
  have e : (⟨DA.zip3 f th.arr so.arr pres.arr,
      LA.mergeIdx ⟨DA.zip (fun _ _ => ()) th.arr so.arr, LA.mergeIdx th so⟩ pres⟩ : LA L (Fl K))
      = ⟨DA.zip (fun (q : Fl K × Fl K) w => f q.1 q.2 w) p.arr pres.arr, LA.mergeIdx p pres⟩ := rfl
  rw [e]
  refine ⟨f, hf, a1, a2, a3, Proper.zip hp h3 ap, ?_, ?_, ?_, ?_, ?_⟩
  · intro d
    show d ∈ (DA.zip _ _ _).dimNames ↔ _
    rw [mem_dimNames_zip, hn, or_assoc]
  · intro d hd
    show LA.mergeIdx p pres d = _
    rw [mergeIdx_left hp ((hn d).2 (Or.inl hd))]
    exact mergeIdx_left h1 hd
  · intro d hd
    show LA.mergeIdx p pres d = _
    rw [mergeIdx_left hp ((hn d).2 (Or.inr hd))]
    exact mergeIdx_right h1 a1 hd
  · intro d hd
    exact mergeIdx_right hp ap hd
  · intro ℓ
    rw [sel_zip hp h3 ap]
    have : p.sel ℓ = (th.sel ℓ, so.sel ℓ) := sel_zip h1 h2 a1 ℓ
    rw [this]

/-- The local result, label by label. -/
structure LocalLabels (D R : LDS L K) (rho : LA L (Fl K)) (tc zc zb : String) (rhozero : Fl K)
    (variant : String) (out : List (String × LA L (Fl K))) where
  (rvol rrho z zi depth dz : DA (Fl K))
  (dr res : LA L (Fl K))
  (coef : Fl K)
  (levels : List L)
  hrvol : R.ds.getVar "volcello" = .ok rvol
  hrrho : R.ds.getVar "rho" = .ok rrho
  hz : D.ds.getItem zc = .ok z
  hzi : D.ds.getItem zb = .ok zi
  hdepth : D.ds.getVar "deptho" = .ok depth
  hdz : calcDz z zi depth = .ok dz
  halone : levelsAlone D.ds zc = .ok ()
  hcoef : pyFloatDiv (-1.0 : Fl K) rhozero = .ok coef
  hlev : R.idx zc = some levels
  hlev0 : 0 < levels.length
  hzc : zc ∈ rvol.dimNames
  hout : out = [("delta_rho", dr), (variant, res)]
  nested : ∀ d la lb, d ∈ rvol.dimNames → d ∈ rho.arr.dimNames → rho.idx d = some la → R.idx d = some lb →
    joinLabels la lb = lb
  dr_names : ∀ d, d ∈ dr.arr.dimNames ↔ d ∈ rvol.dimNames ∨ d ∈ rho.arr.dimNames ∨ d ∈ rrho.dimNames
  dr_idx : ∀ d ∈ rvol.dimNames, dr.idx d = R.idx d
  dr_sel : ∀ ℓ, dr.Valid ℓ → dr.sel ℓ = Fl.sel (Fl.notnull ((⟨rvol, R.idx⟩ : LA L (Fl K)).sel ℓ))
    (rho.sel ℓ - (⟨rrho, R.idx⟩ : LA L (Fl K)).sel ℓ) .nan
  res_names : ∀ d, d ∈ res.arr.dimNames ↔ (d ∈ dz.dimNames ∨ d ∈ dr.arr.dimNames) ∧ d ≠ zc
  res_idx : ∀ d ∈ rvol.dimNames, d ∈ dz.dimNames → d ≠ zc → ∀ la lb, D.idx d = some la → R.idx d = some lb →
    res.idx d = some (joinLabels la lb)
  res_valid : ∀ ℓ x, res.Valid ℓ → x ∈ levels → dr.Valid (Function.update ℓ zc x)
  res_sel : ∀ ℓ, res.Valid ℓ → zc ∈ dz.dimNames →
    res.sel ℓ = Fl.sel
      (Fl.notnull ((⟨rvol, R.idx⟩ : LA L (Fl K)).sel (Function.update ℓ zc (levels[0]'hlev0))))
      (coef * Fl.nansum ((((D.idx zc).getD []).filter (fun x => levels.contains x)).map (fun x =>
        (⟨dz, D.idx⟩ : LA L (Fl K)).sel (Function.update ℓ zc x) * dr.sel (Function.update ℓ zc x)))) .nan

theorem joinLabels_filter (la lb : List L) : joinLabels (joinLabels la lb) lb = joinLabels la lb := by
  unfold joinLabels
  rw [List.filter_filter]
  simp

theorem localLabels_of {D R : LDS L K} {rho : LA L (Fl K)} {tc zc zb variant : String} {rhozero : Fl K}
    {out : List (String × LA L (Fl K))} (hD : D.Proper) (hR : R.Proper) (hrho : rho.Proper)
    (h : stericLocalL D R rho tc zc zb rhozero variant = .ok out) :
    Nonempty (LocalLabels D R rho tc zc zb rhozero variant out) := by
  simp only [stericLocalL, LDS.getVar, bind_ok, pure_ok] at h
  obtain ⟨_, ⟨rvol, h1, rfl⟩, _, ⟨rrho, h2, rfl⟩, diff, h3, dr0, h4, dr, h5, z, h6, zi, h7, dep, h8, dz, h9, _, halone,
    coef, h10, prod, h11, tot, h12, sl, h13, top, h14, res, h15, rfl⟩ := h
  have pv := hR.getVar h1
  have pr := hR.getVar h2
  obtain ⟨diff', e3, j3⟩ := zipInner_spec (f := (· - ·)) hrho pr
  rw [h3] at e3
  cases e3
  rcases zipExact_spec (f := fun v d => Fl.sel (Fl.notnull v) d .nan) pv j3.proper with ⟨ag, e4⟩ | ⟨-, e4⟩
  swap
  · rw [e4] at h4; cases h4
  rw [h4] at e4
  cases e4
  have p4 := Proper.zip (f := fun v d => Fl.sel (Fl.notnull v) d (.nan : Fl K)) pv j3.proper ag
  obtain ⟨t5, e5, p5⟩ := Proper.transposeE p4 h5
  have pdz := Proper.calcDz (hD.getItem h6) (hD.getItem h7) (hD.getVar h8) h9
  obtain ⟨prod', e11, j11⟩ := zipInner_spec (f := (· * ·)) pdz p5
  rw [h11] at e11
  cases e11
  simp only [LA.lift, bind_ok, pure_ok] at h12
  obtain ⟨_, h12, rfl⟩ := h12
  obtain ⟨t12, rfl⟩ := sumDimE_ok h12
  have p12 := Proper.sumDim j11.proper zc
  have p12' := Proper.map (f := fun s => coef * s) p12
  obtain ⟨t13, e13, p13⟩ := Proper.transposeE p12' h13
  simp only [LA.lift, bind_ok, pure_ok] at h14
  obtain ⟨_, h14, rfl⟩ := h14
  have h14' := h14
  obtain ⟨t14, rfl⟩ := iselE_ok h14
  have p14 := Proper.isel pv zc 0
  obtain ⟨res', e15, j15⟩ := zipInner_spec (f := fun s v => Fl.sel (Fl.notnull v) s .nan) p13 p14
  rw [h15] at e15
  cases e15
  obtain ⟨lev, l1, l2, l3⟩ := Proper.idx_some pv t14
  have hsz : 0 < rvol.size zc := by
    unfold DA.iselE at h14'
    rw [if_pos t14] at h14'
    simp only [bind_ok] at h14'
    obtain ⟨k, hk, -⟩ := h14'
    exact (pyIndex_zero hk).2
  have hlev0 : 0 < lev.length := by rw [l3]; exact hsz
  have drI : ∀ d ∈ rvol.dimNames, dr.idx d = R.idx d := by
    intro d hd
    rw [e5]
    exact mergeIdx_left pv hd
  have drN : ∀ d, d ∈ dr.arr.dimNames ↔ d ∈ rvol.dimNames ∨ d ∈ rho.arr.dimNames ∨ d ∈ rrho.dimNames := by
    intro d
    rw [e5]
    show d ∈ (DA.transposeFirst _ _).dimNames ↔ _
    rw [mem_names_transpose]
    show d ∈ (DA.zip _ _ _).dimNames ↔ _
    rw [mem_dimNames_zip, j3.names]
  have slN : ∀ d, d ∈ sl.arr.dimNames ↔ (d ∈ dz.dimNames ∨ d ∈ dr.arr.dimNames) ∧ d ≠ zc := by
    intro d
    rw [e13]
    show d ∈ (DA.transposeFirst _ _).dimNames ↔ _
    rw [mem_names_transpose]
    show d ∈ (prod.arr.dims.filter (fun p => p.1 != zc)).map Prod.fst ↔ _
    rw [names_filter_ne]
    show d ∈ prod.arr.dimNames ∧ _ ↔ _
    rw [j11.names]
  have slI : sl.idx = prod.idx := by rw [e13]
  have topN : ∀ d, d ∈ (rvol.isel zc 0).dimNames ↔ d ∈ rvol.dimNames ∧ d ≠ zc := fun d => names_filter_ne
  have resN : ∀ d, d ∈ res.arr.dimNames ↔ (d ∈ dz.dimNames ∨ d ∈ dr.arr.dimNames) ∧ d ≠ zc := by
    intro d
    rw [j15.names, slN, topN, drN]
    constructor
    · rintro (h | ⟨h, h'⟩)
      · exact h
      · exact ⟨Or.inr (Or.inl h), h'⟩
    · intro h
      exact Or.inl h
  -- labels of the result are labels of the product
  have resP : ∀ d x, d ∈ res.arr.dimNames → res.HasLabel d x → prod.HasLabel d x := by
    rintro d x hd ⟨l, hl, hx⟩
    have hsl : d ∈ sl.arr.dimNames := (slN d).2 ((resN d).1 hd)
    by_cases ht : d ∈ (rvol.isel zc 0).dimNames
    · obtain ⟨la, a1, -⟩ := Proper.idx_some p13 hsl
      obtain ⟨lb, b1, -⟩ := Proper.idx_some p14 ht
      rw [j15.both d la lb hsl ht a1 b1] at hl
      cases hl
      exact ⟨la, by rw [← slI]; exact a1, (mem_joinLabels.1 hx).1⟩
    · rw [j15.left d hsl ht, slI] at hl
      exact ⟨l, hl, hx⟩
  have prodDr : ∀ d x, d ∈ dr.arr.dimNames → prod.HasLabel d x → dr.HasLabel d x := by
    rintro d x hd ⟨l, hl, hx⟩
    by_cases hz : d ∈ dz.dimNames
    · obtain ⟨la, a1, -⟩ := Proper.idx_some pdz hz
      obtain ⟨lb, b1, -⟩ := Proper.idx_some p5 hd
      rw [j11.both d la lb hz hd a1 b1] at hl
      cases hl
      exact ⟨lb, b1, (mem_joinLabels.1 hx).2⟩
    · rw [j11.right d hz hd] at hl
      exact ⟨l, hl, hx⟩
  refine ⟨{
    rvol := rvol, rrho := rrho, z := z, zi := zi, depth := dep, dz := dz, dr := dr, res := res, coef := coef,
    levels := lev, hrvol := h1, hrrho := h2, hz := h6, hzi := h7, hdepth := h8, hdz := h9, halone := halone, hcoef := h10,
    hlev := l1, hlev0 := hlev0, hzc := t14, hout := rfl, nested := ?_, dr_names := drN, dr_idx := drI,
    dr_sel := ?_, res_names := resN, res_idx := ?_, res_valid := ?_, res_sel := ?_ }⟩
  · intro d la lb hd hdr ha hb
    have hdd : d ∈ diff.arr.dimNames := (j3.names d).2 (Or.inl hdr)
    have := ag d hd hdd
    rw [show ((⟨rvol, R.idx⟩ : LA L (Fl K))).idx d = R.idx d from rfl, hb] at this
    by_cases hrr : d ∈ rrho.dimNames
    · rw [j3.both d la lb hdr hrr ha hb] at this
      exact (Option.some.inj this).symm
    · rw [j3.left d hdr hrr, ha] at this
      cases this
      exact joinLabels_self _
  · intro ℓ hℓ
    have hh : ∀ d ∈ diff.arr.dimNames, diff.HasLabel d (ℓ d) := by
      intro d hd
      have hd' : d ∈ dr.arr.dimNames := (drN d).2 (Or.inr ((j3.names d).1 hd))
      obtain ⟨l, hl, hx⟩ := hℓ d hd'
      refine ⟨l, ?_, hx⟩
      rw [e5] at hl
      rw [← mergeIdx_right pv ag hd]
      exact hl
    rw [← j3.sel ℓ hh]
    rw [e5]
    exact sel_zip (f := fun v d => Fl.sel (Fl.notnull v) d .nan) pv j3.proper ag ℓ
  · intro d hd hdz hne la lb ha hb
    have hsl : d ∈ sl.arr.dimNames := (slN d).2 ⟨Or.inl hdz, hne⟩
    have hdr : d ∈ dr.arr.dimNames := (drN d).2 (Or.inl hd)
    have htop : d ∈ (rvol.isel zc 0).dimNames := (topN d).2 ⟨hd, hne⟩
    have hp : sl.idx d = some (joinLabels la lb) := by
      rw [slI]
      exact j11.both d la lb hdz hdr ha (by rw [drI d hd]; exact hb)
    rw [j15.both d _ lb hsl htop hp hb, joinLabels_filter]
  · intro ℓ x hℓ hx d hd
    by_cases hdz : d = zc
    · subst hdz
      rw [Function.update_self]
      exact ⟨lev, by rw [drI d t14]; exact l1, hx⟩
    · rw [Function.update_of_ne hdz]
      have hdres : d ∈ res.arr.dimNames := (resN d).2 ⟨Or.inr hd, hdz⟩
      exact prodDr d _ hd (resP d _ hdres (hℓ d hdres))
  · intro ℓ hℓ hzdz
    rw [j15.sel ℓ hℓ]
    have e1 : (⟨rvol.isel zc 0, R.idx⟩ : LA L (Fl K)).sel ℓ
        = (⟨rvol, R.idx⟩ : LA L (Fl K)).sel (Function.update ℓ zc (lev[0]'hlev0)) :=
      sel_isel_zero pv t14 l1 hlev0 ℓ
    rw [e1]
    obtain ⟨la, a1, -⟩ := Proper.idx_some pdz hzdz
    have a1' : D.idx zc = some la := a1
    have hzdr : zc ∈ dr.arr.dimNames := (drN zc).2 (Or.inl t14)
    have hpz : prod.idx zc = some (joinLabels la lev) :=
      j11.both zc la lev hzdz hzdr a1 (by rw [drI zc t14]; exact l1)
    have e2 : sl.sel ℓ = coef * Fl.nansum ((joinLabels la lev).map
        (fun x => prod.sel (Function.update ℓ zc x))) := by
      rw [e13]
      show coef * (⟨prod.arr.sumDim zc, prod.idx⟩ : LA L (Fl K)).sel ℓ = _
      rw [sel_sumDim j11.proper t12 hpz]
    rw [e2]
    congr 3
    rw [a1']
    show List.map _ (joinLabels la lev) = List.map _ (joinLabels la lev)
    apply List.map_congr_left
    intro x hx
    apply j11.sel
    intro d hd
    by_cases hdz : d = zc
    · subst hdz
      rw [Function.update_self]
      exact ⟨_, hpz, hx⟩
    · rw [Function.update_of_ne hdz]
      have hdres : d ∈ res.arr.dimNames := (resN d).2 ⟨(j11.names d).1 hd, hdz⟩
      exact resP d _ hdres (hℓ d hdres)

theorem envs_combos {idx : Index L} {lab : String → List L} (ℓ : String → L) :
    ∀ (D : List (String × Nat)), (D.map Prod.fst).Nodup →
    (∀ p ∈ D, idx p.1 = some (lab p.1) ∧ (lab p.1).Nodup ∧ (lab p.1).length = p.2) →
    (DA.envs D).map (fun e' d => if d ∈ D.map Prod.fst then e' d else labelEnv idx ℓ d)
      = (labelCombos (D.map (fun p => (p.1, lab p.1))) ℓ).map (labelEnv idx) := by
  intro D
  induction D with
  | nil =>
    intro _ _
    simp [DA.envs, labelCombos]
  | cons p D ih =>
    obtain ⟨d, n⟩ := p
    intro hn hl
    rw [List.map_cons, List.nodup_cons] at hn
    obtain ⟨h1, h2, h3⟩ := hl (d, n) (by simp)
    simp only at h1 h2 h3
    have ih' := ih hn.2 (fun p hp => hl p (by simp [hp]))
    have key : ∀ e' : Env, ∀ i, (fun x => if x ∈ ((d, n) :: D).map Prod.fst then Function.update e' d i x
        else labelEnv idx ℓ x) = Function.update (fun x => if x ∈ D.map Prod.fst then e' x
          else labelEnv idx ℓ x) d i := by
      intro e' i
      funext x
      by_cases hx : x = d
      · subst hx
        simp
      · simp only [List.map_cons, List.mem_cons, hx, false_or, Function.update_of_ne hx]
    have hr : ∀ m : String → L, (lab d).map (fun x => labelEnv idx (Function.update m d x))
        = (List.range n).map (fun i => Function.update (labelEnv idx m) d i) := by
      intro m
      apply List.ext_getElem
      · simp [h3]
      · intro i h4 h5
        rw [List.getElem_map, List.getElem_map, List.getElem_range]
        exact (labelEnv_update h1 h2 m (by simpa using h4)).symm
    rw [List.map_cons (f := fun p : String × Nat => (p.1, lab p.1))]
    simp only [DA.envs, List.map_flatMap, List.map_map, Function.comp_def, labelCombos, hr]
    have e1 : ∀ (A : List Env), A.flatMap (fun a => (List.range n).map (fun i =>
        Function.update (fun x => if x ∈ D.map Prod.fst then a x else labelEnv idx ℓ x) d i))
        = (A.map (fun e' x => if x ∈ D.map Prod.fst then e' x else labelEnv idx ℓ x)).flatMap
          (fun m => (List.range n).map (fun i => Function.update m d i)) := by
      intro A
      rw [List.flatMap_map]
    have e2 : ∀ (A : List (String → L)), A.flatMap (fun a => (List.range n).map (fun i =>
        Function.update (labelEnv idx a) d i))
        = (A.map (labelEnv idx)).flatMap (fun m => (List.range n).map (fun i => Function.update m d i)) := by
      intro A
      rw [List.flatMap_map]
    rw [e2, ← ih', ← e1]
    refine List.flatMap_congr (fun a _ => List.map_congr_left (fun i _ => ?_))
    exact key a i

/-- The labels of a proper array. -/
def LA.labelsOf (a : LA L V) (d : String) : List L := (a.idx d).getD []

theorem sel_masso {a : LA L (Fl K)} (h : a.Proper) (tc : String) (ℓ : String → L) :
    (⟨a.arr.sumDims (a.arr.dimNames.filter (fun x => x != tc)), a.idx⟩ : LA L (Fl K)).sel ℓ
      = Fl.nansum ((labelCombos ((a.arr.dimNames.filter (fun x => x != tc)).map
          (fun d => (d, a.labelsOf d))) ℓ).map a.sel) := by
  set ds := a.arr.dimNames.filter (fun x => x != tc) with hds
  have hmem : ∀ d, d ∈ ds ↔ d ∈ a.arr.dimNames ∧ d ≠ tc := by
    intro d
    rw [hds, List.mem_filter]
    simp
  have hfil : a.arr.dims.filter (fun p => ds.contains p.1) = a.arr.dims.filter (fun p => p.1 != tc) := by
    apply List.filter_congr
    intro p hp
    have : p.1 ∈ a.arr.dimNames := List.mem_map_of_mem hp
    rw [Bool.eq_iff_iff, List.contains_iff_mem, hmem]
    simp [this]
  have hnames : (a.arr.dims.filter (fun p => p.1 != tc)).map Prod.fst = ds := by
    rw [hds]
    unfold DA.dimNames
    rw [List.filter_map]
    rfl
  have hn : ((a.arr.dims.filter (fun p => p.1 != tc)).map Prod.fst).Nodup := by
    rw [hnames]
    exact h.nodup.filter _
  have hc := envs_combos (idx := a.idx) (lab := a.labelsOf) ℓ (a.arr.dims.filter (fun p => p.1 != tc)) hn
    (by
      intro p hp
      obtain ⟨la, h1, h2, h3⟩ := h.labels p (List.mem_filter.1 hp).1
      unfold LA.labelsOf
      rw [h1]
      exact ⟨rfl, h2, h3⟩)
  have hd : (a.arr.dims.filter (fun p => p.1 != tc)).map (fun p => (p.1, a.labelsOf p.1))
      = ds.map (fun d => (d, a.labelsOf d)) := by
    rw [← hnames, List.map_map]
    rfl
  rw [hnames, hd] at hc
  show Fl.nansum ((DA.envs (a.arr.dims.filter (fun p => ds.contains p.1))).map
    (fun e' => a.arr.get (fun d => if ds.contains d then e' d else labelEnv a.idx ℓ d))) = _
  rw [hfil]
  congr 1
  have := congrArg (List.map a.arr.get) hc
  rw [List.map_map, List.map_map] at this
  rw [show a.sel = a.arr.get ∘ labelEnv a.idx from rfl, ← this]
  apply List.map_congr_left
  intro e' _
  show a.arr.get _ = a.arr.get _
  congr 1
  funext d
  by_cases hdm : d ∈ ds <;> simp [hdm]

theorem Proper.masso {a : LA L (Fl K)} (h : a.Proper) (ds : List String) :
    (⟨a.arr.sumDims ds, a.idx⟩ : LA L (Fl K)).Proper := by
  refine ⟨fun e e' he => ?_, (List.filter_sublist.map _).nodup h.nodup,
    fun p hp => h.labels p (List.mem_filter.1 hp).1⟩
  show Fl.nansum _ = Fl.nansum _
  congr 1
  apply List.map_congr_left
  intro e0 _
  apply h.wf
  intro d hd
  by_cases hc : d ∈ ds
  · simp [hc]
  · simp only [List.contains_iff_mem, hc, if_false]
    apply he
    obtain ⟨p, hp, rfl⟩ := List.mem_map.1 hd
    exact List.mem_map.2 ⟨p, List.mem_filter.2 ⟨hp, by simpa using hc⟩, rfl⟩

theorem Joined.valid_left {a : LA L V} {b : LA L W} {c : LA L U} {f : V → W → U} (j : Joined a b c f)
    (hb : b.arr.dims = []) (ℓ : String → L) : c.Valid ℓ ↔ a.Valid ℓ := by
  have hb' : ∀ d, d ∉ b.arr.dimNames := by simp [DA.dimNames, hb]
  constructor
  · intro h d hd
    obtain ⟨la, h1, h2⟩ := h d ((j.names d).2 (Or.inl hd))
    exact ⟨la, by rw [← j.left d hd (hb' d)]; exact h1, h2⟩
  · intro h d hd
    have hd' := ((j.names d).1 hd).resolve_right (hb' d)
    obtain ⟨la, h1, h2⟩ := h d hd'
    exact ⟨la, by rw [j.left d hd' (hb' d)]; exact h1, h2⟩

theorem Joined.valid_right {a : LA L V} {b : LA L W} {c : LA L U} {f : V → W → U} (j : Joined a b c f)
    (ha : a.arr.dims = []) (ℓ : String → L) : c.Valid ℓ ↔ b.Valid ℓ := by
  have ha' : ∀ d, d ∉ a.arr.dimNames := by simp [DA.dimNames, ha]
  constructor
  · intro h d hd
    obtain ⟨la, h1, h2⟩ := h d ((j.names d).2 (Or.inr hd))
    exact ⟨la, by rw [← j.right d (ha' d) hd]; exact h1, h2⟩
  · intro h d hd
    have hd' := ((j.names d).1 hd).resolve_left (ha' d)
    obtain ⟨la, h1, h2⟩ := h d hd'
    exact ⟨la, by rw [j.right d (ha' d) hd']; exact h1, h2⟩

theorem combos_mem {lab : String → List L} : ∀ {ds : List String} {ℓ m : String → L},
    m ∈ labelCombos (ds.map (fun d => (d, lab d))) ℓ → ds.Nodup →
    (∀ d ∈ ds, m d ∈ lab d) ∧ ∀ d, d ∉ ds → m d = ℓ d
  | [], ℓ, m, h, _ => by
    simp only [List.map_nil, labelCombos, List.mem_singleton] at h
    subst h
    simp
  | d :: ds, ℓ, m, h, hn => by
    simp only [List.map_cons, labelCombos, List.mem_flatMap, List.mem_map] at h
    obtain ⟨m', h1, x, h2, rfl⟩ := h
    rw [List.nodup_cons] at hn
    obtain ⟨i1, i2⟩ := combos_mem h1 hn.2
    constructor
    · intro d' hd'
      by_cases he : d' = d
      · subst he; simpa using h2
      · rw [Function.update_of_ne he]
        exact i1 d' ((List.mem_cons.1 hd').resolve_left he)
    · intro d' hd'
      rw [List.mem_cons, not_or] at hd'
      rw [Function.update_of_ne hd'.1]
      exact i2 d' hd'.2

/-- The global result, label by label. -/
theorem globalLabels_of {R : LDS L ℝ} {rho : LA L (Fl ℝ)} {tc variant : String}
    {out : List (String × LA L (Fl ℝ))} (hR : R.Proper) (hrho : rho.Proper)
    {rvol rhoga volo area : DA (Fl ℝ)} (hrvol : R.ds.getVar "volcello" = .ok rvol)
    (hrhoga : R.ds.getVar "rhoga" = .ok rhoga) (hvolo : R.ds.getVar "volo" = .ok volo)
    (harea : R.ds.getVar "areacello" = .ok area) (d1 : rhoga.dims = []) (d2 : volo.dims = [])
    (h : stericGlobalL R rho tc variant = .ok out) :
    ∃ rh sl mass : LA L (Fl ℝ), out = [("reference_height", rh), (variant, sl)] ∧
      Joined rho ⟨rvol, R.idx⟩ mass (· * ·) ∧
      (∀ d, d ∈ sl.arr.dimNames ↔ d ∈ mass.arr.dimNames ∧ d = tc) ∧
      rh.arr.dims = [] ∧
      (∀ e, rh.arr.get e = volo.get (fun _ => 0) / area.sumAll.get (fun _ => 0)) ∧
      (∀ ℓ, sl.Valid ℓ ↔ (∀ d, d ∈ mass.arr.dimNames → d = tc → mass.HasLabel d (ℓ d))) ∧
      ∀ ℓ, sl.Valid ℓ → sl.sel ℓ = volo.get (fun _ => 0) / area.sumAll.get (fun _ => 0)
        * npLog (rhoga.get (fun _ => 0) / (Fl.nansum ((labelCombos
          ((mass.arr.dimNames.filter (fun x => x != tc)).map (fun d => (d, mass.labelsOf d))) ℓ).map
            mass.sel) / volo.get (fun _ => 0))) := by
  have const : ∀ {n : String} {a : DA (Fl ℝ)}, R.ds.getVar n = .ok a → a.dims = [] → ∀ e e', a.get e = a.get e' := by
    intro n a ha hd e e'
    apply (hR.getVar ha).wf
    intro d hm
    simp [DA.dimNames, hd] at hm
  simp only [stericGlobalL, LDS.getVar, bind_ok, pure_ok] at h
  obtain ⟨_, ⟨_, e1, rfl⟩, mass, e2, _, ⟨_, e3, rfl⟩, _, ⟨_, e4, rfl⟩, mean, e5, ratio, e6, _, ⟨_, e7, rfl⟩,
    sl, e8, rfl⟩ := h
  rw [hrvol] at e1; cases e1
  rw [hrhoga] at e3; cases e3
  rw [hvolo] at e4; cases e4
  rw [harea] at e7; cases e7
  have prv := hR.getVar hrvol
  have prg := hR.getVar hrhoga
  have pvo := hR.getVar hvolo
  obtain ⟨_, e2', j1⟩ := zipInner_spec (f := (· * · : Fl ℝ → Fl ℝ → Fl ℝ)) hrho prv
  rw [e2] at e2'; cases e2'
  have pm := Proper.masso j1.proper (mass.arr.dimNames.filter (fun x => x != tc))
  obtain ⟨_, e5', j2⟩ := zipInner_spec (f := (· / · : Fl ℝ → Fl ℝ → Fl ℝ)) pm pvo
  rw [e5] at e5'; cases e5'
  obtain ⟨_, e6', j3⟩ := zipInner_spec (f := (· / · : Fl ℝ → Fl ℝ → Fl ℝ)) prg j2.proper
  rw [e6] at e6'; cases e6'
  have prh : (⟨volo / area.sumAll, R.idx⟩ : LA L (Fl ℝ)).Proper :=
    Proper.same (f := (· / · : Fl ℝ → Fl ℝ → Fl ℝ)) pvo
      ⟨fun _ _ _ => rfl, by simp [DA.sumAll, DA.dimNames], by simp [DA.sumAll]⟩
  have drh : (volo / area.sumAll).dims = [] := by
    show DA.bdims volo.dims [] = []
    simp [DA.bdims, d2]
  obtain ⟨_, e8', j4⟩ := zipInner_spec (f := (· * · : Fl ℝ → Fl ℝ → Fl ℝ)) prh (Proper.map (f := npLog) j3.proper)
  rw [e8] at e8'; cases e8'
  have nm : ∀ d, d ∈ (mass.arr.sumDims (mass.arr.dimNames.filter (fun x => x != tc))).dimNames ↔
      d ∈ mass.arr.dimNames ∧ d = tc := by
    intro d
    unfold DA.sumDims DA.dimNames
    simp only [List.mem_map, List.mem_filter]
    constructor
    · rintro ⟨p, ⟨hp, hq⟩, rfl⟩
      refine ⟨⟨p, hp, rfl⟩, ?_⟩
      by_contra hne
      simp only [Bool.not_eq_true', ← Bool.not_eq_true, List.contains_iff_mem] at hq
      exact hq (List.mem_filter.2 ⟨List.mem_map_of_mem hp, by simpa using hne⟩)
    · rintro ⟨⟨p, hp, rfl⟩, he⟩
      refine ⟨p, ⟨hp, ?_⟩, rfl⟩
      simp [he]
  have v4 := fun ℓ => (j4.valid_right drh ℓ)
  have v3 := fun ℓ => (j3.valid_right d1 ℓ)
  have v2 := fun ℓ => (j2.valid_left d2 ℓ)
  have vv : ∀ ℓ, sl.Valid ℓ → ratio.Valid ℓ ∧ mean.Valid ℓ ∧
      (⟨mass.arr.sumDims (mass.arr.dimNames.filter (fun x => x != tc)), mass.idx⟩ : LA L (Fl ℝ)).Valid ℓ := by
    intro ℓ h
    have h3 : ratio.Valid ℓ := (v4 ℓ).1 h
    have h2 := (v3 ℓ).1 h3
    exact ⟨h3, h2, (v2 ℓ).1 h2⟩
  refine ⟨_, sl, mass, rfl, j1, ?_, drh, ?_, ?_, ?_⟩
  · intro d
    rw [j4.names, show d ∈ (volo / area.sumAll).dimNames ↔ False by simp [DA.dimNames, drh], false_or]
    show d ∈ ratio.arr.dimNames ↔ _
    rw [j3.names, show d ∈ rhoga.dimNames ↔ False by simp [DA.dimNames, d1], false_or, j2.names,
      show d ∈ volo.dimNames ↔ False by simp [DA.dimNames, d2], or_false]
    exact nm d
  · intro e
    show volo.get _ / area.sumAll.get _ = _
    rw [const hvolo d2 _ (fun _ => 0)]
    rfl
  · intro ℓ
    constructor
    · intro h d hd he
      exact (vv ℓ h).2.2 d ((nm d).2 ⟨hd, he⟩)
    · intro h
      have h3 : ratio.Valid ℓ := (v3 ℓ).2 ((v2 ℓ).2 (fun d hd => h d ((nm d).1 hd).1 ((nm d).1 hd).2))
      exact (v4 ℓ).2 h3
  · intro ℓ h
    obtain ⟨h3, h2, h1⟩ := vv ℓ h
    rw [j4.sel ℓ h]
    have s3 := j3.sel ℓ h3
    have s2 := j2.sel ℓ h2
    have s4 : (⟨ratio.arr.map npLog, ratio.idx⟩ : LA L (Fl ℝ)).sel ℓ = npLog (ratio.sel ℓ) := rfl
    have s5 : (⟨volo / area.sumAll, R.idx⟩ : LA L (Fl ℝ)).sel ℓ
        = volo.get (fun _ => 0) / area.sumAll.get (fun _ => 0) := by
      show volo.get _ / area.sumAll.get _ = _
      rw [const hvolo d2 _ (fun _ => 0)]
      rfl
    rw [s5, s4, s3, s2, sel_masso j1.proper]
    congr 3
    · exact const hrhoga d1 _ _
    · congr 1
      exact const hvolo d2 _ _

end Momlevel
