import Verif.Props.Deseason
import Verif.Lemmas.Steric

/-!
# The attributes `deseason` leaves behind (C59)
-/

set_option linter.unusedSectionVars false

namespace Momlevel.Props
open Momlevel

theorem lookup_dictPop_self {α : Type} (d : Dict α) (k : String) : (dictPop d k).lookup k = none := by
  unfold dictPop
  induction d with
  | nil => rfl
  | cons p d ih =>
    rw [List.filter_cons]
    split
    · rename_i hp
      have hne : (k == p.1) = false := by
        rw [beq_eq_false_iff_ne]
        intro hh
        rw [hh] at hp
        simp at hp
      obtain ⟨a, b⟩ := p
      rw [List.lookup_cons]
      simp only [hne]
      exact ih
    · exact ih

theorem lookup_dictPop_ne {α : Type} (d : Dict α) {k k' : String} (h : k' ≠ k) :
    (dictPop d k).lookup k' = d.lookup k' := by
  unfold dictPop
  induction d with
  | nil => rfl
  | cons p d ih =>
    obtain ⟨a, b⟩ := p
    rw [List.filter_cons]
    split
    · rw [List.lookup_cons, List.lookup_cons, ih]
    · rename_i hp
      have ha : a = k := by simpa using hp
      have hne : (k' == a) = false := by
        rw [beq_eq_false_iff_ne, ha]; exact h
      rw [List.lookup_cons, hne, ih]

theorem dictPop_of_none {α : Type} {d : Dict α} {k : String} (h : d.lookup k = none) :
    dictPop d k = d := by
  unfold dictPop
  rw [List.filter_eq_self]
  intro p hp
  rw [List.lookup_eq_none_iff] at h
  have := h p hp
  simp only [bne_iff_ne, ne_eq]
  intro hh
  rw [hh] at this
  simp at this

theorem lookup_of_mem_dict {α : Type} {d : Dict α} (hn : (d.map Prod.fst).Nodup) {p : String × α}
    (hp : p ∈ d) : d.lookup p.1 = some p.2 := by
  induction d with
  | nil => simp at hp
  | cons q d ih =>
    obtain ⟨a, b⟩ := q
    rw [List.lookup_cons]
    rw [List.map_cons, List.nodup_cons] at hn
    rcases List.mem_cons.1 hp with rfl | hp
    · simp
    · have hne : (p.1 == a) = false := by
        rw [beq_eq_false_iff_ne]
        intro hh
        exact hn.1 (List.mem_map.2 ⟨p, hp, hh⟩)
      rw [hne]
      exact ih hn.2 hp

theorem dictSet_of_some {α : Type} {d : Dict α} (hn : (d.map Prod.fst).Nodup) {k : String} {v : α}
    (h : d.lookup k = some v) : dictSet d k v = d := by
  have hm : k ∈ d.map Prod.fst := by
    by_contra hh
    have : d.lookup k = none := by
      rw [List.lookup_eq_none_iff]
      intro p hp
      rw [bne_iff_ne]
      intro he
      exact hh (he ▸ List.mem_map_of_mem hp)
    rw [this] at h
    cases h
  unfold dictSet
  rw [if_pos (by rw [List.contains_iff_mem]; exact hm)]
  conv_rhs => rw [← List.map_id d]
  apply List.map_congr_left
  intro p hp
  by_cases hk : p.1 = k
  · rw [if_pos hk]
    have := lookup_of_mem_dict hn hp
    rw [hk, h] at this
    rw [Option.some.inj this, ← hk]
    rfl
  · rw [if_neg hk]; rfl

/-- A successful call has a known format, and its result and its argument end up with the edited
attributes. -/
theorem deseason_attrs {x : SeasonArray} {tdim fmt : String} {r : Deseasoned}
    (h : deseason x tdim fmt = .ok r) :
    Spec.knownFormat fmt ∧ r.attrs = editAttrs fmt x.attrs ∧ r.argAttrs = editAttrs fmt x.attrs := by
  unfold deseason at h
  obtain ⟨_, _, h⟩ := bind_ok.1 h
  obtain ⟨ax, _, h⟩ := bind_ok.1 h
  obtain ⟨od, hod, h⟩ := bind_ok.1 h
  obtain ⟨_, _, h⟩ := bind_ok.1 h
  obtain ⟨_, _, h⟩ := bind_ok.1 h
  cases h
  refine ⟨?_, rfl, rfl⟩
  unfold seasonDims at hod
  unfold Spec.knownFormat
  split at hod
  · rename_i hh
    exact hh.elim Or.inl (fun h => Or.inr (Or.inl h))
  · split at hod
    · rename_i hh; exact Or.inr (Or.inr hh)
    · cases hod

/-- The attributes with the text added to "long_name". -/
def withText (d : Dict String) (text : String) : Dict String :=
  match d.lookup "long_name" with
  | some s => dictSet d "long_name" (s ++ text)
  | none => d

theorem lookup_withText (d : Dict String) (text : String) :
    (withText d text).lookup "long_name" = (d.lookup "long_name").map (· ++ text) ∧
      ∀ k ≠ "long_name", (withText d text).lookup k = d.lookup k := by
  unfold withText
  cases h : d.lookup "long_name" with
  | none => exact ⟨h, fun k _ => rfl⟩
  | some s =>
    exact ⟨lookup_dictSet_self _ _ _, fun k hk => lookup_dictSet_ne _ _ hk⟩

theorem edit_eq {fmt : String} (hf : Spec.knownFormat fmt) (attrs : Dict String) :
    editAttrs fmt attrs =
      let d := dictSet (withText (dictPop attrs "standard_name") (Spec.addedText fmt)) "processing"
        (Spec.processingText fmt)
      if fmt = "coeff" then dictPop d "units" else d := by
  rcases hf with rfl | rfl | rfl <;> rfl

theorem edit_lookup {fmt : String} (hf : Spec.knownFormat fmt) (attrs : Dict String) :
    (editAttrs fmt attrs).lookup "standard_name" = none ∧
    (editAttrs fmt attrs).lookup "long_name" =
      (attrs.lookup "long_name").map (· ++ Spec.addedText fmt) ∧
    (editAttrs fmt attrs).lookup "processing" = some (Spec.processingText fmt) ∧
    (editAttrs fmt attrs).lookup "units" =
      (if fmt = "coeff" then none else attrs.lookup "units") ∧
    ∀ k, k ≠ "standard_name" → k ≠ "long_name" → k ≠ "processing" → k ≠ "units" →
      (editAttrs fmt attrs).lookup k = attrs.lookup k := by
  rw [edit_eq hf]
  set d0 := dictPop attrs "standard_name" with hd0
  obtain ⟨hw1, hw2⟩ := lookup_withText d0 (Spec.addedText fmt)
  set d1 := withText d0 (Spec.addedText fmt) with hd1
  set d2 := dictSet d1 "processing" (Spec.processingText fmt) with hd2
  have a1 : d2.lookup "standard_name" = none := by
    rw [hd2, lookup_dictSet_ne _ _ (by decide), hw2 _ (by decide)]
    exact lookup_dictPop_self _ _
  have a2 : d2.lookup "long_name" = (attrs.lookup "long_name").map (· ++ Spec.addedText fmt) := by
    rw [hd2, lookup_dictSet_ne _ _ (by decide), hw1, hd0, lookup_dictPop_ne _ (by decide)]
  have a3 : d2.lookup "processing" = some (Spec.processingText fmt) := lookup_dictSet_self _ _ _
  have a4 : ∀ k, k ≠ "standard_name" → k ≠ "long_name" → k ≠ "processing" →
      d2.lookup k = attrs.lookup k := by
    intro k h1 h2 h3
    rw [hd2, lookup_dictSet_ne _ _ h3, hw2 _ h2, hd0, lookup_dictPop_ne _ h1]
  by_cases hc : fmt = "coeff"
  · simp only [if_pos hc]
    refine ⟨?_, ?_, ?_, lookup_dictPop_self _ _, fun k h1 h2 h3 h4 => ?_⟩
    · rw [lookup_dictPop_ne _ (by decide), a1]
    · rw [lookup_dictPop_ne _ (by decide), a2]
    · rw [lookup_dictPop_ne _ (by decide), a3]
    · rw [lookup_dictPop_ne _ h4, a4 k h1 h2 h3]
  · simp only [if_neg hc]
    exact ⟨a1, a2, a3, a4 _ (by decide) (by decide) (by decide), fun k h1 h2 h3 _ => a4 k h1 h2 h3⟩

/-- C59, what happens instead: every successful call edits the attributes of the array it was given
(and gives the result the same ones): "standard_name" disappears, text is added to "long_name",
"processing" is set, "units" disappears for "coeff", all other attributes stay. -/
theorem C59_effect {x : SeasonArray} {tdim fmt : String} {r : Deseasoned}
    (h : deseason x tdim fmt = .ok r) :
    r.attrs = r.argAttrs ∧ r.argAttrs.lookup "standard_name" = none ∧
    r.argAttrs.lookup "long_name" = (x.attrs.lookup "long_name").map (· ++ Spec.addedText fmt) ∧
    r.argAttrs.lookup "processing" = some (Spec.processingText fmt) ∧
    r.argAttrs.lookup "units" = (if fmt = "coeff" then none else x.attrs.lookup "units") ∧
    ∀ k, k ≠ "standard_name" → k ≠ "long_name" → k ≠ "processing" → k ≠ "units" →
      r.argAttrs.lookup k = x.attrs.lookup k := by
  obtain ⟨hf, h1, h2⟩ := deseason_attrs h
  rw [h1, h2]
  exact ⟨rfl, edit_lookup hf x.attrs⟩

theorem append_ne_self (s : String) {t : String} (h : t ≠ "") : s ++ t ≠ s := by
  intro hh
  have h1 := congrArg String.length hh
  rw [String.length_append] at h1
  apply h
  have : t.length = 0 := by omega
  exact String.length_eq_zero_iff.1 this

theorem addedText_ne {fmt : String} : Spec.addedText fmt ≠ "" := by
  unfold Spec.addedText
  split
  · decide
  · split <;> decide

/-- C59, the part that holds (the full claim, that no call changes the attributes of its argument, is
refuted by `C59_counterexample`): the attributes of the argument stay as they are exactly if there was
nothing to edit, that is, no "standard_name", no "long_name", the right "processing" already, and no
"units" for "coeff". -/
theorem C59_partial {x : SeasonArray} {tdim fmt : String} {r : Deseasoned}
    (hn : (x.attrs.map Prod.fst).Nodup) (h : deseason x tdim fmt = .ok r) :
    r.argAttrs = x.attrs ↔
      x.attrs.lookup "standard_name" = none ∧ x.attrs.lookup "long_name" = none ∧
      x.attrs.lookup "processing" = some (Spec.processingText fmt) ∧
      (fmt = "coeff" → x.attrs.lookup "units" = none) := by
  obtain ⟨hf, h1, h2⟩ := deseason_attrs h
  rw [h2]
  obtain ⟨e1, e2, e3, e4, _⟩ := edit_lookup hf x.attrs
  constructor
  · intro he
    rw [he] at e1 e2 e3 e4
    refine ⟨e1, ?_, e3, fun hc => ?_⟩
    · cases hl : x.attrs.lookup "long_name" with
      | none => rfl
      | some s =>
        rw [hl] at e2
        exact absurd (Option.some.inj e2).symm (append_ne_self s addedText_ne)
    · rw [if_pos hc] at e4; exact e4
  · rintro ⟨a1, a2, a3, a4⟩
    rw [edit_eq hf, dictPop_of_none a1]
    have : withText x.attrs (Spec.addedText fmt) = x.attrs := by unfold withText; rw [a2]
    rw [this, dictSet_of_some hn a3]
    by_cases hc : fmt = "coeff"
    · simp only [if_pos hc]
      exact dictPop_of_none (a4 hc)
    · simp only [if_neg hc]

theorem repeated_comm (t : String) (k : Nat) : Spec.repeated t k ++ t = t ++ Spec.repeated t k := by
  induction k with
  | zero =>
    unfold Spec.repeated
    rw [String.empty_append, String.append_empty]
  | succ k ih =>
    rw [Spec.repeated, String.append_assoc, ih]

/-- C59, refuted for repeated calls: after `k` calls on the same array the text has been added to its
"long_name" `k` times. -/
theorem C59_accumulates {x : SeasonArray} {ax : TimeAxis} {n : Nat} (h : Spec.HasTime x ax n)
    (hc : Spec.Covered x) {s : String} (hs : x.attrs.lookup "long_name" = some s) (k : Nat) :
    ∃ f : Nat → SeasonArray, f 0 = x ∧
      (∀ i, ∃ r, deseason (f i) "time" "residuals" = .ok r ∧
        f (i + 1) = { f i with attrs := r.argAttrs }) ∧
      (f k).attrs.lookup "long_name" =
        some (s ++ Spec.repeated " residuals from detrending and deseasonalizing" k) := by
  let f : Nat → SeasonArray :=
    fun i => { x with attrs := (editAttrs "residuals")^[i] x.attrs }
  have hr : ∀ i, ∃ r, deseason (f i) "time" "residuals" = .ok r ∧
        f (i + 1) = { f i with attrs := r.argAttrs } := by
    intro i
    have hi : Spec.HasTime (f i) ax n := ⟨h.distinct, h.dim_mem, h.axis, h.count, h.no_coeff⟩
    obtain ⟨d, hd, _⟩ := deseason_residuals hi (fun cs hcs => hc cs hcs)
    refine ⟨_, hd, ?_⟩
    change SeasonArray.mk _ _ _ _ _ = SeasonArray.mk _ _ _ _ _
    congr 1
    exact Function.iterate_succ_apply' _ _ _
  refine ⟨f, rfl, hr, ?_⟩
  clear hr
  induction k with
  | zero =>
    rw [Spec.repeated, String.append_empty]
    exact hs
  | succ k ih =>
    have : (f (k + 1)).attrs = editAttrs "residuals" (f k).attrs := Function.iterate_succ_apply' _ _ _
    rw [this, (edit_lookup (Or.inl rfl) _).2.1, ih, Option.map_some, Spec.repeated, ← repeated_comm,
      String.append_assoc]
    rfl

end Momlevel.Props
