import Verif.Model.Average
import Verif.Spec.Average
import Verif.Lemmas.Calendar
import Mathlib.Tactic.Ring
import Mathlib.Tactic.FieldSimp
import Mathlib.Tactic.Positivity

/-! # Lemmas about groups and averages -/

set_option linter.unusedSectionVars false

namespace Momlevel
open Momlevel.Fl Momlevel.Spec

/-! ### Groups -/

theorem mem_groupKeys {l : List Nat} {k : Nat} : k ∈ groupKeys l ↔ k ∈ l := by
  simp [groupKeys]

theorem groupKeys_lt (l : List Nat) : (groupKeys l).Pairwise (· < ·) := by
  have h1 : (groupKeys l).Pairwise (· ≤ ·) := List.pairwise_insertionSort _ _
  have h2 : (groupKeys l).Nodup :=
    (List.perm_insertionSort _ _).nodup_iff.2 (List.nodup_dedup _)
  exact (h1.and h2).imp (fun h => lt_of_le_of_ne h.1 h.2)

/-- A strictly increasing list is determined by its members. -/
theorem eq_of_pairwise_lt : ∀ {a b : List Nat}, a.Pairwise (· < ·) → b.Pairwise (· < ·) →
    (∀ k, k ∈ a ↔ k ∈ b) → a = b := by
  intro a b ha hb h
  have na : a.Nodup := ha.imp (fun h => ne_of_lt h)
  have nb : b.Nodup := hb.imp (fun h => ne_of_lt h)
  have hp : a.Perm b := (List.perm_ext_iff_of_nodup na nb).2 h
  exact hp.eq_of_pairwise (fun x y _ _ h1 h2 => absurd h1 (by omega)) ha hb

theorem mem_groupPos {l : List Nat} {k i : Nat} :
    i ∈ groupPos l k ↔ i < l.length ∧ l.getD i 0 = k := by
  simp [groupPos]

theorem groupPos_nodup (l : List Nat) (k : Nat) : (groupPos l k).Nodup :=
  List.Nodup.filter _ List.nodup_range

/-- The positions of a group as a finite set. -/
def posSet (l : List Nat) (k : Nat) : Finset Nat :=
  (Finset.range l.length).filter (fun i => l.getD i 0 = k)

theorem toFinset_groupPos (l : List Nat) (k : Nat) : (groupPos l k).toFinset = posSet l k := by
  ext i; simp [mem_groupPos, posSet]

theorem sum_groupPos {M : Type*} [AddCommMonoid M] (l : List Nat) (k : Nat) (f : Nat → M) :
    ((groupPos l k).map f).sum = ∑ i ∈ posSet l k, f i := by
  rw [← toFinset_groupPos, List.sum_toFinset f (groupPos_nodup l k)]

theorem card_posSet (l : List Nat) (k : Nat) : (posSet l k).card = (groupPos l k).length := by
  rw [← toFinset_groupPos, List.toFinset_card_of_nodup (groupPos_nodup l k)]

/-! ### Averages of lists indexed by a duplicate-free list of positions -/

section means
variable {K : Type} [Field K] [LinearOrder K] [IsStrictOrderedRing K]

theorem sum_present {M : Type*} [AddCommMonoid M] {pos : List Nat} (hn : pos.Nodup)
    (v : Nat → Fl K) (f : Nat → M) :
    (pos.map (fun i => if v i ≠ nan then f i else 0)).sum
      = ∑ i ∈ present pos.toFinset v, f i := by
  rw [← List.sum_toFinset _ hn, present, Finset.sum_filter]

theorem weightedMean_spec {pos : List Nat} (hn : pos.Nodup) {w : Nat → Nat} {v : Nat → Fl K}
    (hv : ∀ i ∈ pos, FN (v i)) (hw : ∀ i ∈ pos, 0 < w i) :
    IsWeightedMean pos.toFinset w v (weightedMean (pos.map (fun i => (v i, w i)))) := by
  have e1 : Fl.nansum ((pos.map (fun i => (v i, w i))).map
      (fun p => Fl.fillna (.fin 0) p.1 * .fin (p.2 : K)))
      = fin (∑ i ∈ present pos.toFinset v, (w i : K) * val0 (v i)) := by
    rw [Fl.nansum_eq]
    · rw [← sum_present hn, List.map_map, List.map_map]
      congr 2
      refine List.map_congr_left (fun i hi => ?_)
      rcases hv i hi with h | ⟨a, h⟩ <;> simp [h, mul_comm]
    · intro x hx
      simp only [List.map_map, List.mem_map, Function.comp] at hx
      obtain ⟨i, hi, rfl⟩ := hx
      rcases hv i hi with h | ⟨a, h⟩ <;> simp [h]
  have e2 : Fl.nansum ((pos.map (fun i => (v i, w i))).map
      (fun p => Fl.sel (Fl.notnull p.1) (.fin (p.2 : K)) (.fin 0)))
      = fin (∑ i ∈ present pos.toFinset v, (w i : K)) := by
    rw [Fl.nansum_eq]
    · rw [← sum_present hn, List.map_map, List.map_map]
      congr 2
      refine List.map_congr_left (fun i hi => ?_)
      rcases hv i hi with h | ⟨a, h⟩ <;> simp [h, Fl.notnull]
    · intro x hx
      simp only [List.map_map, List.mem_map, Function.comp] at hx
      obtain ⟨i, hi, rfl⟩ := hx
      rcases hv i hi with h | ⟨a, h⟩ <;> simp [h, Fl.notnull]
  simp only [weightedMean, e1, e2]
  by_cases hp : ∃ i ∈ pos.toFinset, v i ≠ nan
  · right
    have hpos : 0 < ∑ i ∈ present pos.toFinset v, (w i : K) := by
      obtain ⟨i, hi, hvi⟩ := hp
      refine Finset.sum_pos (fun j hj => ?_) ⟨i, by simp only [present, Finset.mem_filter]; exact ⟨hi, hvi⟩⟩
      have := hw j (by simpa using (Finset.mem_filter.1 hj).1)
      exact_mod_cast this
    refine ⟨hp, (∑ i ∈ present pos.toFinset v, (w i : K) * val0 (v i))
      / (∑ i ∈ present pos.toFinset v, (w i : K)), ?_, ?_⟩
    · rw [Fl.eqv_fin, decide_eq_false hpos.ne', Bool.not_false, Fl.sel_true,
        Fl.fin_div_of_ne _ hpos.ne']
    · exact div_mul_cancel₀ _ hpos.ne'
  · left
    have hall : ∀ i ∈ pos.toFinset, v i = nan := by
      intro i hi; by_contra h; exact hp ⟨i, hi, h⟩
    refine ⟨hall, ?_⟩
    have : present pos.toFinset v = ∅ := by
      simp only [present, Finset.filter_eq_empty_iff]
      intro i hi h; exact h (hall i hi)
    simp [this]

theorem length_present {pos : List Nat} (hn : pos.Nodup) (v : Nat → Fl K) :
    ((pos.map v).filter Fl.notnull).length = (present pos.toFinset v).card := by
  have : present pos.toFinset v = (pos.filter (fun i => v i ≠ nan)).toFinset := by
    ext i; simp [present]
  rw [this, List.toFinset_card_of_nodup (List.Nodup.filter _ hn), List.filter_map, List.length_map]
  congr 1
  refine List.filter_congr (fun i _ => ?_)
  cases h : v i <;> simp [Fl.notnull, h]

theorem nanmean_spec {pos : List Nat} (hn : pos.Nodup) {v : Nat → Fl K}
    (hv : ∀ i ∈ pos, FN (v i)) : IsMean pos.toFinset v (nanmean (pos.map v)) := by
  have e1 : Fl.nansum (pos.map v) = fin (∑ i ∈ present pos.toFinset v, val0 (v i)) := by
    rw [Fl.nansum_eq]
    · rw [← sum_present hn, List.map_map]
      congr 2
      refine List.map_congr_left (fun i hi => ?_)
      rcases hv i hi with h | ⟨a, h⟩ <;> simp [h]
    · intro x hx
      obtain ⟨i, hi, rfl⟩ := List.mem_map.1 hx
      exact hv i hi
  rw [nanmean, e1, length_present hn]
  by_cases hp : ∃ i ∈ pos.toFinset, v i ≠ nan
  · right
    have hpos : ((present pos.toFinset v).card : K) ≠ 0 := by
      obtain ⟨i, hi, hvi⟩ := hp
      have : 0 < (present pos.toFinset v).card :=
        Finset.card_pos.2 ⟨i, by simp only [present, Finset.mem_filter]; exact ⟨hi, hvi⟩⟩
      exact_mod_cast this.ne'
    exact ⟨hp, _, Fl.fin_div_of_ne _ hpos, div_mul_cancel₀ _ hpos⟩
  · left
    have hall : ∀ i ∈ pos.toFinset, v i = nan := by
      intro i hi; by_contra h; exact hp ⟨i, hi, h⟩
    refine ⟨hall, ?_⟩
    have : present pos.toFinset v = ∅ := by
      simp only [present, Finset.filter_eq_empty_iff]
      intro i hi h; exact h (hall i hi)
    simp [this, Fl.fin_div, Fl.infOfSign]

end means

end Momlevel
