import Verif.Model.Util
import Mathlib.Data.List.Perm.Basic
import Mathlib.Tactic.NormNum
import Mathlib.Tactic.Linarith
import Mathlib.Tactic.IntervalCases
import Mathlib.Data.Rat.Cast.Order

/-! # C42 `alphabetize_dataset`, C43 `reset_encoding`, C64 `get_pv_colormap` -/

set_option linter.unusedSectionVars false

namespace Momlevel.Props
open Momlevel Momlevel.Fl

/-! ## C42 -/

section C42
variable {V : Type}

theorem lookup_mem {A : Type} {l : List (String × A)} {n : String} {a : A} (h : l.lookup n = some a) :
    (n, a) ∈ l := by
  induction l with
  | nil => cases h
  | cons p l ih =>
    obtain ⟨m, b⟩ := p
    rw [List.lookup_cons] at h
    split at h
    · rename_i hm
      obtain rfl := Option.some.inj h
      rw [beq_iff_eq] at hm
      simp [hm]
    · exact List.mem_cons_of_mem _ (ih h)

theorem lookup_of_mem {A : Type} {l : List (String × A)} {n : String} {a : A}
    (hn : (l.map Prod.fst).Nodup) (h : (n, a) ∈ l) : l.lookup n = some a := by
  induction l with
  | nil => cases h
  | cons p l ih =>
    obtain ⟨m, b⟩ := p
    rw [List.map_cons, List.nodup_cons] at hn
    rw [List.lookup_cons]
    rcases List.mem_cons.1 h with h' | h'
    · cases h'
      simp
    · have : (n == m) = false := by
        rw [beq_eq_false_iff_ne]
        rintro rfl
        exact hn.1 (List.mem_map.2 ⟨_, h', rfl⟩)
      rw [this]
      exact ih hn.2 h'

theorem lookup_isSome {A : Type} {l : List (String × A)} {n : String} (h : n ∈ l.map Prod.fst) :
    ∃ a, l.lookup n = some a := by
  cases hl : l.lookup n with
  | some a => exact ⟨a, rfl⟩
  | none =>
    rw [List.lookup_eq_none_iff] at hl
    obtain ⟨p, hp, rfl⟩ := List.mem_map.1 h
    have := hl p hp
    simp at this

theorem filterMap_names {A : Type} (l : List (String × A)) (ns : List String)
    (h : ∀ n ∈ ns, n ∈ l.map Prod.fst) :
    (ns.filterMap (fun n => (l.lookup n).map (fun a => (n, a)))).map Prod.fst = ns := by
  induction ns with
  | nil => rfl
  | cons n ns ih =>
    obtain ⟨a, ha⟩ := lookup_isSome (h n (by simp))
    rw [List.filterMap_cons]
    simp only [ha, Option.map_some, List.map_cons]
    rw [ih (fun m hm => h m (by simp [hm]))]

/-- `alphabetize_dataset` returns the same variables with the same contents, in increasing order of
name, and the same coordinates. -/
theorem C42_reorder (ds : DS V) (hn : (ds.vars.map Prod.fst).Nodup)
    (hc : ∀ c ∈ ds.coords, c ∈ ds.vars.map Prod.fst) :
    (alphabetizeDataset ds).vars.Perm ds.vars ∧
    ((alphabetizeDataset ds).vars.map Prod.fst).Pairwise (· < ·) ∧
    (alphabetizeDataset ds).coords = ds.coords := by
  have hperm := List.perm_insertionSort (· ≤ ·) ds.names
  have hnames : (alphabetizeDataset ds).vars.map Prod.fst = ds.names.insertionSort (· ≤ ·) :=
    filterMap_names ds.vars _ (fun n h => hperm.mem_iff.1 h)
  have hnd : (ds.names.insertionSort (· ≤ ·)).Nodup := hperm.nodup_iff.2 hn
  refine ⟨?_, ?_, ?_⟩
  · refine (List.perm_ext_iff_of_nodup ?_ (List.Nodup.of_map _ hn)).2 (fun p => ?_)
    · exact List.Nodup.of_map Prod.fst (hnames ▸ hnd)
    · obtain ⟨n, a⟩ := p
      simp only [alphabetizeDataset, List.mem_filterMap, Option.map_eq_some_iff, Prod.mk.injEq]
      constructor
      · rintro ⟨m, hm, b, hb, rfl, rfl⟩
        exact lookup_mem hb
      · intro h
        exact ⟨n, hperm.mem_iff.2 (List.mem_map_of_mem h), a, lookup_of_mem hn h, rfl, rfl⟩
  · rw [hnames]
    have h1 := List.pairwise_insertionSort (r := (· ≤ ·)) ds.names
    exact (h1.and hnd).imp (fun h => lt_of_le_of_ne h.1 h.2)
  · show ds.coords.filter _ = ds.coords
    rw [List.filter_eq_self]
    intro c h
    rw [List.contains_iff_mem]
    exact hperm.mem_iff.2 (hc c h)

/-- The result depends only on the set of variables, not on their initial order; in particular a second
call changes nothing. -/
theorem C42_canonical (ds ds' : DS V) (hn : (ds.vars.map Prod.fst).Nodup)
    (hc : ∀ c ∈ ds.coords, c ∈ ds.vars.map Prod.fst)
    (hc' : ∀ c ∈ ds'.coords, c ∈ ds'.vars.map Prod.fst) (h : ds.vars.Perm ds'.vars) :
    (alphabetizeDataset ds).vars = (alphabetizeDataset ds').vars := by
  have hn' : (ds'.vars.map Prod.fst).Nodup := (h.map Prod.fst).nodup_iff.1 hn
  obtain ⟨p1, o1, -⟩ := C42_reorder ds hn hc
  obtain ⟨p2, o2, -⟩ := C42_reorder ds' hn' hc'
  rw [List.pairwise_map] at o1 o2
  exact List.Perm.eq_of_pairwise (fun a b _ _ h1 h2 => absurd (h1.trans h2) (lt_irrefl _)) o1 o2
    (p1.trans (h.trans p2.symm))

/-- A second call changes nothing. -/
theorem C42_idempotent (ds : DS V) (hn : (ds.vars.map Prod.fst).Nodup)
    (hc : ∀ c ∈ ds.coords, c ∈ ds.vars.map Prod.fst) :
    alphabetizeDataset (alphabetizeDataset ds) = alphabetizeDataset ds := by
  obtain ⟨p1, o1, c1⟩ := C42_reorder ds hn hc
  have hn1 : ((alphabetizeDataset ds).vars.map Prod.fst).Nodup := (p1.map Prod.fst).nodup_iff.2 hn
  have hc1 : ∀ c ∈ (alphabetizeDataset ds).coords, c ∈ (alphabetizeDataset ds).vars.map Prod.fst := by
    rw [c1]
    exact fun c h => (p1.map Prod.fst).mem_iff.2 (hc c h)
  have e1 := C42_canonical _ _ hn1 hc1 hc p1
  obtain ⟨-, -, c2⟩ := C42_reorder _ hn1 hc1
  generalize alphabetizeDataset (alphabetizeDataset ds) = x at *
  generalize alphabetizeDataset ds = y at *
  obtain ⟨v, c⟩ := x
  obtain ⟨v', c'⟩ := y
  simp only at e1 c2
  rw [e1, c2]

/-- A dataset that is out of order. -/
example : ((alphabetizeDataset ⟨[("so", DA.scalar 1), ("areacello", DA.scalar 2), ("lat", DA.scalar 3)],
    ["lat"]⟩ : DS Nat).vars.map Prod.fst) = ["areacello", "lat", "so"] ∧
    (["so", "areacello", "lat"] : List String).Nodup := by
  constructor <;> decide

end C42

/-! ## C43 -/

section C43
variable {α : Type}

theorem lookup_dictPop (d : Dict α) (a k : String) :
    (dictPop d a).lookup k = if k = a then none else d.lookup k := by
  induction d with
  | nil => simp [dictPop]
  | cons p d ih =>
    obtain ⟨m, b⟩ := p
    unfold dictPop at ih ⊢
    by_cases hm : m = a
    · subst hm
      rw [List.filter_cons_of_neg (by simp), ih, List.lookup_cons]
      by_cases hk : k = m
      · simp [hk]
      · have : (k == m) = false := by simpa using hk
        simp [hk, this]
    · rw [List.filter_cons_of_pos (by simpa using hm), List.lookup_cons, List.lookup_cons, ih]
      by_cases hk : k = a
      · have : (k == m) = false := by
          rw [beq_eq_false_iff_ne, hk]; exact Ne.symm hm
        rw [this, if_pos hk]
      · simp [hk]

theorem lookup_popArray (d : Dict α) (as : List String) (k : String) :
    (EncObj.popArray d as).lookup k = if k ∈ as then none else d.lookup k := by
  unfold EncObj.popArray
  induction as generalizing d with
  | nil => simp
  | cons a as ih =>
    rw [List.foldl_cons, ih, lookup_dictPop]
    by_cases h1 : k ∈ as <;> by_cases h2 : k = a <;> simp [h1, h2]

theorem popDataset_eq (enc : Dict α) (vars : List (String × Dict α)) (as : List String) :
    EncObj.popDataset enc vars as =
      (EncObj.popArray enc as, vars.map (fun v => (v.1, EncObj.popArray v.2 as))) := by
  unfold EncObj.popDataset EncObj.popArray
  induction as generalizing enc vars with
  | nil => simp
  | cons a as ih =>
    simp only [List.foldl_cons]
    rw [ih]
    simp [List.map_map, Function.comp_def]

/-- The keys that are reset: the requested ones, or the two chunk keys. -/
def resetKeys : Option (List String) → List String
  | some l => l
  | none => ["chunks", "preferred_chunks"]

/-- DataArray: every requested key is gone, all the others keep their values, the encodings of the
coordinates are unchanged. -/
theorem C43_dataarray (enc : Dict α) (coords : List (String × Dict α)) (attrs : Option (List String)) :
    ∃ enc', resetEncoding (.dataArray enc coords) attrs = .ok (.dataArray enc' coords) ∧
      ∀ k, enc'.lookup k = if k ∈ resetKeys attrs then none else enc.lookup k := by
  refine ⟨_, rfl, fun k => ?_⟩
  rw [lookup_popArray]
  cases attrs <;> rfl

/-- Dataset: the same for the dataset and for each of its variables, which keep their names and
order. -/
theorem C43_dataset (enc : Dict α) (vars : List (String × Dict α)) (attrs : Option (List String)) :
    ∃ enc' vars', resetEncoding (.dataset enc vars) attrs = .ok (.dataset enc' vars') ∧
      (∀ k, enc'.lookup k = if k ∈ resetKeys attrs then none else enc.lookup k) ∧
      vars'.map Prod.fst = vars.map Prod.fst ∧
      ∀ (i : Nat) (v v' : String × Dict α), vars[i]? = some v → vars'[i]? = some v' →
        ∀ k, v'.2.lookup k = if k ∈ resetKeys attrs then none else v.2.lookup k := by
  refine ⟨_, _, rfl, fun k => ?_, ?_, fun i v v' h h' k => ?_⟩
  · rw [popDataset_eq, lookup_popArray]
    cases attrs <;> rfl
  · rw [popDataset_eq]; simp [Function.comp_def]
  · rw [popDataset_eq] at h'
    rw [List.getElem?_map, h, Option.map_some, Option.some.injEq] at h'
    subst h'
    rw [lookup_popArray]
    cases attrs <;> rfl

/-- Anything else raises a ValueError. -/
theorem C43_other (attrs : Option (List String)) :
    resetEncoding (EncObj.other (α := α)) attrs = .error .valueError := rfl

theorem popArray_eq (d : Dict α) (as : List String) :
    EncObj.popArray d as = d.filter (fun p => p.1 ∉ as) := by
  unfold EncObj.popArray
  induction as generalizing d with
  | nil => simp
  | cons a as ih =>
    rw [List.foldl_cons, ih, dictPop, List.filter_filter]
    congr 1
    funext p
    by_cases h1 : p.1 ∈ as <;> by_cases h2 : p.1 = a <;> simp [h1, h2]

/-- Resetting twice is the same as resetting once. -/
theorem C43_idempotent (x y : EncObj α) (attrs : Option (List String))
    (h : resetEncoding x attrs = .ok y) : resetEncoding y attrs = .ok y := by
  have hp : ∀ (d : Dict α) as, EncObj.popArray (EncObj.popArray d as) as = EncObj.popArray d as := by
    intro d as
    simp [popArray_eq, List.filter_filter]
  cases x with
  | dataArray enc coords =>
    obtain rfl := Except.ok.inj h
    simp only [resetEncoding, hp]
  | dataset enc vars =>
    obtain rfl := Except.ok.inj h
    simp only [resetEncoding, popDataset_eq, hp, List.map_map, Function.comp_def]
  | other => cases h

/-- One of the keys goes, the other stays. -/
example : resetEncoding (.dataset [("chunks", 1)] [("thetao", [("chunks", 1), ("dtype", 2)])]) =
    .ok (.dataset [] [("thetao", [("dtype", 2)])]) := rfl

end C43

/-! ## C64 -/

section C64
variable {K : Type} [Field K] [LinearOrder K] [IsStrictOrderedRing K]

/-- The levels, written out. -/
def pvLevels : List Rat :=
  [0, 1/10000, 1, 2, 3, 4, 5, 6, 7, 8, 9, 10, 15, 20, 30, 40, 50, 60, 70, 80, 90, 100, 120, 140, 160, 180,
    200, 300, 400, 2000]

theorem npArange_eq (start stop step : K) (hs : 0 < step) (n count : Nat) (hn : n ≤ count)
    (h1 : start + (n : K) * step ≥ stop) (h2 : ∀ k, k < n → start + (k : K) * step < stop) :
    npArange (fin start) (fin stop) (fin step) count
      = (List.range n).map (fun k : Nat => fin (start + (k : K) * step)) := by
  unfold npArange
  have e : ∀ k : Nat, fin start + fin (k : K) * fin step = fin (start + (k : K) * step) := fun k => rfl
  simp only [e]
  obtain ⟨m, rfl⟩ := Nat.exists_eq_add_of_le hn
  rw [List.range_add, List.map_append, List.filter_append]
  rw [List.filter_eq_self.2, List.filter_eq_nil_iff.2, List.append_nil]
  · intro v hv
    simp only [List.mem_map, List.mem_range] at hv
    obtain ⟨k, ⟨j, -, rfl⟩, rfl⟩ := hv
    have : (j : K) * step ≥ 0 := mul_nonneg (Nat.cast_nonneg _) hs.le
    simp only [Fl.lt, decide_eq_true_eq, not_lt]
    push_cast
    linarith
  · intro v hv
    simp only [List.mem_map, List.mem_range] at hv
    obtain ⟨k, hk, rfl⟩ := hv
    simpa [Fl.lt] using h2 k hk

/-- `get_pv_colormap`: thirty levels and thirty colours, from zero to 2000. -/
theorem C64_levels : ∃ l : List K, (getPvColormap (K := K)).1 = l.map fin ∧
    l = pvLevels.map (fun q : Rat => (q : K)) ∧ l.Pairwise (· < ·) ∧
    l.length = (getPvColormap (K := K)).2.length ∧ l.length = 30 := by
  have a1 : npArange (fin (1 : K)) (fin 10) (fin 1) 20
      = [1, 2, 3, 4, 5, 6, 7, 8, 9].map (fin : K → Fl K) := by
    rw [npArange_eq 1 10 1 (by norm_num) 9 20 (by norm_num) (by norm_num)
      (fun k hk => by interval_cases k <;> norm_num)]
    simp only [List.range, List.range.loop, List.map_cons, List.map_nil]
    norm_num
  have a2 : npArange (fin (20 : K)) (fin 100) (fin 10) 20
      = [20, 30, 40, 50, 60, 70, 80, 90].map (fin : K → Fl K) := by
    rw [npArange_eq 20 100 10 (by norm_num) 8 20 (by norm_num) (by norm_num)
      (fun k hk => by interval_cases k <;> norm_num)]
    simp only [List.range, List.range.loop, List.map_cons, List.map_nil]
    norm_num
  have a3 : npArange (fin (100 : K)) (fin 200) (fin 20) 20
      = [100, 120, 140, 160, 180].map (fin : K → Fl K) := by
    rw [npArange_eq 100 200 20 (by norm_num) 5 20 (by norm_num) (by norm_num)
      (fun k hk => by interval_cases k <;> norm_num)]
    simp only [List.range, List.range.loop, List.map_cons, List.map_nil]
    norm_num
  have a4 : npArange (fin (200 : K)) (fin 500) (fin 100) 20
      = [200, 300, 400].map (fin : K → Fl K) := by
    rw [npArange_eq 200 500 100 (by norm_num) 3 20 (by norm_num) (by norm_num)
      (fun k hk => by interval_cases k <;> norm_num)]
    simp only [List.range, List.range.loop, List.map_cons, List.map_nil]
    norm_num
  have c : ∀ (m : Nat) (s : Bool) (e : Nat), (OfScientific.ofScientific m s e : Fl K)
      = fin (OfScientific.ofScientific m s e) := fun _ _ _ => rfl
  refine ⟨pvLevels.map (fun q : Rat => (q : K)), ?_, rfl, ?_, by rfl, by rfl⟩
  · have l0 : (0.0 : Fl K) = fin 0 := by rw [c]; norm_num
    have l1 : (0.0001 : Fl K) = fin (1 / 10000) := by rw [c]; norm_num
    have l2 : (1.0 : Fl K) = fin 1 := by rw [c]; norm_num
    have l3 : (10.0 : Fl K) = fin 10 := by rw [c]; norm_num
    have l4 : (15.0 : Fl K) = fin 15 := by rw [c]; norm_num
    have l5 : (20.0 : Fl K) = fin 20 := by rw [c]; norm_num
    have l6 : (100.0 : Fl K) = fin 100 := by rw [c]; norm_num
    have l7 : (200.0 : Fl K) = fin 200 := by rw [c]; norm_num
    have l8 : (500.0 : Fl K) = fin 500 := by rw [c]; norm_num
    have l9 : (2000.0 : Fl K) = fin 2000 := by rw [c]; norm_num
    simp only [getPvColormap, l0, l1, l2, l3, l4, l5, l6, l7, l8, l9, a1, a2, a3, a4]
    simp [pvLevels]
  · rw [List.pairwise_map]
    refine List.Pairwise.imp (R := (· < ·)) (fun h => by exact_mod_cast h) ?_
    unfold pvLevels
    norm_num

/-- `C42_reorder` on a dataset that is out of order. -/
example : (alphabetizeDataset ⟨[("so", DA.scalar 1), ("areacello", DA.scalar 2), ("lat", DA.scalar 3)],
    ["lat"]⟩ : DS Nat).coords = ["lat"] :=
  (C42_reorder _ (by decide) (by decide)).2.2

/-- `C43_dataarray`: with a list of one key only that key goes; the coordinates keep theirs. -/
example : resetEncoding (.dataArray [("chunks", 1), ("dtype", 2)] [("lat", [("dtype", 3)])]) (some ["dtype"]) =
    .ok (.dataArray [("chunks", 1)] [("lat", [("dtype", 3)])]) := rfl

/-- `C43_dataset` with the same list. -/
example : resetEncoding (.dataset [("chunks", 1)] [("thetao", [("chunks", 1), ("dtype", 2)])]) (some ["dtype"]) =
    .ok (.dataset [("chunks", 1)] [("thetao", [("chunks", 1)])]) := rfl

end C64

end Momlevel.Props
