import Verif.Spec.Pick
import Verif.Lemmas.Steric
import Verif.Lemmas.DA

/-! Array operations commute with taking positions of another dimension. -/

set_option linter.unusedSectionVars false

namespace Momlevel
open Fl Spec Props

variable {V W U X : Type} {x : String} {idx : List Nat}

/-- What `pick` does to a dimension. -/
def pickDim (x : String) (m : Nat) (p : String × Nat) : String × Nat := if p.1 = x then (x, m) else p

theorem pickDim_fst (x : String) (m : Nat) (p : String × Nat) : (pickDim x m p).1 = p.1 := by
  unfold pickDim
  split
  · rename_i h; exact h.symm
  · rfl

theorem pickDim_of_ne {m : Nat} {p : String × Nat} (h : p.1 ≠ x) : pickDim x m p = p := if_neg h

theorem pick_dims (a : DA V) : (pick x idx a).dims = a.dims.map (pickDim x idx.length) := rfl

theorem pick_get (a : DA V) (e : Env) :
    (pick x idx a).get e = a.get (Function.update e x (idx.getD (e x) 0)) := rfl

theorem map_pickDim_fst (m : Nat) (l : List (String × Nat)) :
    (l.map (pickDim x m)).map Prod.fst = l.map Prod.fst := by
  rw [List.map_map]
  exact List.map_congr_left (fun p _ => pickDim_fst x m p)

theorem pick_dimNames (a : DA V) : (pick x idx a).dimNames = a.dimNames := map_pickDim_fst _ _

theorem filter_map_pickDim (m : Nat) (l : List (String × Nat)) (q : String → Bool) :
    (l.map (pickDim x m)).filter (fun p => q p.1) = (l.filter (fun p => q p.1)).map (pickDim x m) := by
  rw [List.filter_map]
  congr 1
  exact List.filter_congr (fun p _ => by simp only [Function.comp, pickDim_fst])

theorem bdims_pickDim (m : Nat) (a b : List (String × Nat)) :
    DA.bdims (a.map (pickDim x m)) (b.map (pickDim x m)) = (DA.bdims a b).map (pickDim x m) := by
  unfold DA.bdims
  rw [map_pickDim_fst, List.map_append, filter_map_pickDim m b (fun s => !(a.map Prod.fst).contains s)]

theorem map_pickDim_of_not {m : Nat} {l : List (String × Nat)} (h : x ∉ l.map Prod.fst) :
    l.map (pickDim x m) = l := by
  conv_rhs => rw [← List.map_id l]
  refine List.map_congr_left (fun p hp => pickDim_of_ne (fun hx => h ?_))
  exact hx ▸ List.mem_map_of_mem hp

theorem pick_zip (f : V → W → U) (a : DA V) (b : DA W) :
    DA.zip f (pick x idx a) (pick x idx b) = pick x idx (DA.zip f a b) := by
  show DA.mk _ _ = DA.mk _ _
  congr 1
  exact bdims_pickDim _ _ _

theorem pick_zip3 (f : V → W → U → X) (a : DA V) (b : DA W) (c : DA U) :
    DA.zip3 f (pick x idx a) (pick x idx b) (pick x idx c) = pick x idx (DA.zip3 f a b c) := by
  show DA.mk _ _ = DA.mk _ _
  congr 1
  show DA.bdims (DA.bdims (a.dims.map _) (b.dims.map _)) (c.dims.map _) = _
  rw [show (fun p : String × Nat => if p.1 = x then (x, idx.length) else p) = pickDim x idx.length from rfl,
    bdims_pickDim, bdims_pickDim]
  rfl

theorem pick_map (f : V → W) (a : DA V) : (pick x idx a).map f = pick x idx (a.map f) := rfl

theorem pick_scalar (v : V) : pick x idx (DA.scalar v) = DA.scalar v := rfl

theorem pick_of_not {a : DA V} (hw : a.WF) (h : x ∉ a.dimNames) : pick x idx a = a := by
  show DA.mk _ _ = _
  cases a with
  | mk dims get =>
    congr 1
    · exact map_pickDim_of_not h
    · funext e
      exact hw _ _ (fun d hd => Function.update_of_ne (fun h' : d = x => h (h' ▸ hd)) _ _)

theorem pick_isel (a : DA V) {d : String} (h : d ≠ x) (i : Nat) :
    (pick x idx a).isel d i = pick x idx (a.isel d i) := by
  show DA.mk _ _ = DA.mk _ _
  congr 1
  · exact filter_map_pickDim _ _ (fun s => s != d)
  · funext e
    show a.get _ = a.get _
    rw [Function.update_of_ne h.symm, Function.update_comm h]

theorem find_pickDim (m : Nat) (l : List (String × Nat)) (d : String) :
    (l.map (pickDim x m)).find? (fun p => p.1 == d) = (l.find? (fun p => p.1 == d)).map (pickDim x m) := by
  rw [List.find?_map]
  congr 2
  funext p
  simp only [Function.comp, pickDim_fst]

theorem pick_size (a : DA V) {d : String} (h : d ≠ x) : (pick x idx a).size d = a.size d := by
  unfold DA.size
  rw [pick_dims, find_pickDim]
  cases hf : a.dims.find? (fun p => p.1 == d) with
  | none => rfl
  | some p =>
    have : p.1 = d := by simpa using List.find?_some hf
    rw [Option.map_some, pickDim_of_ne (this ▸ h)]

theorem pick_iselE {a b : DA V} {d : String} (h : d ≠ x) {i : Int} (ha : a.iselE d i = .ok b) :
    (pick x idx a).iselE d i = .ok (pick x idx b) := by
  unfold DA.iselE at ha ⊢
  rw [pick_dimNames]
  split at ha
  · rename_i hd
    rw [if_pos hd, pick_size a h]
    simp only [bind_ok, pure_ok] at ha
    obtain ⟨k, h1, h2⟩ := ha
    rw [h1, ok_bind, pick_isel a h, h2]
    rfl
  · cases ha

theorem pick_transposeE {a b : DA V} {d : String} (ha : a.transposeE d = .ok b) :
    (pick x idx a).transposeE d = .ok (pick x idx b) := by
  unfold DA.transposeE at ha ⊢
  rw [pick_dimNames]
  split at ha
  · rename_i hd
    rw [if_pos hd]
    cases ha
    congr 1
    show DA.mk _ _ = DA.mk _ _
    congr 1
    rw [show (a.transposeFirst d).dims = a.dims.filter (fun p => p.1 == d) ++ a.dims.filter (fun p => p.1 != d)
      from rfl, List.map_append, pick_dims, filter_map_pickDim _ _ (fun s => s == d),
      filter_map_pickDim _ _ (fun s => s != d)]
    rfl
  · cases ha

variable {K : Type} [Field K] [LinearOrder K]

theorem pick_add (a b : DA (Fl K)) : pick x idx a + pick x idx b = pick x idx (a + b) := pick_zip _ _ _
theorem pick_sub (a b : DA (Fl K)) : pick x idx a - pick x idx b = pick x idx (a - b) := pick_zip _ _ _
theorem pick_mul (a b : DA (Fl K)) : pick x idx a * pick x idx b = pick x idx (a * b) := pick_zip _ _ _
theorem pick_div (a b : DA (Fl K)) : pick x idx a / pick x idx b = pick x idx (a / b) := pick_zip _ _ _

theorem pick_sumDim (a : DA (Fl K)) {d : String} (h : d ≠ x) :
    (pick x idx a).sumDim d = pick x idx (a.sumDim d) := by
  show DA.mk _ _ = DA.mk _ _
  congr 1
  · exact filter_map_pickDim _ _ (fun s => s != d)
  · funext e
    show nansumN _ _ = nansumN _ _
    rw [pick_size a h]
    congr 1
    funext i
    show a.get _ = a.get _
    rw [Function.update_of_ne h.symm, Function.update_comm h]

theorem pick_sumDimE {a b : DA (Fl K)} {d : String} (h : d ≠ x) (ha : a.sumDimE d = .ok b) :
    (pick x idx a).sumDimE d = .ok (pick x idx b) := by
  unfold DA.sumDimE at ha ⊢
  rw [pick_dimNames]
  split at ha
  · rename_i hd
    rw [if_pos hd, pick_sumDim a h, ← Except.ok.inj ha]
  · cases ha

/-! ## Datasets -/

theorem pickDS_lookup (d : DS V) (n : String) :
    (pickDS x idx d).vars.lookup n = (d.vars.lookup n).map (pick x idx) := by
  unfold pickDS
  induction d.vars with
  | nil => rfl
  | cons p l ih =>
    obtain ⟨m, a⟩ := p
    simp only [List.map_cons, List.lookup_cons]
    cases n == m
    · exact ih
    · rfl

theorem pickDS_getVar {d : DS V} {n : String} {a : DA V} (h : d.getVar n = .ok a) :
    (pickDS x idx d).getVar n = .ok (pick x idx a) := by
  rw [getVar_lookup] at h ⊢
  rw [pickDS_lookup, h]
  rfl

theorem pickDS_alldims (d : DS V) : ((pickDS x idx d).vars.flatMap (fun p => p.2.dims))
    = (d.vars.flatMap (fun p => p.2.dims)).map (pickDim x idx.length) := by
  unfold pickDS
  induction d.vars with
  | nil => rfl
  | cons p l ih =>
    simp only [List.map_cons, List.flatMap_cons, List.map_append] at ih ⊢
    rw [ih]
    rfl

theorem lookup_pickDim (m : Nat) (l : List (String × Nat)) {n : String} (h : n ≠ x) :
    (l.map (pickDim x m)).lookup n = l.lookup n := by
  induction l with
  | nil => rfl
  | cons p l ih =>
    have h1 := pickDim_fst x m p
    rw [List.map_cons, ← Prod.mk.eta (p := pickDim x m p), List.lookup_cons, h1, ih,
      ← Prod.mk.eta (p := p), List.lookup_cons]
    by_cases hn : n = p.1
    · subst hn
      rw [pickDim_of_ne h]
    · have : (n == p.1) = false := by simpa using hn
      simp only [this]

/-- The values of `dset[name]` are those picked, for a name other than the dimension. -/
theorem pickDS_getItem {d : DS (Fl K)} {n : String} (hn : n ≠ x) {a : DA (Fl K)} (h : d.getItem n = .ok a) :
    (pickDS x idx d).getItem n = .ok (pick x idx a) := by
  unfold DS.getItem at h ⊢
  rw [pickDS_lookup, pickDS_alldims, lookup_pickDim _ _ hn]
  cases hl : d.vars.lookup n with
  | some b =>
    rw [hl] at h
    cases h
    rfl
  | none =>
    rw [hl] at h
    simp only [Option.map_none] at h ⊢
    split at h
    · rename_i k hk
      cases h
      congr 1
      show DA.mk _ _ = DA.mk _ _
      congr 1
      · exact (map_pickDim_of_not (by simpa using hn.symm)).symm
      · funext e
        show fin _ = fin _
        rw [Function.update_of_ne hn]
    · cases h

theorem rankOf_pick (d : DS (Fl K)) (n : String) : rankOf (pickDS x idx d) n = rankOf d n := by
  unfold rankOf
  rw [pickDS_lookup]
  cases d.vars.lookup n with
  | none => rfl
  | some a => simp [pick]

theorem validate_pick [IsStrictOrderedRing K] {d : DS (Fl K)} {reference strict : Bool} {av : VarsArg}
    (h : validateDataset d reference strict av = .ok ()) :
    validateDataset (pickDS x idx d) reference false av = .ok () := by
  have := (C34_iff d reference strict av).1.1 h
  obtain ⟨a1, a2, a3, a4, a5, a6⟩ := this
  refine (C34_iff _ reference false av).1.2 ⟨?_, ?_, ?_, ?_, ?_, ?_⟩
  · intro v hv; rw [rankOf_pick]; exact a1 v hv
  · rw [rankOf_pick]; exact a2
  · intro r hr; rw [rankOf_pick] at hr; exact a3 r hr
  · intro v hv; rw [rankOf_pick]; exact a4 v hv
  · intro h; cases h
  · intro h
    obtain ⟨b1, b2⟩ := a6 h
    exact ⟨by rw [rankOf_pick]; exact b1, fun v hv => by rw [rankOf_pick]; exact b2 v hv⟩

theorem levelsAlone_pick {d : DS V} {zc : String} (h : levelsAlone d zc = .ok ()) :
    levelsAlone (pickDS x idx d) zc = .ok () := by
  rw [levelsAlone_ok] at h ⊢
  intro p hp hc hz
  obtain ⟨q, hq, rfl⟩ := List.mem_map.1 hp
  obtain ⟨y, hy, hyz⟩ := h q hq hc hz
  exact ⟨y, by rw [pick_dimNames]; exact hy, hyz⟩

theorem pickDS_rename (d : DS V) : (pickDS x idx d).rename none = .ok (pickDS x idx d) := rfl

end Momlevel
