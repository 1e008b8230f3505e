import Verif.Model.Tidegauge
import Verif.Spec.Tidegauge
import Verif.Props.Geolocate
import Verif.Props.Util

/-! # C48 `extract_tidegauge` -/

set_option linter.unusedSectionVars false

namespace Momlevel.Props
open Momlevel Momlevel.Fl Momlevel.Spec

variable {V : Type}

/-! ## Python dictionaries -/

theorem dictSet_new {α : Type} {d : List (String × α)} {k : String} {v : α}
    (hk : k ∉ d.map Prod.fst) : dictSet d k v = d ++ [(k, v)] := by
  unfold dictSet
  rw [if_neg (by simpa using hk)]

theorem dictSet_old {α : Type} {d : List (String × α)} {k : String} {v : α}
    (hk : k ∈ d.map Prod.fst) :
    dictSet d k v = d.map (fun p => if p.1 = k then (k, v) else p) := by
  unfold dictSet
  rw [if_pos (by simpa using hk)]

theorem dictSet_keys {α : Type} (d : List (String × α)) (k : String) (v : α)
    (h : (d.map Prod.fst).Nodup) : ((dictSet d k v).map Prod.fst).Nodup := by
  by_cases hk : k ∈ d.map Prod.fst
  · rw [dictSet_old hk, List.map_map]
    have : d.map (Prod.fst ∘ fun p => if p.1 = k then (k, v) else p) = d.map Prod.fst := by
      refine List.map_congr_left (fun p _ => ?_)
      rw [Function.comp_apply]
      split
      · rename_i h; exact h.symm
      · rfl
    rw [this]
    exact h
  · rw [dictSet_new hk, List.map_append]
    refine List.Nodup.append h (by simp) ?_
    simpa using hk

theorem lookup_append {α : Type} (a b : List (String × α)) (q : String) :
    (a ++ b).lookup q = (a.lookup q).or (b.lookup q) := by
  induction a with
  | nil => simp
  | cons p a ih =>
    rw [List.cons_append, List.lookup_cons, List.lookup_cons]
    cases q == p.1 <;> simp [ih]

theorem lookup_none {α : Type} {d : List (String × α)} {k : String} (h : k ∉ d.map Prod.fst) :
    d.lookup k = none := by
  induction d with
  | nil => rfl
  | cons p d ih =>
    simp only [List.map_cons, List.mem_cons, not_or] at h
    rw [List.lookup_cons, beq_false_of_ne h.1]
    exact ih h.2

theorem mem_keys_iff {α : Type} {d : List (String × α)} {k : String} :
    k ∈ d.map Prod.fst ↔ (d.lookup k).isSome = true := by
  constructor
  · intro h
    obtain ⟨a, ha⟩ := lookup_isSome h
    rw [ha]; rfl
  · intro h
    by_contra hk
    rw [lookup_none hk] at h
    simp at h

theorem lookup_update {α : Type} (d : List (String × α)) (k : String) (v : α) (q : String)
    (hk : k ∈ d.map Prod.fst) :
    (d.map (fun p => if p.1 = k then (k, v) else p)).lookup q
      = if q = k then some v else d.lookup q := by
  induction d with
  | nil => simp at hk
  | cons p d ih =>
    rw [List.map_cons, List.lookup_cons, List.lookup_cons]
    by_cases hp : p.1 = k
    · rw [if_pos hp]
      by_cases hq : q = k
      · simp [hq]
      · rw [beq_false_of_ne hq, beq_false_of_ne (hp ▸ hq), if_neg hq]
        by_cases hm : k ∈ d.map Prod.fst
        · rw [ih hm, if_neg hq]
        · have : d.map (fun p => if p.1 = k then (k, v) else p) = d := by
            conv_rhs => rw [← List.map_id d]
            refine List.map_congr_left (fun r hr => ?_)
            rw [if_neg (fun h : r.1 = k => hm (h ▸ List.mem_map_of_mem hr)), id]
          rw [this]
    · rw [if_neg hp]
      have hm : k ∈ d.map Prod.fst := by
        simp only [List.map_cons, List.mem_cons] at hk
        exact hk.resolve_left (fun h => hp h.symm)
      by_cases hq : q = p.1
      · subst hq; simp [hp]
      · rw [beq_false_of_ne hq, ih hm]

theorem dictSet_lookup {α : Type} (d : List (String × α)) (k : String) (v : α) (q : String) :
    (dictSet d k v).lookup q = if q = k then some v else d.lookup q := by
  by_cases hk : k ∈ d.map Prod.fst
  · rw [dictSet_old hk, lookup_update _ _ _ _ hk]
  · rw [dictSet_new hk, lookup_append]
    by_cases hq : q = k
    · subst hq
      rw [lookup_none hk]; simp
    · rw [if_neg hq, List.lookup_cons, beq_false_of_ne hq]; simp

theorem pyDict_append {α : Type} (l : List (String × α)) (p : String × α) :
    pyDict (l ++ [p]) = dictSet (pyDict l) p.1 p.2 := by
  unfold pyDict
  rw [List.foldl_append]
  rfl

theorem pyDict_keys {α : Type} (l : List (String × α)) : ((pyDict l).map Prod.fst).Nodup := by
  induction l using List.reverseRecOn with
  | nil => simp [pyDict]
  | append_singleton l p ih => rw [pyDict_append]; exact dictSet_keys _ _ _ ih

theorem pyDict_lookup {α : Type} (l : List (String × α)) (q : String) :
    (pyDict l).lookup q = ((l.filter (fun p => decide (p.1 = q))).getLast?).map Prod.snd := by
  induction l using List.reverseRecOn with
  | nil => simp [pyDict]
  | append_singleton l p ih =>
    rw [pyDict_append, dictSet_lookup, List.filter_append]
    by_cases h : q = p.1
    · subst h; simp
    · have h' : ¬ p.1 = q := fun h' => h h'.symm
      rw [if_neg h, ih]
      simp [h']

/-! ## Cells and labels -/

theorem cells_bound {D : List (String × Nat)} (hD : (D.map Prod.fst).Nodup) {e : Env}
    (h : e ∈ cells D) : ∀ p ∈ D, e p.1 < p.2 := by
  induction D generalizing e with
  | nil => simp
  | cons q D ih =>
    obtain ⟨d, n⟩ := q
    simp only [cells, List.mem_flatMap, List.mem_range, List.mem_map] at h
    obtain ⟨k, hk, e', he', rfl⟩ := h
    simp only [List.map_cons, List.nodup_cons] at hD
    intro p hp
    rcases List.mem_cons.1 hp with rfl | hp
    · simpa using hk
    · have hne : p.1 ≠ d := fun h => hD.1 (h ▸ List.mem_map_of_mem hp)
      rw [Function.update_of_ne hne]
      exact ih hD.2 he' p hp

theorem cells_complete (D : List (String × Nat)) (e : Env) (h : ∀ p ∈ D, e p.1 < p.2) :
    ∃ e' ∈ cells D, ∀ d ∈ D.map Prod.fst, e' d = e d := by
  induction D with
  | nil => exact ⟨fun _ => 0, by simp [cells], by simp⟩
  | cons q D ih =>
    obtain ⟨d, n⟩ := q
    obtain ⟨e', he', hag⟩ := ih (fun p hp => h p (List.mem_cons_of_mem _ hp))
    refine ⟨Function.update e' d (e d), ?_, ?_⟩
    · simp only [cells, List.mem_flatMap, List.mem_range, List.mem_map]
      exact ⟨e d, h (d, n) (by simp), e', he', rfl⟩
    · intro x hx
      by_cases hxd : x = d
      · subst hxd; simp
      · rw [Function.update_of_ne hxd]
        simp only [List.map_cons, List.mem_cons] at hx
        exact hag x (hx.resolve_left hxd)

theorem toFrame_eq {x : LabelledDA} (h : x.da.dims ≠ []) :
    x.toFrame = .ok ((cells x.da.dims).map (fun e => (x.labelsAt e, x.da.get e))) := by
  unfold LabelledDA.toFrame
  cases hd : x.da.dims with
  | nil => exact absurd hd h
  | cons p D => rfl

theorem labelsAt_congr {x y : LabelledDA} (hd : y.da.dims = x.da.dims)
    (hl : ∀ p ∈ x.da.dims, ∀ k < p.2, y.label p.1 k = x.label p.1 k)
    {e : Env} (he : ∀ p ∈ x.da.dims, e p.1 < p.2) : y.labelsAt e = x.labelsAt e := by
  unfold LabelledDA.labelsAt
  rw [hd]
  exact List.map_congr_left (fun p hp => hl p hp _ (he p hp))

theorem concat_same (xn yn : String) {x y m : LabelledDA} {a : GaugeArray V} (hs : SameGrid a x y)
    (hm : MaskOn x m) :
    concatFrames xn yn ((cells x.da.dims).map (fun e => (x.labelsAt e, x.da.get e)))
      ((cells y.da.dims).map (fun e => (y.labelsAt e, y.da.get e)))
      ((cells m.da.dims).map (fun e => (m.labelsAt e, m.da.get e)))
    = ⟨[xn, yn, "mask"], (cells x.da.dims).map (fun e =>
        (x.labelsAt e, modelColumns xn yn (x.da.get e) (y.da.get e) (m.da.get e)))⟩ := by
  have h1 : (cells y.da.dims).map (fun e => (y.labelsAt e, y.da.get e))
      = (cells x.da.dims).map (fun e => (x.labelsAt e, y.da.get e)) := by
    rw [hs.dims]
    refine List.map_congr_left (fun e he => ?_)
    rw [labelsAt_congr hs.dims (fun p hp k hk => (hs.labels p hp k hk).1) (cells_bound hs.nodup he)]
  have h2 : (cells m.da.dims).map (fun e => (m.labelsAt e, m.da.get e))
      = (cells x.da.dims).map (fun e => (x.labelsAt e, m.da.get e)) := by
    rw [hm.dims]
    refine List.map_congr_left (fun e he => ?_)
    rw [labelsAt_congr hm.dims hm.labels (cells_bound hs.nodup he)]
  rw [h1, h2]
  unfold concatFrames
  simp only [List.map_map]
  rw [if_pos ⟨rfl, rfl⟩]
  congr 1
  rw [List.zip_map', List.zip_map', List.map_map]
  rfl

theorem find_label {a : GaugeArray V} {x y : LabelledDA} (hs : SameGrid a x y)
    {p : String × Nat} (hp : p ∈ x.da.dims) {k : Nat} (hk : k < p.2) :
    labelPos a p.1 (x.label p.1 k) = .ok (p.1, k) := by
  have hf : a.da.dims.find? (fun q => q.1 == p.1) = some p := by
    have hmem := hs.arr p hp
    have hnd := hs.arr_nodup
    generalize a.da.dims = D at hmem hnd
    induction D with
    | nil => simp at hmem
    | cons q D ih =>
      simp only [List.map_cons, List.nodup_cons] at hnd
      rw [List.find?_cons]
      by_cases hq : q = p
      · subst hq; simp
      · have hm : p ∈ D := (List.mem_cons.1 hmem).resolve_left (fun h => hq h.symm)
        have : q.1 ≠ p.1 := fun h => hnd.1 (h ▸ List.mem_map_of_mem hm)
        rw [beq_false_of_ne this]
        exact ih hm hnd.2
  unfold labelPos
  rw [hf]
  simp only
  cases hfind : (List.range p.2).find? (fun j => decide (a.label p.1 j = x.label p.1 k)) with
  | none =>
    have := List.find?_eq_none.1 hfind k (List.mem_range.2 hk)
    exact absurd (hs.labels p hp k hk).2 (by simpa using this)
  | some j =>
    have h1 := List.find?_some hfind
    have h2 := List.mem_range.1 (List.mem_of_find?_eq_some hfind)
    simp only [decide_eq_true_eq] at h1
    rw [(hs.labels p hp j h2).2] at h1
    rw [hs.inj p hp j h2 k hk h1]

theorem selLabels_eq {a : GaugeArray V} {x y : LabelledDA} (hs : SameGrid a x y) {e : Env}
    (he : ∀ p ∈ x.da.dims, e p.1 < p.2) :
    selLabels a x.da.dimNames (x.labelsAt e) = .ok (seriesAt a.da x.da.dimNames e) := by
  unfold selLabels LabelledDA.labelsAt DA.dimNames
  rw [List.zip_map', mapM_some_ok (g := fun q : String × Fl ℝ => (q.1, e q.1)), ok_bind]
  · show Except.ok _ = Except.ok _
    unfold seriesAt
    congr 2
    · refine List.filter_congr (fun q _ => ?_)
      simp
    · funext env
      congr 1
      funext d
      by_cases hd : d ∈ x.da.dims.map Prod.fst
      · rw [if_pos hd]
        have : (x.da.dims.map ((fun q : String × Fl ℝ => (q.1, e q.1)) ∘
            fun p => (p.1, x.label p.1 (e p.1)))).lookup d = some (e d) := by
          clear he
          generalize x.da.dims = D at hd
          induction D with
          | nil => simp at hd
          | cons p D ih =>
            rw [List.map_cons, List.lookup_cons]
            by_cases hp : d = p.1
            · simp [hp]
            · simp only [Function.comp_apply, beq_false_of_ne hp]
              exact ih ((List.mem_cons.1 hd).resolve_left hp)
        rw [List.map_map, this]
        rfl
      · rw [if_neg hd, lookup_none]
        · rfl
        · rw [List.map_map, List.map_map]
          exact hd
  · intro q hq
    obtain ⟨p, hp, rfl⟩ := List.mem_map.1 hq
    exact find_label hs hp (he p hp)

theorem mapM_ok_map {α β : Type} {f : α → Except PyErr β} {g : α → β} {l : List α} {r : List β}
    (h : l.mapM f = .ok r) (hf : ∀ a ∈ l, ∀ b, f a = .ok b → b = g a) : r = l.map g := by
  induction l generalizing r with
  | nil => exact (Except.ok.inj h).symm
  | cons a l ih =>
    rw [List.mapM_cons] at h
    obtain ⟨b, hb, h⟩ := bind_ok.1 h
    obtain ⟨r', hr', h⟩ := bind_ok.1 h
    rw [← Except.ok.inj h, ih hr' (fun c hc => hf c (List.mem_cons_of_mem _ hc)),
      hf a (by simp) b hb]
    rfl

/-- The grid of a pair of coordinates and a mask. -/
def gridOf (x y m : LabelledDA) : Grid :=
  ⟨y.da.get, x.da.get, fun e => m.da.get e = fin 1, x.da.InBounds⟩

/-- The row is within the threshold. -/
noncomputable def rowKept {I : Type} (thr : Option ℝ) (r : Located I) : Bool :=
  match thr with
  | none => true
  | some t => atMost t r

/-- The result is right for every table of model points whose usable rows are the wet cells. -/
theorem gauges_frame {a : GaugeArray V} {x y : LabelledDA} (hs : SameGrid a x y) {wet : Env → Prop}
    {F : List (List (Fl ℝ) × (String → Fl ℝ))} {xn yn : String} {T : BallTree}
    (hF : ∀ row ∈ F, row.2 "mask" = fin 1 → ∀ p q : ℝ, row.2 yn = fin p → row.2 xn = fin q →
      ∃ e ∈ cells x.da.dims, wet e ∧ row.1 = x.labelsAt e ∧ row.2 yn = y.da.get e ∧ row.2 xn = x.da.get e)
    (hW : ∀ e, x.da.InBounds e → wet e → ∃ row ∈ F, row.2 "mask" = fin 1 ∧ row.2 yn = y.da.get e ∧
      row.2 xn = x.da.get e)
    {locs : LocFrame} {thr : Option ℝ} {dw : Bool} {rows : List (Located (List (Fl ℝ)))}
    {warns : List String} {columns : List String} {entries : List (String × DA V)}
    (hg : geolocatePoints T ⟨[xn, yn, "mask"], F⟩ locs
        (thr.map fin) (yn, xn) (fin 6378) ("lat", "lon") true dw = .ok (rows, warns))
    (he : rows.mapM (extractPoint a columns x.da.dimNames) = .ok entries) :
    GaugesRight a.da x.da.dimNames ⟨y.da.get, x.da.get, wet, x.da.InBounds⟩ thr locs.rows (pyDict entries) := by
  classical
  obtain ⟨all, hall, hnone, hsome, _⟩ := C46_map hg
  rw [if_pos ⟨rfl, by simp⟩] at hall
  -- the cell of a row
  let P : Located (List (Fl ℝ)) → Env → Prop := fun r e => e ∈ cells x.da.dims ∧ wet e ∧
    r.dim_vals = x.labelsAt e ∧ r.model_coords = (y.da.get e, x.da.get e)
  let cellOf : Located (List (Fl ℝ)) → Env := fun r =>
    if h : ∃ e, P r e then h.choose else fun _ => 0
  have hcell : ∀ r, (∃ e, P r e) → P r (cellOf r) := by
    intro r h
    simp only [cellOf, dif_pos h]
    exact h.choose_spec
  have hrow : ∀ loc r, MapsTo (F.filter (fun r => r.2 "mask" = fin 1)) yn xn "lat" "lon" 6378 loc r →
      P r (cellOf r) ∧ r.name = loc.1 ∧ NearestWet ⟨y.da.get, x.da.get, wet, x.da.InBounds⟩ loc (cellOf r) ∧
      r.distance = fin (gaugeDistance ⟨y.da.get, x.da.get, wet, x.da.InBounds⟩ loc (cellOf r)) := by
    rintro loc r ⟨hn, _, _, row, p, q, hi, hdv, hmc, hpy, hpx, hqy, hqx, hd, hmin⟩
    have hmem := List.mem_filter.1 (List.mem_of_getElem? hi)
    simp only [decide_eq_true_eq] at hmem
    obtain ⟨e, hec, hwe, hle, hye, hxe⟩ := hF row hmem.1 hmem.2 _ _ hpy hpx
    have hP : P r (cellOf r) := hcell r ⟨e, hec, hwe, hdv.trans hle, by rw [hmc, hye, hxe]⟩
    obtain ⟨h1, h2, h3, h4⟩ := hP
    rw [hmc, hpy, hpx] at h4
    have hy' : y.da.get (cellOf r) = fin p.1 := ((Prod.mk.inj h4).1).symm
    have hx' : x.da.get (cellOf r) = fin p.2 := ((Prod.mk.inj h4).2).symm
    have hdist : gaugeDistance ⟨y.da.get, x.da.get, wet, x.da.InBounds⟩ loc (cellOf r) = 6378 * centralAngle q p := by
      simp only [gaugeDistance, hy', hx', hqy, hqx, real]
    refine ⟨⟨h1, h2, h3, by rw [hmc, hpy, hpx, h4]⟩, hn, ⟨cells_bound hs.nodup h1, h2, ?_⟩, ?_⟩
    · intro e' he' hw'
      obtain ⟨row', hm1, hm2, hy1, hx1⟩ := hW e' he' hw'
      obtain ⟨p', hpy', hpx', hle⟩ := hmin row' (List.mem_filter.2 ⟨hm1, by simpa using hm2⟩)
      rw [hy1] at hpy'
      rw [hx1] at hpx'
      rw [hdist]
      simp only [gaugeDistance, hpx', hpy', hqy, hqx, real]
      exact mul_le_mul_of_nonneg_left hle (by norm_num)
    · rw [hd, hdist]
  -- what is extracted
  have hent : entries = rows.map (fun r => (r.name, seriesAt a.da x.da.dimNames (cellOf r))) := by
    refine mapM_ok_map he (fun r hr b hb => ?_)
    have hr' : r ∈ all := by
      cases thr with
      | none => rw [hnone rfl] at hr; exact hr
      | some t => rw [hsome t rfl] at hr; exact (List.mem_filter.1 hr).1
    obtain ⟨i, hi, rfl⟩ := List.mem_iff_getElem.1 hr'
    have := (List.forall₂_iff_get.1 hall).2 i (by rw [(List.forall₂_iff_get.1 hall).1]; exact hi) hi
    obtain ⟨⟨h1, _, h3, _⟩, _, _, _⟩ := hrow _ _ this
    simp only [List.get_eq_getElem] at h1 h3
    unfold extractPoint at hb
    obtain ⟨_, _, hb⟩ := bind_ok.1 hb
    rw [h3, selLabels_eq hs (cells_bound hs.nodup h1), ok_bind] at hb
    exact (Except.ok.inj hb).symm
  refine ⟨pyDict_keys _, all.map cellOf, ?_, ?_⟩
  · rw [List.forall₂_map_right_iff]
    exact hall.imp (fun loc r h => (hrow loc r h).2.2.1)
  · intro name
    rw [pyDict_lookup, hent]
    have hrows : rows = all.filter (rowKept thr) := by
      cases thr with
      | none => rw [hnone rfl]; exact (List.filter_eq_self.2 (fun _ _ => rfl)).symm
      | some t => rw [hsome t rfl]; rfl
    have key : (rows.map (fun r => (r.name, seriesAt a.da x.da.dimNames (cellOf r)))).filter
        (fun p => decide (p.1 = name))
        = ((locs.rows.zip (all.map cellOf)).filter (fun p => kept ⟨y.da.get, x.da.get, wet, x.da.InBounds⟩ thr p.1 p.2 &&
          decide (p.1.1 = name))).map (fun p => (p.1.1, seriesAt a.da x.da.dimNames p.2)) := by
      rw [hrows]
      clear hrows hent he hg hnone hsome
      generalize locs.rows = L at hall
      induction hall with
      | nil => simp
      | @cons loc r ls rs h _ ih =>
        obtain ⟨_, hn, _, hd⟩ := hrow _ _ h
        have hk : rowKept thr r = kept ⟨y.da.get, x.da.get, wet, x.da.InBounds⟩ thr loc (cellOf r) := by
          cases thr with
          | none => rfl
          | some t => simp only [rowKept, atMost, hd, kept]
        rw [List.map_cons, List.zip_cons_cons, List.filter_cons, List.filter_cons]
        rw [hk]
        cases h1 : kept ⟨y.da.get, x.da.get, wet, x.da.InBounds⟩ thr loc (cellOf r)
        · rw [if_neg (by simp), if_neg (by simp), ih]
        · rw [if_pos rfl, List.map_cons, List.filter_cons, hn, Bool.true_and]
          by_cases h2 : loc.1 = name
          · rw [if_pos (by simpa using h2), if_pos (by simpa using h2), List.map_cons, ih]
          · rw [if_neg (by simpa using h2), if_neg (by simpa using h2), ih]
    rw [key, List.getLast?_map, Option.map_map]
    rfl

theorem gauges_core {a : GaugeArray V} {x y m : LabelledDA} (hs : SameGrid a x y) (hm : MaskOn x m)
    {xn yn : String} (hxy : yn ≠ xn) (hxm : "mask" ≠ xn) (hym : "mask" ≠ yn) {T : BallTree}
    {locs : LocFrame} {thr : Option ℝ} {dw : Bool} {rows : List (Located (List (Fl ℝ)))}
    {warns : List String} {columns : List String} {entries : List (String × DA V)}
    (hg : geolocatePoints T ⟨[xn, yn, "mask"], (cells x.da.dims).map (fun e =>
        (x.labelsAt e, modelColumns xn yn (x.da.get e) (y.da.get e) (m.da.get e)))⟩ locs
        (thr.map fin) (yn, xn) (fin 6378) ("lat", "lon") true dw = .ok (rows, warns))
    (he : rows.mapM (extractPoint a columns x.da.dimNames) = .ok entries) :
    GaugesRight a.da x.da.dimNames (gridOf x y m) thr locs.rows (pyDict entries) := by
  have cx : ∀ vx vy vm, modelColumns xn yn vx vy vm xn = vx := by intros; simp [modelColumns]
  have cy : ∀ vx vy vm, modelColumns xn yn vx vy vm yn = vy := by intros; simp [modelColumns, hxy]
  have cm : ∀ vx vy vm, modelColumns xn yn vx vy vm "mask" = vm := by
    intros; simp [modelColumns, hxm, hym]
  refine gauges_frame hs (wet := fun e => m.da.get e = fin 1) ?_ ?_ hg he
  · intro row hrow h1 p q _ _
    obtain ⟨e, hec, rfl⟩ := List.mem_map.1 hrow
    exact ⟨e, hec, (cm _ _ _).symm.trans h1, rfl, cy _ _ _, cx _ _ _⟩
  · intro e' he' hw'
    obtain ⟨e'', hc'', hag⟩ := cells_complete x.da.dims e' he'
    have ex : x.da.get e'' = x.da.get e' := hs.wfx _ _ hag
    have ey : y.da.get e'' = y.da.get e' := hs.wfy _ _ (by
      unfold DA.dimNames; rw [hs.dims]; exact hag)
    have em : m.da.get e'' = m.da.get e' := hm.wf _ _ (by
      unfold DA.dimNames; rw [hm.dims]; exact hag)
    exact ⟨_, List.mem_map.2 ⟨e'', hc'', rfl⟩, (cm _ _ _).trans (em.trans hw'), (cy _ _ _).trans ey,
      (cx _ _ _).trans ex⟩

/-! ## The whole function -/

theorem resolveAxis_denotes {a : GaugeArray V} {arg : AxisArg} {n : String} {c : LabelledDA}
    (h : Denotes a arg n c) : resolveAxis a arg = .ok (n, c) := by
  cases h with
  | da => rfl
  | name _ _ h => simp only [resolveAxis, h]

theorem readGauges_eq (files : String → Option LocFrame) (csv : String) : readGauges files csv =
    match files (gaugeFile csv) with
    | some t => .ok ⟨t.columns.map (fun c => if c = "PSMSL_site" then "name" else c), t.rows⟩
    | none => .error .assertionError := by
  have : (if csv = "us" then "momlevel/resources/us_tide_gauges.csv"
    else if csv = "global" then "momlevel/resources/global_tide_gauges.csv" else csv)
      = gaugeFile csv := by
    by_cases h1 : csv = "us"
    · subst h1; rfl
    · by_cases h2 : csv = "global"
      · subst h2; rfl
      · rw [if_neg h1, if_neg h2]
        unfold gaugeFile
        split
        · exact absurd rfl h1
        · exact absurd rfl h2
        · rfl
  unfold readGauges
  simp only [this]
  cases files (gaugeFile csv) <;> rfl

theorem radius_default : (6.378e03 : Fl ℝ) = fin 6378 := by rw [ofSci]; norm_num

theorem maskOn_resolve {x : LabelledDA} {mask : MaskArg} (hm : ∀ m, mask = .da m → MaskOn x m) : MaskOn x (resolveMask x mask) := by
  cases mask with
  | da m =>
    obtain ⟨h1, h2, h3⟩ := hm m rfl
    refine ⟨h1, h2, ?_⟩
    intro e e' h
    show Fl.fillna _ _ = Fl.fillna _ _
    rw [h3 e e' h]
  | none => exact ⟨rfl, fun _ _ _ _ => rfl, fun _ _ _ => rfl⟩
  | other => exact ⟨rfl, fun _ _ _ _ => rfl, fun _ _ _ => rfl⟩

theorem wet_resolve (x : LabelledDA) (mask : MaskArg) :
    (fun e => (resolveMask x mask).da.get e = fin 1) = maskWet mask := by
  funext e
  cases mask with
  | da m =>
    show (Fl.fillna (0.0 : Fl ℝ) (m.da.get e) = fin 1) = (m.da.get e = fin 1)
    have h0 : (0.0 : Fl ℝ) = fin 0 := by rw [ofSci]; norm_num
    rw [h0]
    cases m.da.get e <;> simp [Fl.fillna]
  | none => exact eq_true rfl
  | other => exact eq_true rfl

/-- What a successful run consists of. -/
theorem extract_ok {T : BallTree} {files : String → Option LocFrame} {a : GaugeArray V}
    {xarg yarg : AxisArg} {csv : String} {mask : MaskArg} {thr : Option (Fl ℝ)} {dw : Bool}
    {xn yn : String} {x y : LabelledDA} (hx : Denotes a xarg xn x) (hy : Denotes a yarg yn y)
    {out : List (String × DA V)}
    (h : extractTidegauge T files (.da a) xarg yarg csv mask thr dw = .ok out) :
    ∃ x' y' fx fy fm locs rows warns entries, tileIfFlat (xn, x) (yn, y) = .ok (x', y') ∧
      x'.2.toFrame = .ok fx ∧ y'.2.toFrame = .ok fy ∧ (resolveMask x'.2 mask).toFrame = .ok fm ∧
      readGauges files csv = .ok locs ∧
      geolocatePoints T (concatFrames x'.1 y'.1 fx fy fm) locs thr (y'.1, x'.1) (fin 6378)
        ("lat", "lon") true dw = .ok (rows, warns) ∧
      rows.mapM (extractPoint a locs.columns x'.2.da.dimNames) = .ok entries ∧
      out = pyDict entries := by
  unfold extractTidegauge at h
  simp only [bind_ok, ArrArg.get, radius_default] at h
  obtain ⟨_, _, a', ha, x0, hx0, y0, hy0, _, _, ⟨x', y'⟩, ht, fx, hfx, fy, hfy, fm, hfm, locs, hl,
    ⟨rows, warns⟩, hg, entries, he, h⟩ := h
  cases Except.ok.inj ha
  rw [resolveAxis_denotes hx] at hx0
  rw [resolveAxis_denotes hy] at hy0
  cases Except.ok.inj hx0
  cases Except.ok.inj hy0
  exact ⟨x', y', fx, fy, fm, locs, rows, warns, entries, ht, hfx, hfy, hfm, hl, hg, he,
    (Except.ok.inj h).symm⟩

/-- `extract_tidegauge` with two-dimensional coordinates: every gauge is assigned a nearest wet cell; the
result has one variable for each distinct name of a gauge within the threshold, holding the input's values
at the cell of the last such gauge. -/
theorem C48_value {T : BallTree} {files : String → Option LocFrame} {a : GaugeArray V}
    {xarg yarg : AxisArg} {csv : String} {mask : MaskArg} {thr : Option ℝ} {dw : Bool}
    {xn yn : String} {x y : LabelledDA} (hx : Denotes a xarg xn x) (hy : Denotes a yarg yn y)
    (hxy : yn ≠ xn) (hxm : "mask" ≠ xn) (hym : "mask" ≠ yn)
    (hdim : x.da.dims.length ≠ 1) (hs : SameGrid a x y) (hm : ∀ m, mask = .da m → MaskOn x m)
    {out : List (String × DA V)}
    (h : extractTidegauge T files (.da a) xarg yarg csv mask (thr.map fin) dw = .ok out) :
    ∃ gauges, files (gaugeFile csv) = some gauges ∧
      GaugesRight a.da x.da.dimNames ⟨y.da.get, x.da.get, maskWet mask, x.da.InBounds⟩ thr
        gauges.rows out := by
  obtain ⟨x', y', fx, fy, fm, locs, rows, warns, entries, ht, hfx, hfy, hfm, hl, hg, he, rfl⟩ :=
    extract_ok hx hy h
  unfold tileIfFlat at ht
  rw [if_neg (by exact hdim)] at ht
  cases Except.ok.inj ht
  have hmo := maskOn_resolve hm
  rw [toFrame_eq hs.some_dim] at hfx
  rw [toFrame_eq (hs.dims ▸ hs.some_dim)] at hfy
  rw [toFrame_eq (hmo.dims ▸ hs.some_dim)] at hfm
  rw [← Except.ok.inj hfx, ← Except.ok.inj hfy, ← Except.ok.inj hfm, concat_same _ _ hs hmo] at hg
  rw [readGauges_eq] at hl
  cases hf : files (gaugeFile csv) with
  | none => rw [hf] at hl; simp at hl
  | some t =>
    rw [hf] at hl
    refine ⟨t, rfl, ?_⟩
    have := gauges_core hs hmo hxy hxm hym hg he
    rw [← Except.ok.inj hl] at this
    rw [← wet_resolve x mask]
    exact this

/-- The names of the result are those of the gauges within the threshold of their cell. -/
theorem C48_names {a : DA V} {dims : List String} {g : Grid} {thr : Option ℝ}
    {gauges : List (String × (String → Fl ℝ))} {out : List (String × DA V)}
    (h : GaugesRight a dims g thr gauges out) :
    ∃ cell : List Env, List.Forall₂ (NearestWet g) gauges cell ∧
      ∀ name, name ∈ out.map Prod.fst ↔
        ∃ p ∈ gauges.zip cell, p.1.1 = name ∧ kept g thr p.1 p.2 = true := by
  obtain ⟨_, cell, hc, hl⟩ := h
  refine ⟨cell, hc, fun name => ?_⟩
  have hlast : ∀ {A : Type} (l : List A), l.getLast?.isSome = true ↔ ¬ l = [] := by
    intro A l
    rw [← List.getLast?_eq_none_iff, ← Option.isNone_iff_eq_none]
    simp
  rw [mem_keys_iff, hl, Option.isSome_map, hlast, List.filter_eq_nil_iff]
  simp only [Bool.and_eq_true, decide_eq_true_eq, not_and, not_forall, not_not]
  constructor
  · rintro ⟨p, hp, hk, hn⟩; exact ⟨p, hp, hn, hk⟩
  · rintro ⟨p, hp, hn, hk⟩; exact ⟨p, hp, hk, hn⟩

/-- The run with two-dimensional coordinates succeeds for every table of model points that has usable rows, all
of them at finite coordinates and cells of the grid. -/
theorem success_frame (T : BallTree) {files : String → Option LocFrame} {a : GaugeArray V}
    {xarg yarg : AxisArg} {csv : String} {mask : MaskArg} (thr : Option (Fl ℝ)) (dw : Bool)
    {xn yn : String} {x y : LabelledDA} (hx : Denotes a xarg xn x) (hy : Denotes a yarg yn y)
    (hdim : x.da.dims.length ≠ 1) (hs : SameGrid a x y) (hmd : (resolveMask x mask).da.dims ≠ [])
    (hmask : mask ≠ .other) {gauges : LocFrame} (hf : files (gaugeFile csv) = some gauges)
    (hname : "name" ∈ gauges.columns ∨ "PSMSL_site" ∈ gauges.columns)
    (hlat : "lat" ∈ gauges.columns) (hlon : "lon" ∈ gauges.columns) (hne : gauges.rows ≠ [])
    (hfin : ∀ r ∈ gauges.rows, ∃ p q : ℝ, r.2 "lat" = fin p ∧ r.2 "lon" = fin q)
    {F : List (List (Fl ℝ) × (String → Fl ℝ))}
    (hF : concatFrames xn yn ((cells x.da.dims).map (fun e => (x.labelsAt e, x.da.get e)))
      ((cells y.da.dims).map (fun e => (y.labelsAt e, y.da.get e)))
      ((cells (resolveMask x mask).da.dims).map (fun e =>
        ((resolveMask x mask).labelsAt e, (resolveMask x mask).da.get e))) = ⟨[xn, yn, "mask"], F⟩)
    (hwet : ∃ row ∈ F, row.2 "mask" = fin 1)
    (hcoord : ∀ row ∈ F, row.2 "mask" = fin 1 → (∃ p q : ℝ, row.2 yn = fin p ∧ row.2 xn = fin q) ∧
      ∃ e ∈ cells x.da.dims, row.1 = x.labelsAt e) :
    ∃ out, extractTidegauge T files (.da a) xarg yarg csv mask thr dw = .ok out := by
  have hval : validateTidegaugeData (ArrArg.da a).tg xarg.tg yarg.tg mask.tg = .ok () := by
    have hk : ∀ (arg : AxisArg) (n : String) (c : LabelledDA), Denotes a arg n c →
        checkTgCoord (a.coords.map Prod.fst) arg.tg = .ok () := by
      intro arg n c h
      cases h with
      | da => rfl
      | name _ _ h =>
        unfold checkTgCoord AxisArg.tg
        simp only
        have : n ∈ a.coords.map Prod.fst := by rw [mem_keys_iff, h]; rfl
        rw [List.contains_iff_mem.2 this]
        rfl
    simp only [validateTidegaugeData, ArrArg.tg, TgArg.isDataArray, pyAssert_true, ok_bind,
      hk _ _ _ hx, hk _ _ _ hy]
    cases mask with
    | none => rfl
    | da m => rfl
    | other => exact absurd rfl hmask
  have hcol : ∀ c, c ≠ "PSMSL_site" → c ∈ gauges.columns →
      c ∈ gauges.columns.map (fun c => if c = "PSMSL_site" then "name" else c) := by
    intro c hc h
    exact List.mem_map.2 ⟨c, h, if_neg hc⟩
  have hname' : "name" ∈ gauges.columns.map (fun c => if c = "PSMSL_site" then "name" else c) := by
    rcases hname with h | h
    · exact hcol _ (by simp) h
    · exact List.mem_map.2 ⟨_, h, if_pos rfl⟩
  obtain ⟨rows, warns, hg⟩ := C46_success T ⟨[xn, yn, "mask"], F⟩
    ⟨gauges.columns.map (fun c => if c = "PSMSL_site" then "name" else c), gauges.rows⟩ thr
    (yc := yn) (xc := xn) (lat := "lat") (lon := "lon") (fin 6378) true dw (by simp) (by simp)
    (hcol _ (by simp) hlat) (hcol _ (by simp) hlon) (hcol _ (by simp) hlat) (hcol _ (by simp) hlon)
    hname' rfl (by
      rw [if_pos ⟨rfl, by simp⟩, ne_eq, List.filter_eq_nil_iff]
      intro hall
      obtain ⟨row, hr, hr1⟩ := hwet
      exact hall row hr (by simpa using hr1)) hne (by
      intro r hr
      rw [if_pos ⟨rfl, by simp⟩] at hr
      obtain ⟨hr, h1⟩ := List.mem_filter.1 hr
      exact (hcoord r hr (by simpa using h1)).1) hfin
  have hent : ∃ entries, rows.mapM (extractPoint a
      (gauges.columns.map (fun c => if c = "PSMSL_site" then "name" else c)) x.da.dimNames)
      = .ok entries := by
    have : ∀ r ∈ rows, ∃ e, (∀ p ∈ x.da.dims, e p.1 < p.2) ∧ r.dim_vals = x.labelsAt e := by
      obtain ⟨d, pts, qs, hpne, hl, _, _, _, _, hr⟩ := geolocate_ok hg
      intro r hr'
      rw [hr] at hr'
      obtain ⟨s, hs', rfl⟩ := List.mem_map.1 hr'
      have := (List.of_mem_zip (mem_withinThreshold hs')).2
      obtain ⟨q, _, hq⟩ := List.mem_map.1 this
      have hlt : s.2.2 < (maskRows (⟨[xn, yn, "mask"], F⟩ : ModelFrame (List (Fl ℝ))) true).length := by
        rw [← hq, hl]
        exact T.query_lt pts q hpne
      have hmem := List.getElem_mem hlt
      simp only [mkRow, List.getElem?_eq_getElem hlt, Option.getD_some]
      generalize hgen : (maskRows (⟨[xn, yn, "mask"], F⟩ : ModelFrame (List (Fl ℝ))) true)[s.2.2] = row at hmem
      rw [maskRows_eq, if_pos ⟨rfl, by simp⟩] at hmem
      obtain ⟨hm1, hm2⟩ := List.mem_filter.1 hmem
      obtain ⟨e, hc, hre⟩ := (hcoord row hm1 (by simpa using hm2)).2
      exact ⟨e, cells_bound hs.nodup hc, hre⟩
    choose! cell hcell hdv using this
    refine ⟨_, mapM_some_ok (g := fun r => (r.name, seriesAt a.da x.da.dimNames (cell r))) ?_⟩
    intro r hr
    unfold extractPoint
    rw [needColumn_ok.2 hname', ok_bind, hdv r hr, selLabels_eq hs (hcell r hr)]
    rfl
  obtain ⟨entries, hent⟩ := hent
  refine ⟨pyDict entries, ?_⟩
  unfold extractTidegauge
  have hnd : (x.da.ndim == y.da.ndim) = true := by
    simp [DA.ndim, hs.dims]
  simp only [hval, ok_bind, ArrArg.get, resolveAxis_denotes hx, resolveAxis_denotes hy, hnd,
    pyAssert_true, radius_default]
  have ht : tileIfFlat (xn, x) (yn, y) = .ok ((xn, x), (yn, y)) := by
    unfold tileIfFlat
    exact if_neg hdim
  rw [ht]
  simp only [ok_bind, toFrame_eq hs.some_dim, toFrame_eq (hs.dims ▸ hs.some_dim : y.da.dims ≠ []),
    toFrame_eq hmd, hF,
    readGauges_eq, hf, hg, hent]
  rfl

/-- The run with two-dimensional coordinates succeeds when there is a wet cell, wet cells and gauges have
finite coordinates and the table of gauges has the documented columns and is not empty. -/
theorem C48_success (T : BallTree) {files : String → Option LocFrame} {a : GaugeArray V}
    {xarg yarg : AxisArg} {csv : String} {mask : MaskArg} (thr : Option (Fl ℝ)) (dw : Bool)
    {xn yn : String} {x y : LabelledDA} (hx : Denotes a xarg xn x) (hy : Denotes a yarg yn y)
    (hxy : yn ≠ xn) (hxm : "mask" ≠ xn) (hym : "mask" ≠ yn)
    (hdim : x.da.dims.length ≠ 1) (hs : SameGrid a x y) (hm : ∀ m, mask = .da m → MaskOn x m)
    (hmask : mask ≠ .other) {gauges : LocFrame} (hf : files (gaugeFile csv) = some gauges)
    (hname : "name" ∈ gauges.columns ∨ "PSMSL_site" ∈ gauges.columns)
    (hlat : "lat" ∈ gauges.columns) (hlon : "lon" ∈ gauges.columns) (hne : gauges.rows ≠ [])
    (hfin : ∀ r ∈ gauges.rows, ∃ p q : ℝ, r.2 "lat" = fin p ∧ r.2 "lon" = fin q)
    (hwet : ∃ e, x.da.InBounds e ∧ maskWet mask e)
    (hcoord : ∀ e, x.da.InBounds e → maskWet mask e →
      ∃ p q : ℝ, y.da.get e = fin p ∧ x.da.get e = fin q) :
    ∃ out, extractTidegauge T files (.da a) xarg yarg csv mask thr dw = .ok out := by
  have hmo := maskOn_resolve hm
  have cx : ∀ vx vy vm, modelColumns xn yn vx vy vm xn = vx := by intros; simp [modelColumns]
  have cy : ∀ vx vy vm, modelColumns xn yn vx vy vm yn = vy := by intros; simp [modelColumns, hxy]
  have cm : ∀ vx vy vm, modelColumns xn yn vx vy vm "mask" = vm := by
    intros; simp [modelColumns, hxm, hym]
  have hw : ∀ e, ((resolveMask x mask).da.get e = fin 1) = maskWet mask e := fun e =>
    congrFun (wet_resolve x mask) e
  refine success_frame T thr dw hx hy hdim hs (hmo.dims ▸ hs.some_dim) hmask hf hname hlat hlon hne hfin
    (concat_same _ _ hs hmo) ?_ ?_
  · obtain ⟨e, he, hwe⟩ := hwet
    obtain ⟨e', hc, hag⟩ := cells_complete x.da.dims e he
    refine ⟨_, List.mem_map.2 ⟨e', hc, rfl⟩, (cm _ _ _).trans ?_⟩
    rw [hmo.wf e' e (by unfold DA.dimNames; rw [hmo.dims]; exact hag), hw]
    exact hwe
  · intro row hr h1
    obtain ⟨e, hc, rfl⟩ := List.mem_map.1 hr
    refine ⟨?_, e, hc, rfl⟩
    simp only [cx, cy]
    exact hcoord e (cells_bound hs.nodup hc) (by rw [← hw]; exact (cm _ _ _).symm.trans h1)

/-- Land cells are never selected. -/
theorem C48_wet {a : DA V} {dims : List String} {g : Grid} {thr : Option ℝ}
    {gauges : List (String × (String → Fl ℝ))} {out : List (String × DA V)}
    (h : GaugesRight a dims g thr gauges out) {name : String} {s : DA V} (hs : (name, s) ∈ out) :
    ∃ e, g.inside e ∧ g.wet e ∧ s = seriesAt a dims e := by
  obtain ⟨hn, cell, hc, hl⟩ := h
  have := hl name
  rw [lookup_of_mem hn hs] at this
  cases hlast : (((gauges.zip cell).filter (fun p => kept g thr p.1 p.2 &&
      decide (p.1.1 = name))).getLast?) with
  | none => rw [hlast] at this; simp at this
  | some p =>
    rw [hlast] at this
    have hp := (List.mem_filter.1 (List.mem_of_getLast? hlast)).1
    have hnear := List.forall₂_zip hc hp
    exact ⟨p.2, hnear.1, hnear.2.1, Option.some.inj this⟩

end Momlevel.Props
