import Verif.Props.TidegaugeCases

/-! # C48 `extract_tidegauge`: a mask with labels of its own -/

set_option linter.unusedSectionVars false

namespace Momlevel.Props
open Momlevel Momlevel.Fl Momlevel.Spec

variable {V : Type}

theorem _root_.Momlevel.Spec.Labels.same {m : LabelledDA} (h : Labels m) {e e' : Env} (he : m.da.InBounds e)
    (he' : m.da.InBounds e') (heq : m.labelsAt e = m.labelsAt e') : m.da.get e = m.da.get e' := by
  refine h.wf _ _ (fun d hd => ?_)
  obtain ⟨p, hp, rfl⟩ := List.mem_map.1 hd
  refine h.inj p hp _ (he p hp) _ (he' p hp) ?_
  unfold LabelledDA.labelsAt at heq
  exact List.map_inj_left.1 heq p hp

theorem lookup_frame {L : List Env} {lab : Env → List (Fl ℝ)} {val : Env → Fl ℝ} {e : Env} (he : e ∈ L)
    (h : ∀ e' ∈ L, lab e' = lab e → val e' = val e) :
    (L.map (fun e => (lab e, val e))).lookup (lab e) = some (val e) := by
  induction L with
  | nil => cases he
  | cons a L ih =>
    rw [List.map_cons, List.lookup_cons]
    by_cases ha : lab e = lab a
    · rw [ha, beq_self_eq_true]
      exact congrArg some (h a (by simp) ha.symm)
    · rw [beq_false_of_ne ha]
      refine ih ?_ (fun e' he' => h e' (List.mem_cons_of_mem _ he'))
      rcases List.mem_cons.1 he with rfl | h1
      · exact absurd rfl ha
      · exact h1

theorem lookup_frame_some {L : List Env} {lab : Env → List (Fl ℝ)} {val : Env → Fl ℝ} {k : List (Fl ℝ)}
    {v : Fl ℝ} (h : (L.map (fun e => (lab e, val e))).lookup k = some v) :
    ∃ e ∈ L, lab e = k ∧ val e = v := by
  induction L with
  | nil => cases h
  | cons a L ih =>
    rw [List.map_cons, List.lookup_cons] at h
    by_cases ha : k = lab a
    · rw [ha, beq_self_eq_true] at h
      exact ⟨a, by simp, ha.symm, Option.some.inj h⟩
    · rw [beq_false_of_ne ha] at h
      obtain ⟨e, he, h1⟩ := ih h
      exact ⟨e, List.mem_cons_of_mem _ he, h1⟩

/-- The rows of the joined table: those with mask 1 and finite coordinates are the wet cells. -/
theorem frame_labels {a : GaugeArray V} {x y m : LabelledDA} (hs : SameGrid a x y) (hm : Labels m)
    {xn yn : String} (hxy : yn ≠ xn) (hxm : "mask" ≠ xn) (hym : "mask" ≠ yn) :
    ∃ F, concatFrames xn yn ((cells x.da.dims).map (fun e => (x.labelsAt e, x.da.get e)))
        ((cells y.da.dims).map (fun e => (y.labelsAt e, y.da.get e)))
        ((cells m.da.dims).map (fun e => (m.labelsAt e, m.da.get e))) = ⟨[xn, yn, "mask"], F⟩ ∧
      (∀ row ∈ F, row.2 "mask" = fin 1 → ∃ e', m.da.InBounds e' ∧ m.labelsAt e' = row.1 ∧ m.da.get e' = fin 1) ∧
      (∀ row ∈ F, row.2 "mask" = fin 1 → ∀ e ∈ cells x.da.dims, row.1 = x.labelsAt e →
        WetByLabel x m e ∧ row.2 yn = y.da.get e ∧ row.2 xn = x.da.get e) ∧
      (∀ row ∈ F, ∀ p : ℝ, row.2 yn = fin p → ∃ e ∈ cells x.da.dims, row.1 = x.labelsAt e) ∧
      (∀ e, x.da.InBounds e → WetByLabel x m e → ∃ row ∈ F, row.2 "mask" = fin 1 ∧ row.2 yn = y.da.get e ∧
        row.2 xn = x.da.get e) := by
  have cx : ∀ vx vy vm, modelColumns xn yn vx vy vm xn = vx := by intros; simp [modelColumns]
  have cy : ∀ vx vy vm, modelColumns xn yn vx vy vm yn = vy := by intros; simp [modelColumns, hxy]
  have cm : ∀ vx vy vm, modelColumns xn yn vx vy vm "mask" = vm := by
    intros; simp [modelColumns, hxm, hym]
  have hyf : (cells y.da.dims).map (fun e => (y.labelsAt e, y.da.get e))
      = (cells x.da.dims).map (fun e => (x.labelsAt e, y.da.get e)) := by
    rw [hs.dims]
    refine List.map_congr_left (fun e he => ?_)
    rw [labelsAt_congr hs.dims (fun p hp k hk => (hs.labels p hp k hk).1) (cells_bound hs.nodup he)]
  have hlx : Labels x := ⟨hs.nodup, hs.inj, hs.wfx⟩
  have hly : ∀ e ∈ cells x.da.dims, ∀ e' ∈ cells x.da.dims, x.labelsAt e' = x.labelsAt e →
      y.da.get e' = y.da.get e := by
    intro e he e' he' heq
    have : Labels ⟨⟨x.da.dims, y.da.get⟩, x.label⟩ := ⟨hs.nodup, hs.inj, fun u v h => hs.wfy u v (by
      unfold DA.dimNames; rw [hs.dims]; exact h)⟩
    exact this.same (cells_bound hs.nodup he') (cells_bound hs.nodup he) heq
  have agree : ∀ e, x.da.InBounds e → ∃ e' ∈ cells x.da.dims, x.da.get e' = x.da.get e ∧
      y.da.get e' = y.da.get e ∧ x.labelsAt e' = x.labelsAt e := by
    intro e he
    obtain ⟨e', hc, hag⟩ := cells_complete x.da.dims e he
    refine ⟨e', hc, hs.wfx _ _ hag, hs.wfy _ _ (by unfold DA.dimNames; rw [hs.dims]; exact hag), ?_⟩
    unfold LabelledDA.labelsAt
    exact List.map_congr_left (fun p hp => by rw [hag p.1 (List.mem_map_of_mem hp)])
  rw [hyf]
  unfold concatFrames
  simp only [List.map_map, Function.comp_def, true_and]
  refine ⟨_, rfl, ?_, ?_, ?_, ?_⟩
  · intro row hrow h1
    split at hrow
    · rename_i him
      obtain ⟨r, hr, rfl⟩ := List.mem_map.1 hrow
      obtain ⟨i, hi, rfl⟩ := List.mem_iff_getElem.1 hr
      simp only [List.length_zip, List.length_map] at hi
      have hix : i < (cells x.da.dims).length := by omega
      have him' : i < (cells m.da.dims).length := by omega
      have hlab : m.labelsAt (cells m.da.dims)[i] = x.labelsAt (cells x.da.dims)[i] := by
        have := congrArg (fun l => l[i]?) him
        simpa [hix, him'] using this
      simp only [List.getElem_zip, List.getElem_map, cm] at h1 ⊢
      exact ⟨_, cells_bound hm.nodup (List.getElem_mem him'), hlab, h1⟩
    · obtain ⟨k, hk, rfl⟩ := List.mem_map.1 hrow
      have h1' := (cm _ _ _).symm.trans h1
      cases lm : ((cells m.da.dims).map (fun e => (m.labelsAt e, m.da.get e))).lookup k with
      | none => rw [lm] at h1'; cases h1'
      | some vm =>
        obtain ⟨em, hem, hl1, hv1⟩ := lookup_frame_some lm
        refine ⟨em, cells_bound hm.nodup hem, hl1, ?_⟩
        rw [hv1]; rw [lm] at h1'; exact h1'
  · intro row hrow h1 e hec hre
    split at hrow
    · rename_i him
      obtain ⟨r, hr, rfl⟩ := List.mem_map.1 hrow
      obtain ⟨i, hi, rfl⟩ := List.mem_iff_getElem.1 hr
      simp only [List.length_zip, List.length_map] at hi
      have hix : i < (cells x.da.dims).length := by omega
      have him' : i < (cells m.da.dims).length := by omega
      have hlab : m.labelsAt (cells m.da.dims)[i] = x.labelsAt (cells x.da.dims)[i] := by
        have := congrArg (fun l => l[i]?) him
        simpa [hix, him'] using this
      simp only [List.getElem_zip, List.getElem_map, cx, cy, cm] at h1 hre ⊢
      refine ⟨⟨_, cells_bound hm.nodup (List.getElem_mem him'), hlab.trans hre, h1⟩, ?_, ?_⟩
      · exact hly _ hec _ (List.getElem_mem hix) hre
      · exact hlx.same (cells_bound hs.nodup (List.getElem_mem hix)) (cells_bound hs.nodup hec) hre
    · obtain ⟨k, hk, rfl⟩ := List.mem_map.1 hrow
      have h1' := (cm _ _ _).symm.trans h1
      simp only at hre
      subst hre
      refine ⟨?_, (cy _ _ _).trans ?_, (cx _ _ _).trans ?_⟩
      · cases lm : ((cells m.da.dims).map (fun e => (m.labelsAt e, m.da.get e))).lookup (x.labelsAt e) with
        | none => rw [lm] at h1'; cases h1'
        | some vm =>
          obtain ⟨em, hem, hl1, hv1⟩ := lookup_frame_some lm
          refine ⟨em, cells_bound hm.nodup hem, hl1, ?_⟩
          rw [hv1]; rw [lm] at h1'; exact h1'
      · rw [lookup_frame hec (fun e' he' heq => hly e hec e' he' heq)]
        rfl
      · rw [lookup_frame hec (fun e' he' heq => hlx.same (cells_bound hs.nodup he')
          (cells_bound hs.nodup hec) heq)]
        rfl
  · intro row hrow p hp
    split at hrow
    · obtain ⟨r, hr, rfl⟩ := List.mem_map.1 hrow
      obtain ⟨i, hi, rfl⟩ := List.mem_iff_getElem.1 hr
      simp only [List.length_zip, List.length_map] at hi
      have hix : i < (cells x.da.dims).length := by omega
      simp only [List.getElem_zip, List.getElem_map]
      exact ⟨_, List.getElem_mem hix, rfl⟩
    · obtain ⟨k, hk, rfl⟩ := List.mem_map.1 hrow
      have hp' := (cy _ _ _).symm.trans hp
      cases ly : ((cells x.da.dims).map (fun e => (x.labelsAt e, y.da.get e))).lookup k with
      | none => rw [ly] at hp'; cases hp'
      | some vy =>
        obtain ⟨e, hee, hl2, hv2⟩ := lookup_frame_some ly
        exact ⟨e, hee, hl2.symm⟩
  · intro e0 he0 hw
    obtain ⟨e, hec, hx0, hy0, hl0⟩ := agree e0 he0
    obtain ⟨em0, hm0, hlm0, hv0⟩ := hw
    obtain ⟨em, hemc, hag⟩ := cells_complete m.da.dims em0 hm0
    have hlm : m.labelsAt em = x.labelsAt e := by
      refine Eq.trans ?_ (hlm0.trans hl0.symm)
      unfold LabelledDA.labelsAt
      exact List.map_congr_left (fun p hp => by rw [hag p.1 (List.mem_map_of_mem hp)])
    have hvm : m.da.get em = fin 1 := by rw [← hv0]; exact hm.wf _ _ hag
    rw [← hx0, ← hy0]
    split
    · rename_i him
      obtain ⟨i, hix, rfl⟩ := List.mem_iff_getElem.1 hec
      have him' : i < (cells m.da.dims).length := by
        have := congrArg List.length him
        simp only [List.length_map] at this
        omega
      have hlab : m.labelsAt (cells m.da.dims)[i] = x.labelsAt (cells x.da.dims)[i] := by
        have := congrArg (fun l => l[i]?) him
        simpa [hix, him'] using this
      have hmi : m.da.get (cells m.da.dims)[i] = fin 1 := by
        rw [← hvm]
        exact hm.same (cells_bound hm.nodup (List.getElem_mem him')) (cells_bound hm.nodup hemc)
          (hlab.trans hlm.symm)
      refine ⟨_, List.mem_map.2 ⟨_, List.getElem_mem (n := i) ?_, rfl⟩, ?_, ?_, ?_⟩
      · simp only [List.length_zip, List.length_map]
        omega
      · simp only [List.getElem_zip, List.getElem_map, cm]
        exact hmi
      · simp only [List.getElem_zip, List.getElem_map, cy]
      · simp only [List.getElem_zip, List.getElem_map, cx]
    · refine ⟨_, List.mem_map.2 ⟨x.labelsAt e, ?_, rfl⟩, ?_, ?_, ?_⟩
      · rw [List.mem_eraseDups]
        simp only [List.mem_append, List.mem_map]
        exact Or.inl (Or.inl ⟨e, hec, rfl⟩)
      · refine (cm _ _ _).trans ?_
        rw [← hlm, lookup_frame hemc (fun e' he' heq => hm.same (cells_bound hm.nodup he')
          (cells_bound hm.nodup hemc) heq), hvm]
        rfl
      · refine (cy _ _ _).trans ?_
        rw [lookup_frame hec (fun e' he' heq => hly e hec e' he' heq)]
        rfl
      · refine (cx _ _ _).trans ?_
        rw [lookup_frame hec (fun e' he' heq => hlx.same (cells_bound hs.nodup he')
          (cells_bound hs.nodup hec) heq)]
        rfl

theorem gauges_labels {a : GaugeArray V} {x y m : LabelledDA} (hs : SameGrid a x y) (hm : Labels m)
    {xn yn : String} (hxy : yn ≠ xn) (hxm : "mask" ≠ xn) (hym : "mask" ≠ yn) {T : BallTree}
    {locs : LocFrame} {thr : Option ℝ} {dw : Bool} {rows : List (Located (List (Fl ℝ)))}
    {warns : List String} {columns : List String} {entries : List (String × DA V)}
    (hg : geolocatePoints T (concatFrames xn yn ((cells x.da.dims).map (fun e => (x.labelsAt e, x.da.get e)))
        ((cells y.da.dims).map (fun e => (y.labelsAt e, y.da.get e)))
        ((cells m.da.dims).map (fun e => (m.labelsAt e, m.da.get e)))) locs
        (thr.map fin) (yn, xn) (fin 6378) ("lat", "lon") true dw = .ok (rows, warns))
    (he : rows.mapM (extractPoint a columns x.da.dimNames) = .ok entries) :
    GaugesRight a.da x.da.dimNames ⟨y.da.get, x.da.get, WetByLabel x m, x.da.InBounds⟩ thr locs.rows
      (pyDict entries) := by
  obtain ⟨F, hF, -, h2, h3, h4⟩ := frame_labels (xn := xn) (yn := yn) hs hm hxy hxm hym
  rw [hF] at hg
  refine gauges_frame hs (fun row hr h1 p q hp hq => ?_) h4 hg he
  obtain ⟨e, hec, hre⟩ := h3 row hr p hp
  obtain ⟨k1, k2, k3⟩ := h2 row hr h1 e hec hre
  exact ⟨e, hec, k1, hre, k2, k3⟩

/-- `extract_tidegauge` matches mask and coordinates by label: as `C48_value`, for any mask whose labels
identify its positions, whatever their order and number. -/
theorem C48_mask_labels {T : BallTree} {files : String → Option LocFrame} {a : GaugeArray V}
    {xarg yarg : AxisArg} {csv : String} {m : LabelledDA} {thr : Option ℝ} {dw : Bool}
    {xn yn : String} {x y : LabelledDA} (hx : Denotes a xarg xn x) (hy : Denotes a yarg yn y)
    (hxy : yn ≠ xn) (hxm : "mask" ≠ xn) (hym : "mask" ≠ yn)
    (hdim : x.da.dims.length ≠ 1) (hs : SameGrid a x y) (hm : Labels m)
    {out : List (String × DA V)}
    (h : extractTidegauge T files (.da a) xarg yarg csv (.da m) (thr.map fin) dw = .ok out) :
    ∃ gauges, files (gaugeFile csv) = some gauges ∧
      GaugesRight a.da x.da.dimNames ⟨y.da.get, x.da.get, WetByLabel x m, x.da.InBounds⟩ thr
        gauges.rows out := by
  obtain ⟨x', y', fx, fy, fm, locs, rows, warns, entries, ht, hfx, hfy, hfm, hl, hg, he, rfl⟩ :=
    extract_ok hx hy h
  unfold tileIfFlat at ht
  rw [if_neg (by exact hdim)] at ht
  cases Except.ok.inj ht
  have hm' : Labels (resolveMask x (.da m)) := ⟨hm.nodup, hm.inj, fun e e' hee => by
    show Fl.fillna _ _ = Fl.fillna _ _
    rw [hm.wf e e' hee]⟩
  have hmd : m.da.dims ≠ [] := by
    intro h0
    have : (resolveMask x (.da m)).da.dims = [] := h0
    unfold LabelledDA.toFrame at hfm
    rw [this] at hfm
    cases hfm
  have hwet : WetByLabel x (resolveMask x (.da m)) = WetByLabel x m := by
    funext e
    unfold WetByLabel
    have := congrFun (wet_resolve x (.da m))
    simp only [this]
    rfl
  rw [toFrame_eq hs.some_dim] at hfx
  rw [toFrame_eq (hs.dims ▸ hs.some_dim)] at hfy
  rw [toFrame_eq (by exact hmd)] at hfm
  rw [← Except.ok.inj hfx, ← Except.ok.inj hfy, ← Except.ok.inj hfm] at hg
  rw [readGauges_eq] at hl
  cases hf : files (gaugeFile csv) with
  | none => rw [hf] at hl; simp at hl
  | some t =>
    rw [hf] at hl
    refine ⟨t, rfl, ?_⟩
    have := gauges_labels hs hm' hxy hxm hym hg he
    rw [← Except.ok.inj hl, hwet] at this
    exact this

/-- A mask with a wet cell at labels that the coordinates do not have makes the call fail. -/
theorem C48_mask_outside {T : BallTree} {files : String → Option LocFrame} {a : GaugeArray V}
    {xarg yarg : AxisArg} {csv : String} {m : LabelledDA} {thr : Option (Fl ℝ)} {dw : Bool}
    {xn yn : String} {x y : LabelledDA} (hx : Denotes a xarg xn x) (hy : Denotes a yarg yn y)
    (hxm : "mask" ≠ xn) (hym : "mask" ≠ yn)
    (hdim : x.da.dims.length ≠ 1) (hs : SameGrid a x y) (hm : Labels m)
    {e' : Env} (he' : m.da.InBounds e') (hw : m.da.get e' = fin 1)
    (hout : ∀ e, x.da.InBounds e →
      m.da.dims.map (fun p => m.label p.1 (e' p.1)) ≠ x.da.dims.map (fun p => x.label p.1 (e p.1)))
    (out : List (String × DA V)) :
    extractTidegauge T files (.da a) xarg yarg csv (.da m) thr dw ≠ .ok out := by
  intro h
  obtain ⟨x', y', fx, fy, fm, locs, rows, warns, entries, ht, hfx, hfy, hfm, hl, hg, he, rfl⟩ :=
    extract_ok hx hy h
  unfold tileIfFlat at ht
  rw [if_neg (by exact hdim)] at ht
  cases Except.ok.inj ht
  have hm' : Labels (resolveMask x (.da m)) := ⟨hm.nodup, hm.inj, fun e e' hee => by
    show Fl.fillna _ _ = Fl.fillna _ _
    rw [hm.wf e e' hee]⟩
  have hmd : (resolveMask x (.da m)).da.dims ≠ [] := by
    intro h0
    unfold LabelledDA.toFrame at hfm
    rw [h0] at hfm
    cases hfm
  have hw' : (resolveMask x (.da m)).da.get e' = fin 1 := by
    have := congrFun (wet_resolve x (.da m)) e'
    exact this.mpr hw
  have hb' : (resolveMask x (.da m)).da.InBounds e' := he'
  have ho' : ∀ e ∈ cells x.da.dims, x.labelsAt e ≠ (resolveMask x (.da m)).labelsAt e' :=
    fun e hec heq => hout e (cells_bound hs.nodup hec) heq.symm
  rw [toFrame_eq hs.some_dim] at hfx
  rw [toFrame_eq (hs.dims ▸ hs.some_dim)] at hfy
  rw [toFrame_eq hmd] at hfm
  rw [← Except.ok.inj hfx, ← Except.ok.inj hfy, ← Except.ok.inj hfm] at hg
  generalize resolveMask x (.da m) = M at *
  have cx : ∀ vx vy vm, modelColumns xn yn vx vy vm xn = vx := by intros; simp [modelColumns]
  have cm : ∀ vx vy vm, modelColumns xn yn vx vy vm "mask" = vm := by
    intros; simp [modelColumns, hxm, hym]
  obtain ⟨em, hemc, hag⟩ := cells_complete M.da.dims e' hb'
  have hlab : M.labelsAt em = M.labelsAt e' := by
    unfold LabelledDA.labelsAt
    exact List.map_congr_left (fun p hp => by rw [hag p.1 (List.mem_map_of_mem hp)])
  have hvm : M.da.get em = fin 1 := by rw [← hw']; exact hm'.wf _ _ hag
  obtain ⟨d, pts, qs, -, -, -, hp, -⟩ := geolocate_ok hg
  rw [maskRows_eq, if_pos ⟨rfl, by simp [concatFrames]⟩] at hp
  have hrow : ∃ row ∈ (concatFrames xn yn ((cells x.da.dims).map (fun e => (x.labelsAt e, x.da.get e)))
        ((cells y.da.dims).map (fun e => (y.labelsAt e, y.da.get e)))
        ((cells M.da.dims).map (fun e => (M.labelsAt e, M.da.get e)))).rows,
      row.2 "mask" = fin 1 ∧ row.2 xn = nan := by
    unfold concatFrames
    simp only [List.map_map, Function.comp_def]
    rw [if_neg]
    · refine ⟨_, List.mem_map.2 ⟨M.labelsAt em, ?_, rfl⟩, (cm _ _ _).trans ?_, (cx _ _ _).trans ?_⟩
      · rw [List.mem_eraseDups]
        simp only [List.mem_append, List.mem_map]
        exact Or.inr ⟨em, hemc, rfl⟩
      · rw [lookup_frame hemc (fun e' he' heq => hm'.same (cells_bound hm'.nodup he')
          (cells_bound hm'.nodup hemc) heq), hvm]
        rfl
      · cases lx : ((cells x.da.dims).map (fun e => (x.labelsAt e, x.da.get e))).lookup (M.labelsAt em) with
        | none => rfl
        | some v =>
          obtain ⟨e, hec, h1, -⟩ := lookup_frame_some lx
          exact absurd (h1.trans hlab) (ho' e hec)
    · rintro ⟨-, h2⟩
      have : M.labelsAt em ∈ (cells x.da.dims).map (fun e => x.labelsAt e) := by
        rw [← h2]
        exact List.mem_map.2 ⟨em, hemc, rfl⟩
      obtain ⟨e, hec, h1⟩ := List.mem_map.1 this
      exact ho' e hec (h1.trans hlab)
  obtain ⟨row, hr1, hr2, hr3⟩ := hrow
  have : (npRadians (row.2 yn), npRadians (row.2 xn)) ∈ pts.map (fun p => ((fin p.1, fin p.2) : Fl ℝ × Fl ℝ)) := by
    rw [← hp]
    exact List.mem_map.2 ⟨row, List.mem_filter.2 ⟨hr1, by simpa using hr2⟩, rfl⟩
  obtain ⟨p, -, hpp⟩ := List.mem_map.1 this
  have h2 := (Prod.mk.inj hpp).2
  rw [hr3] at h2
  cases h2

/-- The run succeeds for a mask with labels of its own when it has a wet cell, its wet cells are at labels of the
coordinates, and these have finite values there. -/
theorem C48_mask_success (T : BallTree) {files : String → Option LocFrame} {a : GaugeArray V}
    {xarg yarg : AxisArg} {csv : String} {m : LabelledDA} (thr : Option (Fl ℝ)) (dw : Bool)
    {xn yn : String} {x y : LabelledDA} (hx : Denotes a xarg xn x) (hy : Denotes a yarg yn y)
    (hxy : yn ≠ xn) (hxm : "mask" ≠ xn) (hym : "mask" ≠ yn)
    (hdim : x.da.dims.length ≠ 1) (hs : SameGrid a x y) (hm : Labels m) (hmd : m.da.dims ≠ [])
    {gauges : LocFrame} (hf : files (gaugeFile csv) = some gauges)
    (hname : "name" ∈ gauges.columns ∨ "PSMSL_site" ∈ gauges.columns)
    (hlat : "lat" ∈ gauges.columns) (hlon : "lon" ∈ gauges.columns) (hne : gauges.rows ≠ [])
    (hfin : ∀ r ∈ gauges.rows, ∃ p q : ℝ, r.2 "lat" = fin p ∧ r.2 "lon" = fin q)
    (hwet : ∃ e, x.da.InBounds e ∧ WetByLabel x m e)
    (hin : ∀ e', m.da.InBounds e' → m.da.get e' = fin 1 → ∃ e, x.da.InBounds e ∧
      m.da.dims.map (fun p => m.label p.1 (e' p.1)) = x.da.dims.map (fun p => x.label p.1 (e p.1)))
    (hcoord : ∀ e, x.da.InBounds e → WetByLabel x m e →
      ∃ p q : ℝ, y.da.get e = fin p ∧ x.da.get e = fin q) :
    ∃ out, extractTidegauge T files (.da a) xarg yarg csv (.da m) thr dw = .ok out := by
  have hm' : Labels (resolveMask x (.da m)) := ⟨hm.nodup, hm.inj, fun e e' hee => by
    show Fl.fillna _ _ = Fl.fillna _ _
    rw [hm.wf e e' hee]⟩
  have hw := congrFun (wet_resolve x (.da m))
  have hwet' : WetByLabel x (resolveMask x (.da m)) = WetByLabel x m := by
    funext e
    unfold WetByLabel
    simp only [hw]
    rfl
  obtain ⟨F, hF, h1, h2, h3, h4⟩ := frame_labels (xn := xn) (yn := yn) hs hm' hxy hxm hym
  refine success_frame T thr dw hx hy hdim hs hmd (by simp) hf hname hlat hlon hne hfin hF ?_ ?_
  · obtain ⟨e, he, hwe⟩ := hwet
    obtain ⟨row, hr, hr1, -⟩ := h4 e he (by rw [hwet']; exact hwe)
    exact ⟨row, hr, hr1⟩
  · intro row hr hr1
    obtain ⟨e', hb, hl, hv⟩ := h1 row hr hr1
    obtain ⟨e0, he0, hl0⟩ := hin e' hb ((hw e').mp hv)
    obtain ⟨e, hec, hag⟩ := cells_complete x.da.dims e0 he0
    have hle : row.1 = x.labelsAt e := by
      rw [← hl]
      refine hl0.trans ?_
      unfold LabelledDA.labelsAt
      exact List.map_congr_left (fun p hp => by rw [hag p.1 (List.mem_map_of_mem hp)])
    obtain ⟨k1, k2, k3⟩ := h2 row hr hr1 e hec hle
    rw [hwet'] at k1
    obtain ⟨p, q, hp, hq⟩ := hcoord e (cells_bound hs.nodup hec) k1
    exact ⟨⟨p, q, k2.trans hp, k3.trans hq⟩, e, hec, hle⟩

/-- A mask on the grid of the example whose second dimension is stored in the other order: wet at the label 0. -/
noncomputable def tgMask : LabelledDA where
  da := ⟨[("yh", 2), ("xh", 2)], fun e => if e "xh" = 1 then fin 1 else fin 0⟩
  label := fun d k => if d = "xh" then fin (1 - (k : ℝ)) else fin (k : ℝ)

theorem tgMask_labels : Labels tgMask where
  nodup := by simp [tgMask]
  inj := by
    intro p hp k _ k' _ h
    simp only [tgMask, List.mem_cons, List.not_mem_nil, or_false] at hp h
    rcases hp with rfl | rfl
    · simpa using h
    · simpa using h
  wf := by
    intro e e' h
    simp only [tgMask]
    rw [h "xh" (by simp [DA.dimNames, tgMask])]

theorem tgMask_wet (e : Env) (h2 : e "yh" < 2) : WetByLabel ⟨tgX, tgLabel⟩ tgMask e ↔ e "xh" = 0 := by
  constructor
  · rintro ⟨e', hb, hl, hw⟩
    have hx : e' "xh" = 1 := by
      by_contra hne
      simp only [tgMask, hne, if_false] at hw
      exact absurd (Fl.fin.inj hw) (by norm_num)
    simp only [tgMask, tgX, tgLabel, List.map_cons, List.map_nil, if_true, hx] at hl
    have := (List.cons.inj (List.cons.inj hl).2).1
    simpa [eq_comm] using this
  · intro hx
    refine ⟨Function.update e "xh" 1, ?_, ?_, ?_⟩
    · intro p hp
      simp only [tgMask, List.mem_cons, List.not_mem_nil, or_false] at hp
      rcases hp with rfl | rfl
      · simpa using h2
      · simp
    · simp [tgMask, tgX, tgLabel, hx]
    · simp [tgMask]

/-- The mask makes the cells with `xh` = 0 wet and the others dry; the call goes through. -/
example (T : BallTree) : ∃ out, extractTidegauge T (fun _ => some tgGauges) (.da tgArr)
      (mask := .da tgMask) = .ok out ∧
    GaugesRight tgArr.da ["yh", "xh"] ⟨tgY.get, tgX.get, WetByLabel ⟨tgX, tgLabel⟩ tgMask, tgX.InBounds⟩ none
      tgGauges.rows out := by
  have hx : Denotes tgArr (.name "geolon") "geolon" ⟨tgX, tgLabel⟩ := Denotes.name _ _ rfl
  have hy : Denotes tgArr (.name "geolat") "geolat" ⟨tgY, tgLabel⟩ := Denotes.name _ _ rfl
  have hb0 : tgX.InBounds (fun _ => 0) := by
    intro p hp
    simp only [tgX, List.mem_cons, List.not_mem_nil, or_false] at hp
    rcases hp with rfl | rfl <;> simp
  obtain ⟨out, h⟩ := C48_mask_success T (files := fun _ => some tgGauges) (csv := "us") (m := tgMask)
    none true hx hy (by simp) (by simp) (by simp) (by simp [tgX]) tgSame tgMask_labels (by simp [tgMask])
    (gauges := tgGauges) rfl (by simp [tgGauges]) (by simp [tgGauges]) (by simp [tgGauges])
    (by simp [tgGauges])
    (by
      intro r hr
      simp only [tgGauges, List.mem_singleton] at hr
      exact ⟨10, 0, by rw [hr]; simp, by rw [hr]; simp⟩)
    ⟨fun _ => 0, hb0, (tgMask_wet _ (by simp)).2 rfl⟩
    (by
      intro e' hb hv
      have hx1 : e' "xh" = 1 := by
        by_contra hne
        simp only [tgMask, hne, if_false] at hv
        exact absurd (Fl.fin.inj hv) (by norm_num)
      refine ⟨Function.update e' "xh" 0, ?_, by simp [tgMask, tgX, tgLabel, hx1]⟩
      intro p hp
      simp only [tgX, List.mem_cons, List.not_mem_nil, or_false] at hp
      rcases hp with rfl | rfl
      · have := hb ("yh", 2) (by simp [tgMask])
        simpa using this
      · simp)
    (by
      intro e _ _
      exact ⟨_, _, rfl, rfl⟩)
  refine ⟨out, h, ?_⟩
  obtain ⟨g, hg, hr⟩ := C48_mask_labels (thr := none) hx hy (by simp) (by simp) (by simp) (by simp [tgX])
    tgSame tgMask_labels h
  cases Option.some.inj hg
  exact hr

end Momlevel.Props
