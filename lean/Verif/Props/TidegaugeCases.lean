import Verif.Props.Tidegauge

/-! # C48 `extract_tidegauge`: one-dimensional coordinates, lost gauges, transposed coordinates -/

set_option linter.unusedSectionVars false

namespace Momlevel.Props
open Momlevel Momlevel.Fl Momlevel.Spec

variable {V : Type}

/-- The labels of tiled coordinates. -/
def tileLabel (xn yn : String) (x y : LabelledDA) : String → Nat → Fl ℝ := fun d k =>
  if d = yn then y.da.get (Function.update (fun _ => 0) yn k)
  else x.da.get (Function.update (fun _ => 0) xn k)

theorem tileIfFlat_flat {x y : LabelledDA} {xn yn : String} {nx ny : Nat}
    (hx : x.da.dims = [(xn, nx)]) (hy : y.da.dims = [(yn, ny)]) (hxy : yn ≠ xn) :
    tileIfFlat (xn, x) (yn, y) = .ok
      (("geolon", ⟨⟨[(yn, ny), (xn, nx)],
          fun e => x.da.get (Function.update (fun _ => 0) xn (e xn))⟩, tileLabel xn yn x y⟩),
        ("geolat", ⟨⟨[(yn, ny), (xn, nx)],
          fun e => y.da.get (Function.update (fun _ => 0) yn (e yn))⟩, tileLabel xn yn x y⟩)) := by
  have hnd : x.da.ndim = 1 := by rw [DA.ndim, hx]; rfl
  unfold tileIfFlat
  rw [if_pos hnd]
  unfold tileAxes tileNominalCoords tileArrays
  simp only [hx, hy]
  rw [if_pos ⟨trivial, trivial, fun h => hxy h.symm⟩]
  rfl

theorem get_update {c : LabelledDA} {n : String} {k : Nat} (hd : c.da.dims = [(n, k)]) (hwf : c.da.WF)
    (e : Env) : c.da.get (Function.update (fun _ => 0) n (e n)) = c.da.get e := by
  apply hwf
  intro d h
  unfold DA.dimNames at h
  rw [hd] at h
  simp only [List.map_cons, List.map_nil, List.mem_singleton] at h
  subst h
  simp

/-- `extract_tidegauge` with one-dimensional coordinates: as `C48_value`, on the grid of all pairs of a
latitude and a longitude. -/
theorem C48_flat {T : BallTree} {files : String → Option LocFrame} {a : GaugeArray V}
    {xarg yarg : AxisArg} {csv : String} {mask : MaskArg} {thr : Option ℝ} {dw : Bool}
    {xn yn : String} {x y : LabelledDA} (hx : Denotes a xarg xn x) (hy : Denotes a yarg yn y)
    {nx ny : Nat} (hdx : x.da.dims = [(xn, nx)]) (hdy : y.da.dims = [(yn, ny)]) (hxy : yn ≠ xn)
    (hwx : x.da.WF) (hwy : y.da.WF)
    (hlx : ∀ e, e xn < nx → a.label xn (e xn) = x.da.get e)
    (hly : ∀ e, e yn < ny → a.label yn (e yn) = y.da.get e)
    (hix : ∀ e e', e xn < nx → e' xn < nx → x.da.get e = x.da.get e' → e xn = e' xn)
    (hiy : ∀ e e', e yn < ny → e' yn < ny → y.da.get e = y.da.get e' → e yn = e' yn)
    (hax : (xn, nx) ∈ a.da.dims) (hay : (yn, ny) ∈ a.da.dims) (had : (a.da.dims.map Prod.fst).Nodup)
    (hm : ∀ m, mask = .da m → m.da.dims = [(yn, ny), (xn, nx)] ∧ m.da.WF ∧
      (∀ e, e xn < nx → m.label xn (e xn) = x.da.get e) ∧
      (∀ e, e yn < ny → m.label yn (e yn) = y.da.get e))
    {out : List (String × DA V)}
    (h : extractTidegauge T files (.da a) xarg yarg csv mask (thr.map fin) dw = .ok out) :
    ∃ gauges, files (gaugeFile csv) = some gauges ∧
      GaugesRight a.da [yn, xn] ⟨y.da.get, x.da.get, maskWet mask, fun e => e yn < ny ∧ e xn < nx⟩ thr
        gauges.rows out := by
  obtain ⟨x', y', fx, fy, fm, locs, rows, warns, entries, ht, hfx, hfy, hfm, hl, hg, he, rfl⟩ :=
    extract_ok hx hy h
  rw [tileIfFlat_flat hdx hdy hxy] at ht
  obtain ⟨rfl, rfl⟩ := Prod.mk.inj (Except.ok.inj ht)
  have hxd : xn ≠ yn := fun h => hxy h.symm
  have lx : ∀ k, tileLabel xn yn x y xn k = x.da.get (Function.update (fun _ => 0) xn k) := fun k => by
    unfold tileLabel; rw [if_neg hxd]
  have ly : ∀ k, tileLabel xn yn x y yn k = y.da.get (Function.update (fun _ => 0) yn k) := fun k => by
    unfold tileLabel; rw [if_pos rfl]
  have ux : ∀ k, (Function.update (fun _ => 0) xn k : Env) xn = k := fun k => by simp
  have uy : ∀ k, (Function.update (fun _ => 0) yn k : Env) yn = k := fun k => by simp
  have hs : SameGrid a
      ⟨⟨[(yn, ny), (xn, nx)], fun e => x.da.get (Function.update (fun _ => 0) xn (e xn))⟩,
        tileLabel xn yn x y⟩
      ⟨⟨[(yn, ny), (xn, nx)], fun e => y.da.get (Function.update (fun _ => 0) yn (e yn))⟩,
        tileLabel xn yn x y⟩ := by
    refine ⟨rfl, by simp, by simp [hxy], ?_, ?_, ?_, had, ?_, ?_⟩
    · intro p hp k hk
      simp only [List.mem_cons, List.not_mem_nil, or_false] at hp
      refine ⟨rfl, ?_⟩
      rcases hp with rfl | rfl
      · show a.label yn k = tileLabel xn yn x y yn k
        rw [ly, ← hly _ (by rw [uy]; exact hk), uy]
      · show a.label xn k = tileLabel xn yn x y xn k
        rw [lx, ← hlx _ (by rw [ux]; exact hk), ux]
    · intro p hp k hk k' hk' heq
      simp only [List.mem_cons, List.not_mem_nil, or_false] at hp
      rcases hp with rfl | rfl
      · simp only [ly] at heq
        have := hiy _ _ (by rw [uy]; exact hk) (by rw [uy]; exact hk') heq
        rwa [uy, uy] at this
      · simp only [lx] at heq
        have := hix _ _ (by rw [ux]; exact hk) (by rw [ux]; exact hk') heq
        rwa [ux, ux] at this
    · intro p hp
      simp only [List.mem_cons, List.not_mem_nil, or_false] at hp
      rcases hp with rfl | rfl
      · exact hay
      · exact hax
    · intro e e' hee
      show x.da.get _ = x.da.get _
      rw [hee xn (by simp [DA.dimNames])]
    · intro e e' hee
      show y.da.get _ = y.da.get _
      rw [hee yn (by simp [DA.dimNames])]
  have hmo := maskOn_resolve (x := ⟨⟨[(yn, ny), (xn, nx)], fun e =>
      x.da.get (Function.update (fun _ => 0) xn (e xn))⟩, tileLabel xn yn x y⟩) (mask := mask) (by
    intro m hmm
    obtain ⟨h1, h2, h3, h4⟩ := hm m hmm
    refine ⟨h1, ?_, h2⟩
    intro p hp k hk
    simp only [List.mem_cons, List.not_mem_nil, or_false] at hp
    rcases hp with rfl | rfl
    · show m.label yn k = tileLabel xn yn x y yn k
      rw [ly, ← h4 _ (by rw [uy]; exact hk), uy]
    · show m.label xn k = tileLabel xn yn x y xn k
      rw [lx, ← h3 _ (by rw [ux]; exact hk), ux])
  rw [toFrame_eq hs.some_dim] at hfx
  rw [toFrame_eq (hs.dims ▸ hs.some_dim)] at hfy
  rw [toFrame_eq (hmo.dims ▸ hs.some_dim)] at hfm
  rw [← Except.ok.inj hfx, ← Except.ok.inj hfy, ← Except.ok.inj hfm, concat_same _ _ hs hmo] at hg
  rw [readGauges_eq] at hl
  cases hf : files (gaugeFile csv) with
  | none => rw [hf] at hl; simp at hl
  | some t =>
    rw [hf] at hl
    refine ⟨t, rfl, ?_⟩
    have := gauges_core hs hmo (by simp) (by simp) (by simp) hg he
    rw [← Except.ok.inj hl] at this
    have hgrid : gridOf ⟨⟨[(yn, ny), (xn, nx)], fun e =>
          x.da.get (Function.update (fun _ => 0) xn (e xn))⟩, tileLabel xn yn x y⟩
        ⟨⟨[(yn, ny), (xn, nx)], fun e => y.da.get (Function.update (fun _ => 0) yn (e yn))⟩,
          tileLabel xn yn x y⟩ (resolveMask ⟨⟨[(yn, ny), (xn, nx)], fun e =>
          x.da.get (Function.update (fun _ => 0) xn (e xn))⟩, tileLabel xn yn x y⟩ mask)
        = ⟨y.da.get, x.da.get, maskWet mask, fun e => e yn < ny ∧ e xn < nx⟩ := by
      unfold gridOf
      rw [wet_resolve]
      congr 1
      · funext e; exact get_update hdy hwy e
      · funext e; exact get_update hdx hwx e
      · funext e
        simp [DA.InBounds]
    rw [hgrid] at this
    exact this

/-- With a csv file that does not exist the call never succeeds. -/
theorem C48_no_file {T : BallTree} {files : String → Option LocFrame} {arr : ArrArg V}
    {xarg yarg : AxisArg} {csv : String} {mask : MaskArg} {thr : Option (Fl ℝ)} {dw : Bool}
    (hf : files (gaugeFile csv) = none) (out : List (String × DA V)) :
    extractTidegauge T files arr xarg yarg csv mask thr dw ≠ .ok out := by
  intro h
  unfold extractTidegauge at h
  simp only [bind_ok, readGauges_eq, hf] at h
  obtain ⟨_, _, _, _, _, _, _, _, _, _, _, _, _, _, _, _, _, _, _, h, _⟩ := h
  cases h

/-- Arguments of the wrong kind raise an AssertionError: an array or a mask that is no DataArray, coordinates that are
neither a DataArray nor the name of a coordinate of the array. -/
theorem C48_arguments {T : BallTree} {files : String → Option LocFrame} {arr : ArrArg V}
    {xarg yarg : AxisArg} {csv : String} {mask : MaskArg} {thr : Option (Fl ℝ)} {dw : Bool}
    (h : arr = .other ∨ mask = .other ∨ xarg = .other ∨ yarg = .other ∨
      ∃ a s, arr = .da a ∧ (xarg = .name s ∨ yarg = .name s) ∧ s ∉ a.coords.map Prod.fst) :
    extractTidegauge T files arr xarg yarg csv mask thr dw = .error .assertionError := by
  have hv : validateTidegaugeData arr.tg xarg.tg yarg.tg mask.tg = .error .assertionError := by
    refine ((C36_iff _ _ _ _).2).resolve_left (fun hok => ?_)
    obtain ⟨c, h1, h2, h3, h4⟩ := (C36_iff _ _ _ _).1.1 hok
    rcases h with rfl | rfl | rfl | rfl | ⟨a, s, rfl, hxy, hs⟩
    · cases h1
    · rcases h4 with h4 | ⟨m, h4⟩ <;> cases h4
    · exact h2
    · exact h3
    · cases h1
      rcases hxy with rfl | rfl
      · exact hs h2
      · exact hs h3
  unfold extractTidegauge
  simp only [hv, error_bind]

/-- For instance a mask given as a list. -/
example (T : BallTree) (files : String → Option LocFrame) (arr : ArrArg (Fl ℝ)) :
    extractTidegauge T files arr (.name "geolon") (.name "geolat") "us" .other none true = .error .assertionError :=
  C48_arguments (Or.inr (Or.inl rfl))

/-- Full claim: coordinates with different dimensions raise an AssertionError.  Proved: coordinates with
different numbers of dimensions do.  Missing: for the same number of dimensions in another order the claim
is false (`C67_counterexample`). -/
theorem C67_partial {T : BallTree} {files : String → Option LocFrame} {a : GaugeArray V}
    {xarg yarg : AxisArg} {csv : String} {mask : MaskArg} {thr : Option (Fl ℝ)} {dw : Bool}
    {xn yn : String} {x y : LabelledDA} (hx : Denotes a xarg xn x) (hy : Denotes a yarg yn y)
    (hne : x.da.dims.length ≠ y.da.dims.length) :
    extractTidegauge T files (.da a) xarg yarg csv mask thr dw = .error .assertionError := by
  unfold extractTidegauge
  rcases (show validateTidegaugeData (ArrArg.da a).tg xarg.tg yarg.tg mask.tg = .ok () ∨
      validateTidegaugeData (ArrArg.da a).tg xarg.tg yarg.tg mask.tg = .error .assertionError from
      (C36_iff _ _ _ _).2) with h | h
  · have hnd : (x.da.ndim == y.da.ndim) = false := by simpa [DA.ndim] using hne
    simp only [h, ok_bind, ArrArg.get, resolveAxis_denotes hx, resolveAxis_denotes hy, hnd,
      pyAssert_false, error_bind]
  · simp only [h, error_bind]

/-- Two kept gauges with the same name: the result has fewer variables than there are gauges. -/
theorem C48_lost {a : DA V} {dims : List String} {g : Grid}
    {gauges : List (String × (String → Fl ℝ))} {out : List (String × DA V)}
    (h : GaugesRight a dims g none gauges out) (hdup : ¬ (gauges.map Prod.fst).Nodup) :
    out.length < gauges.length := by
  obtain ⟨cell, hc, hn⟩ := C48_names h
  have hsub : ∀ n ∈ out.map Prod.fst, n ∈ gauges.map Prod.fst := by
    intro n hmem
    obtain ⟨p, hp, rfl, _⟩ := (hn n).1 hmem
    exact List.mem_map_of_mem (List.of_mem_zip hp).1
  have h1 : (out.map Prod.fst).toFinset.card = out.length := by
    rw [List.toFinset_card_of_nodup h.1, List.length_map]
  have h2 : (gauges.map Prod.fst).toFinset.card < gauges.length := by
    have hle := List.toFinset_card_le (gauges.map Prod.fst)
    rw [List.length_map] at hle
    refine lt_of_le_of_ne hle (fun heq => hdup ?_)
    rw [← List.dedup_eq_self]
    refine (List.dedup_sublist _).eq_of_length ?_
    rw [List.length_map, ← heq, List.card_toFinset]
  rw [← h1]
  refine lt_of_le_of_lt (Finset.card_le_card ?_) h2
  intro n hmem
  rw [List.mem_toFinset] at hmem ⊢
  exact hsub n hmem

/-- The table of gauges shipped as the default contains a name twice. -/
theorem usGaugeNames_dup : ¬ usGaugeNames.Nodup := by decide

/-- With the default table a run without threshold never returns as many variables as there are gauges. -/
theorem C48_us_lost {T : BallTree} {files : String → Option LocFrame} {a : GaugeArray V}
    {xarg yarg : AxisArg} {mask : MaskArg} {dw : Bool}
    {xn yn : String} {x y : LabelledDA} (hx : Denotes a xarg xn x) (hy : Denotes a yarg yn y)
    (hxy : yn ≠ xn) (hxm : "mask" ≠ xn) (hym : "mask" ≠ yn)
    (hdim : x.da.dims.length ≠ 1) (hs : SameGrid a x y) (hm : ∀ m, mask = .da m → MaskOn x m)
    {us : LocFrame} (hus : files "momlevel/resources/us_tide_gauges.csv" = some us)
    (hnames : us.rows.map Prod.fst = usGaugeNames)
    {out : List (String × DA V)}
    (h : extractTidegauge T files (.da a) xarg yarg "us" mask none dw = .ok out) :
    out.length < 117 := by
  obtain ⟨g, hg, hr⟩ := C48_value (thr := none) hx hy hxy hxm hym hdim hs hm h
  have hg' : files "momlevel/resources/us_tide_gauges.csv" = some g := hg
  rw [hus] at hg'
  cases Option.some.inj hg'
  have hlen : us.rows.length = 117 := by
    rw [← List.length_map (f := Prod.fst), hnames]
    rfl
  rw [← hlen]
  refine C48_lost hr ?_
  rw [hnames]
  exact usGaugeNames_dup

/-! ## Concrete cases -/

/-- Longitude 0° and 10° along `xh`. -/
noncomputable def tgX : DA (Fl ℝ) := ⟨[("yh", 2), ("xh", 2)], fun e => fin (10 * (e "xh" : ℝ))⟩

/-- Latitude 0° and 10° along `yh`. -/
noncomputable def tgY : DA (Fl ℝ) := ⟨[("yh", 2), ("xh", 2)], fun e => fin (10 * (e "yh" : ℝ))⟩

/-- Positions as labels. -/
noncomputable def tgLabel : String → Nat → Fl ℝ := fun _ k => fin (k : ℝ)

/-- An array on the grid that is 1 at 10°N 0°E and 0 elsewhere. -/
noncomputable def tgArr : GaugeArray (Fl ℝ) where
  da := ⟨[("time", 3), ("yh", 2), ("xh", 2)], fun e => if e "yh" = 1 ∧ e "xh" = 0 then fin 1 else fin 0⟩
  label := tgLabel
  coords := [("geolon", tgX), ("geolat", tgY)]

/-- One gauge at 10°N 0°E. -/
noncomputable def tgGauges : LocFrame where
  columns := ["PSMSL_site", "lat", "lon"]
  rows := [("G", fun c => if c = "lat" then fin 10 else fin 0)]

theorem tgSame : SameGrid tgArr ⟨tgX, tgLabel⟩ ⟨tgY, tgLabel⟩ where
  dims := rfl
  some_dim := by simp [tgX]
  nodup := by simp [tgX]
  labels := fun _ _ _ _ => ⟨rfl, rfl⟩
  inj := by
    intro p _ k _ k' _ h
    simpa [tgLabel] using h
  arr := by
    intro p hp
    simp only [tgX, List.mem_cons, List.not_mem_nil, or_false] at hp
    rcases hp with rfl | rfl <;> simp [tgArr]
  arr_nodup := by simp [tgArr]
  wfx := by
    intro e e' h
    simp only [tgX]
    rw [h "xh" (by simp [DA.dimNames, tgX])]
  wfy := by
    intro e e' h
    simp only [tgY]
    rw [h "yh" (by simp [DA.dimNames, tgY])]

/-- The hypotheses of `C48_value` and `C48_success` hold for the example. -/
example (T : BallTree) : ∃ out, extractTidegauge T (fun _ => some tgGauges) (.da tgArr) = .ok out ∧
    GaugesRight tgArr.da ["yh", "xh"] ⟨tgY.get, tgX.get, fun _ => True, tgX.InBounds⟩ none
      tgGauges.rows out := by
  have hx : Denotes tgArr (.name "geolon") "geolon" ⟨tgX, tgLabel⟩ := Denotes.name _ _ rfl
  have hy : Denotes tgArr (.name "geolat") "geolat" ⟨tgY, tgLabel⟩ := Denotes.name _ _ rfl
  obtain ⟨out, h⟩ := C48_success T (files := fun _ => some tgGauges) (csv := "us") (mask := .none)
    none true hx hy (by simp) (by simp) (by simp) (by simp [tgX]) tgSame (by simp) (by simp)
    (gauges := tgGauges) rfl (by simp [tgGauges]) (by simp [tgGauges]) (by simp [tgGauges])
    (by simp [tgGauges])
    (by
      intro r hr
      simp only [tgGauges, List.mem_singleton] at hr
      exact ⟨10, 0, by rw [hr]; simp, by rw [hr]; simp⟩)
    ⟨fun _ => 0, by intro p hp; simp only [tgX, List.mem_cons, List.not_mem_nil, or_false] at hp
                    rcases hp with rfl | rfl <;> simp, trivial⟩
    (by
      intro e _ _
      exact ⟨_, _, rfl, rfl⟩)
  refine ⟨out, h, ?_⟩
  obtain ⟨g, hg, hr⟩ := C48_value (thr := none) hx hy (by simp) (by simp) (by simp) (by simp [tgX])
    tgSame (by simp) h
  cases Option.some.inj hg
  exact hr

/-- The latitudes with the dimensions in the other order. -/
noncomputable def tgYT : DA (Fl ℝ) := ⟨[("xh", 2), ("yh", 2)], fun e => fin (10 * (e "yh" : ℝ))⟩

theorem cells_two (d d' : String) : cells [(d, 2), (d', 2)] =
    [Function.update (Function.update (fun _ => 0) d' 0) d 0,
      Function.update (Function.update (fun _ => 0) d' 1) d 0,
      Function.update (Function.update (fun _ => 0) d' 0) d 1,
      Function.update (Function.update (fun _ => 0) d' 1) d 1] := rfl

theorem tgT_frame : concatFrames "geolon" "geolat"
      ((cells tgX.dims).map (fun e => ((⟨tgX, tgLabel⟩ : LabelledDA).labelsAt e, tgX.get e)))
      ((cells tgYT.dims).map (fun e => ((⟨tgYT, tgLabel⟩ : LabelledDA).labelsAt e, tgYT.get e)))
      ((cells tgX.dims).map (fun e => ((⟨tgX, tgLabel⟩ : LabelledDA).labelsAt e, (1 : Fl ℝ))))
    = ⟨["geolon", "geolat", "mask"],
      [([fin 0, fin 0], modelColumns "geolon" "geolat" (fin 0) (fin 0) (fin 1)),
        ([fin 0, fin 1], modelColumns "geolon" "geolat" (fin 10) (fin 10) (fin 1)),
        ([fin 1, fin 0], modelColumns "geolon" "geolat" (fin 0) (fin 0) (fin 1)),
        ([fin 1, fin 1], modelColumns "geolon" "geolat" (fin 10) (fin 10) (fin 1))]⟩ := by
  have h1 : (1 : Fl ℝ) = fin 1 := rfl
  simp [concatFrames, tgX, tgYT, cells_two, LabelledDA.labelsAt, tgLabel, h1]

/-- 10°N 10°E is nearer to 10°N 0°E than 0°N 0°E is. -/
theorem tg_nearer : centralAngle (10, 0) (10, 10) < centralAngle (10, 0) (0, 0) := by
  unfold centralAngle
  simp only
  have hc0 : 0 < Real.cos (rad 10) := by
    apply Real.cos_pos_of_mem_Ioo
    unfold rad
    constructor <;> nlinarith [Real.pi_pos]
  have hc1 : Real.cos (rad 10) < 1 := by
    rw [← Real.cos_zero]
    apply Real.cos_lt_cos_of_nonneg_of_le_pi
    · exact le_rfl
    · unfold rad; nlinarith [Real.pi_pos]
    · unfold rad; nlinarith [Real.pi_pos]
  apply Real.arccos_lt_arccos (dot_mem _ _ _ _).1 _ (dot_mem _ _ _ _).2
  rw [dot_eq, dot_eq]
  have h0 : rad 0 = 0 := by unfold rad; ring
  have hs := Real.sin_sq_add_cos_sq (rad 10)
  rw [h0, Real.sin_zero, Real.cos_zero, sub_self, zero_sub, Real.cos_neg, Real.cos_zero]
  generalize Real.cos (rad 10) = c at *
  have : Real.sin (rad 10) * Real.sin (rad 10) = 1 - c ^ 2 := by nlinarith
  rw [this]
  nlinarith [mul_pos (sub_pos.2 hc1) (sub_pos.2 (by nlinarith : c ^ 2 < 1))]

/-- The check that the coordinates have the same dimensions (tidegauge.py:104-106) compares the x
coordinate with itself.  With the latitude given in the other dimension order the call goes through, and
although there is a wet cell exactly at the gauge, the series returned is that of another cell: the value
there is 1, the value returned is 0. -/
theorem C67_counterexample (T : BallTree) :
    (tgX.get (Function.update (fun _ => 0) "yh" 1) = fin 0 ∧
      tgYT.get (Function.update (fun _ => 0) "yh" 1) = fin 10 ∧
      tgArr.da.get (Function.update (fun _ => 0) "yh" 1) = fin 1) ∧
    ∃ s, extractTidegauge T (fun _ => some tgGauges) (.da tgArr) (.da "geolon" ⟨tgX, tgLabel⟩)
      (.da "geolat" ⟨tgYT, tgLabel⟩) = .ok [("G", s)] ∧ ∀ e, s.get e = fin 0 := by
  refine ⟨⟨by simp [tgX], by simp [tgYT], by simp [tgArr]⟩, ?_⟩
  have cx : ∀ vx vy vm, modelColumns "geolon" "geolat" vx vy vm "geolon" = vx := by
    intros; simp [modelColumns]
  have cy : ∀ vx vy vm, modelColumns "geolon" "geolat" vx vy vm "geolat" = vy := by
    intros; simp [modelColumns]
  have cm : ∀ vx vy vm, modelColumns "geolon" "geolat" vx vy vm "mask" = vm := by
    intros; simp [modelColumns]
  obtain ⟨rows, warns, hg⟩ := C46_success T (⟨["geolon", "geolat", "mask"],
      [([fin 0, fin 0], modelColumns "geolon" "geolat" (fin 0) (fin 0) (fin 1)),
        ([fin 0, fin 1], modelColumns "geolon" "geolat" (fin 10) (fin 10) (fin 1)),
        ([fin 1, fin 0], modelColumns "geolon" "geolat" (fin 0) (fin 0) (fin 1)),
        ([fin 1, fin 1], modelColumns "geolon" "geolat" (fin 10) (fin 10) (fin 1))]⟩ :
        ModelFrame (List (Fl ℝ)))
    ⟨["name", "lat", "lon"], tgGauges.rows⟩ none (yc := "geolat") (xc := "geolon") (lat := "lat")
    (lon := "lon") (fin 6378) true true (by simp) (by simp) (by simp) (by simp) (by simp) (by simp)
    (by simp) rfl (by simp [cm]) (by simp [tgGauges])
    (by
      intro r hr
      rw [if_pos ⟨rfl, by simp⟩] at hr
      simp only [List.mem_filter, List.mem_cons, List.not_mem_nil, or_false] at hr
      rcases hr.1 with rfl | rfl | rfl | rfl
      · exact ⟨0, 0, cy (fin 0) _ (fin 1), cx _ (fin 0) (fin 1)⟩
      · exact ⟨10, 10, cy (fin 10) _ (fin 1), cx _ (fin 10) (fin 1)⟩
      · exact ⟨0, 0, cy (fin 0) _ (fin 1), cx _ (fin 0) (fin 1)⟩
      · exact ⟨10, 10, cy (fin 10) _ (fin 1), cx _ (fin 10) (fin 1)⟩)
    (by
      intro r hr
      simp only [tgGauges, List.mem_singleton] at hr
      exact ⟨10, 0, by rw [hr]; simp, by rw [hr]; simp⟩)
  obtain ⟨all, hall, hnone, _⟩ := C46_map hg
  rw [if_pos ⟨rfl, by simp⟩] at hall
  simp only [tgGauges, List.forall₂_cons_left_iff, List.forall₂_nil_left_iff] at hall
  obtain ⟨r, _, hm, rfl, rfl⟩ := hall
  have hrows := hnone rfl
  obtain ⟨hname, _, _, m, p, q, hi, hdv, _, hpy, hpx, hqy, hqx, _, hmin⟩ := hm
  have hq : q = (10, 0) := by
    simp only [String.reduceEq, if_false, if_true] at hqy hqx
    exact Prod.ext (Fl.fin.inj hqy).symm (Fl.fin.inj hqx).symm
  obtain ⟨p', hpy', hpx', hle⟩ := hmin
    ([fin 0, fin 1], modelColumns "geolon" "geolat" (fin 10) (fin 10) (fin 1)) (by simp [cm])
  simp only [cy] at hpy'
  simp only [cx] at hpx'
  have hp' : p' = (10, 10) := Prod.ext (Fl.fin.inj hpy').symm (Fl.fin.inj hpx').symm
  have hlt := tg_nearer
  have hmem := (List.mem_filter.1 (List.mem_of_getElem? hi)).1
  simp only [List.mem_cons, List.not_mem_nil, or_false] at hmem
  have hpick : r.dim_vals = [fin 0, fin 1] ∨ r.dim_vals = [fin 1, fin 1] := by
    have hno : p ≠ (0, 0) := by
      intro hp
      rw [hp, hq, hp'] at hle
      exact absurd hlt (not_lt.2 hle)
    rcases hmem with rfl | rfl | rfl | rfl
    · simp only [cy] at hpy
      simp only [cx] at hpx
      exact absurd (Prod.ext (Fl.fin.inj hpy).symm (Fl.fin.inj hpx).symm) hno
    · exact Or.inl hdv
    · simp only [cy] at hpy
      simp only [cx] at hpx
      exact absurd (Prod.ext (Fl.fin.inj hpy).symm (Fl.fin.inj hpx).symm) hno
    · exact Or.inr hdv
  have hsel : ∃ s, selLabels tgArr ["yh", "xh"] r.dim_vals = .ok s ∧ ∀ e, s.get e = fin 0 := by
    have hone : ∀ i j : Nat, i < 2 → j < 2 → j = 1 →
        ∃ s, selLabels tgArr ["yh", "xh"] [fin (i : ℝ), fin (j : ℝ)] = .ok s ∧
          ∀ e, s.get e = fin 0 := by
      intro i j hi hj hj1
      have hsame := tgSame
      have := selLabels_eq hsame (e := Function.update (fun _ => j) "yh" i) (by
        intro p hp
        simp only [tgX, List.mem_cons, List.not_mem_nil, or_false] at hp
        rcases hp with rfl | rfl
        · simpa using hi
        · simpa using hj)
      have hl : (⟨tgX, tgLabel⟩ : LabelledDA).labelsAt (Function.update (fun _ => j) "yh" i)
          = [fin (i : ℝ), fin (j : ℝ)] := by
        simp [LabelledDA.labelsAt, tgX, tgLabel]
      have hd : (⟨tgX, tgLabel⟩ : LabelledDA).da.dimNames = ["yh", "xh"] := by simp [DA.dimNames, tgX]
      rw [hl, hd] at this
      refine ⟨_, this, fun e => ?_⟩
      simp [seriesAt, tgArr, hj1]
    rcases hpick with h | h
    · have := hone 0 1 (by omega) (by omega) rfl
      rw [h]
      simpa using this
    · have := hone 1 1 (by omega) (by omega) rfl
      rw [h]
      simpa using this
  obtain ⟨s, hsel, hs0⟩ := hsel
  refine ⟨s, ?_, hs0⟩
  have ht : tileIfFlat ("geolon", ⟨tgX, tgLabel⟩) ("geolat", ⟨tgYT, tgLabel⟩)
      = .ok (("geolon", ⟨tgX, tgLabel⟩), ("geolat", ⟨tgYT, tgLabel⟩)) := by
    unfold tileIfFlat
    exact if_neg (by simp [DA.ndim, tgX])
  have hrg : readGauges (fun _ => some tgGauges) "us" = .ok ⟨["name", "lat", "lon"], tgGauges.rows⟩ := by
    rw [readGauges_eq]
    simp [tgGauges]
  have hmask : resolveMask ⟨tgX, tgLabel⟩ .none = ⟨tgX.map (fun _ => (1 : Fl ℝ)), tgLabel⟩ := rfl
  have hfx : (⟨tgX, tgLabel⟩ : LabelledDA).toFrame = .ok ((cells tgX.dims).map
      (fun e => ((⟨tgX, tgLabel⟩ : LabelledDA).labelsAt e, tgX.get e))) :=
    toFrame_eq (x := ⟨tgX, tgLabel⟩) (by simp [tgX])
  have hfy : (⟨tgYT, tgLabel⟩ : LabelledDA).toFrame = .ok ((cells tgYT.dims).map
      (fun e => ((⟨tgYT, tgLabel⟩ : LabelledDA).labelsAt e, tgYT.get e))) :=
    toFrame_eq (x := ⟨tgYT, tgLabel⟩) (by simp [tgYT])
  have hfm : (⟨tgX.map (fun _ => (1 : Fl ℝ)), tgLabel⟩ : LabelledDA).toFrame = .ok ((cells tgX.dims).map
      (fun e => ((⟨tgX, tgLabel⟩ : LabelledDA).labelsAt e, (1 : Fl ℝ)))) :=
    toFrame_eq (x := ⟨tgX.map (fun _ => (1 : Fl ℝ)), tgLabel⟩) (by simp [tgX, DA.map])
  have hdn : tgX.dimNames = ["yh", "xh"] := by simp [DA.dimNames, tgX]
  have hval : validateTidegaugeData (ArrArg.da tgArr).tg
      (AxisArg.da "geolon" ⟨tgX, tgLabel⟩).tg (AxisArg.da "geolat" ⟨tgYT, tgLabel⟩).tg MaskArg.none.tg
      = .ok () := rfl
  have hnd : (tgX.ndim == tgYT.ndim) = true := by simp [DA.ndim, tgX, tgYT]
  have hent : [r].mapM (extractPoint tgArr ["name", "lat", "lon"] ["yh", "xh"]) = .ok [("G", s)] := by
    rw [mapM_some_ok (g := fun _ => ("G", s))]
    · rfl
    · intro r' hr'
      rw [List.mem_singleton] at hr'
      subst hr'
      unfold extractPoint
      rw [needColumn_ok.2 (by simp), ok_bind, hsel, ok_bind, hname]
      rfl
  rw [hrows] at hg
  unfold extractTidegauge
  simp only [hval, ok_bind, ArrArg.get, resolveAxis, hnd, pyAssert_true, radius_default, ht, hmask, hfx,
    hfy, hfm, tgT_frame, hrg, hg, hdn, hent]
  rfl

/-- The same grid with one-dimensional coordinates. -/
noncomputable def tgFlat : GaugeArray (Fl ℝ) where
  da := tgArr.da
  label := fun _ k => fin (10 * (k : ℝ))
  coords := [("xh", ⟨[("xh", 2)], fun e => fin (10 * (e "xh" : ℝ))⟩), ("yh", ⟨[("yh", 2)], fun e => fin (10 * (e "yh" : ℝ))⟩)]

/-- The hypotheses of `C48_flat` hold for the coordinates `xh` and `yh` of that array. -/
example {T : BallTree} {out : List (String × DA (Fl ℝ))}
    (h : extractTidegauge T (fun _ => some tgGauges) (.da tgFlat) (.name "xh") (.name "yh") "us" .none none true
      = .ok out) :
    GaugesRight tgFlat.da ["yh", "xh"] ⟨fun e => fin (10 * (e "yh" : ℝ)), fun e => fin (10 * (e "xh" : ℝ)),
      maskWet .none, fun e => e "yh" < 2 ∧ e "xh" < 2⟩ none tgGauges.rows out := by
  have hx : Denotes tgFlat (.name "xh") "xh" ⟨⟨[("xh", 2)], fun e => fin (10 * (e "xh" : ℝ))⟩, tgFlat.label⟩ :=
    Denotes.name _ _ rfl
  have hy : Denotes tgFlat (.name "yh") "yh" ⟨⟨[("yh", 2)], fun e => fin (10 * (e "yh" : ℝ))⟩, tgFlat.label⟩ :=
    Denotes.name _ _ rfl
  have inj : ∀ a b : ℕ, (fin (10 * (a : ℝ)) : Fl ℝ) = fin (10 * (b : ℝ)) → a = b := by
    intro a b h
    simpa using h
  obtain ⟨g, h1, h2⟩ := C48_flat (thr := none) hx hy rfl rfl (by decide)
    (fun e e' he => by simp only; rw [he "xh" (by simp [DA.dimNames])])
    (fun e e' he => by simp only; rw [he "yh" (by simp [DA.dimNames])])
    (fun e _ => rfl) (fun e _ => rfl) (fun e e' _ _ => inj _ _) (fun e e' _ _ => inj _ _)
    (by simp [tgFlat, tgArr]) (by simp [tgFlat, tgArr]) (by simp [tgFlat, tgArr]) (by simp) h
  cases Option.some.inj h1
  exact h2

/-- `C67_partial`: a one-dimensional longitude with a two-dimensional latitude is refused. -/
example (T : BallTree) (files : String → Option LocFrame) :
    extractTidegauge T files (.da tgArr) (.da "xh" ⟨⟨[("xh", 2)], fun e => fin (10 * (e "xh" : ℝ))⟩, tgLabel⟩)
      (.name "geolat") "us" .none none true = .error .assertionError :=
  C67_partial (x := ⟨⟨[("xh", 2)], fun e => fin (10 * (e "xh" : ℝ))⟩, tgLabel⟩) (Denotes.da _ _)
    (y := ⟨tgY, tgLabel⟩) (Denotes.name _ _ rfl) (by simp [tgY])

end Momlevel.Props
