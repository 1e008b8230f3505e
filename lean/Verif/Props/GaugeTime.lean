import Verif.Props.TidegaugeCases
import Verif.Props.LocalTime

/-! # C123: extraction at tide gauges and time averages -/

set_option linter.unusedSectionVars false

namespace Momlevel.Props
open Momlevel Momlevel.Fl Momlevel.Spec

variable {V W : Type}

theorem find_off {tc d : String} (hd : d ≠ tc) (l : List (String × Nat)) :
    (l.filter (fun p => p.1 != tc)).find? (fun p => p.1 == d) = l.find? (fun p => p.1 == d) := by
  induction l with
  | nil => rfl
  | cons p l ih =>
    by_cases h : p.1 = tc
    · rw [List.filter_cons_of_neg (by simp [h]), ih, List.find?_cons_of_neg]
      simp only [beq_iff_eq]
      exact fun h' => hd (h'.symm.trans h)
    · rw [List.filter_cons_of_pos (by simp [h])]
      by_cases h2 : p.1 = d
      · rw [List.find?_cons_of_pos (by simp [h2]), List.find?_cons_of_pos (by simp [h2])]
      · rw [List.find?_cons_of_neg (by simp [h2]), List.find?_cons_of_neg (by simp [h2]), ih]

theorem labelPos_off {tc : String} {a : GaugeArray V} {a' : GaugeArray W} (hs : SameBut tc a a')
    {d : String} (hd : d ≠ tc) (v : Fl ℝ) : labelPos a' d v = labelPos a d v := by
  unfold labelPos
  rw [← find_off hd a'.da.dims, hs.dims, find_off hd, hs.labels d hd]

theorem labelPos_name {a : GaugeArray V} {d : String} {v : Fl ℝ} {r : String × Nat}
    (h : labelPos a d v = .ok r) : r.1 = d := by
  unfold labelPos at h
  split at h
  · cases h
  · split at h
    · cases h
    · cases h; rfl

theorem selected {a : GaugeArray V} {pos : List (String × Nat)} :
    (⟨a.da.dims.filter (fun q => !(pos.map Prod.fst).contains q.1),
      fun e => a.da.get (fun d => (pos.lookup d).getD (e d))⟩ : DA V)
      = Spec.seriesAt a.da (pos.map Prod.fst) (fun d => (pos.lookup d).getD 0) := by
  unfold Spec.seriesAt
  congr 1
  · refine List.filter_congr (fun q _ => ?_)
    simp
  · funext e
    congr 1
    funext d
    by_cases hd : d ∈ pos.map Prod.fst
    · rw [if_pos hd]
      obtain ⟨k, hk⟩ := Option.isSome_iff_exists.1 (mem_keys_iff.1 hd)
      simp only [hk, Option.getD_some]
    · rw [if_neg hd, lookup_none hd]; rfl

theorem mapM_labelPos {tc : String} {a : GaugeArray V} {a' : GaugeArray W} (hs : SameBut tc a a') :
    ∀ (l : List (String × Fl ℝ)), (∀ p ∈ l, p.1 ≠ tc) →
      l.mapM (fun p => labelPos a' p.1 p.2) = l.mapM (fun p => labelPos a p.1 p.2)
  | [], _ => rfl
  | p :: l, h => by
    rw [List.mapM_cons, List.mapM_cons, labelPos_off hs (h p List.mem_cons_self),
      mapM_labelPos hs l (fun q hq => h q (List.mem_cons_of_mem _ hq))]

theorem mapM_labelPos_keys {a : GaugeArray V} : ∀ (l : List (String × Fl ℝ)) (pos : List (String × Nat)),
    l.mapM (fun p => labelPos a p.1 p.2) = .ok pos → pos.map Prod.fst = l.map Prod.fst
  | [], pos, h => by cases h; rfl
  | p :: l, pos, h => by
    rw [List.mapM_cons] at h
    simp only [bind_ok, pure_ok] at h
    obtain ⟨r, h1, rs, h2, h3⟩ := h
    rw [← h3, List.map_cons, List.map_cons, labelPos_name h1, mapM_labelPos_keys l rs h2]

/-- Two series taken at the same place. -/
def Together (tc : String) (a : DA V) (a' : DA W) (p : String × DA V) (q : String × DA W) : Prop :=
  q.1 = p.1 ∧ ∃ dims e, tc ∉ dims ∧ p.2 = Spec.seriesAt a dims e ∧ q.2 = Spec.seriesAt a' dims e

theorem extractPoint_off {tc : String} {a : GaugeArray V} {a' : GaugeArray W} (hs : SameBut tc a a')
    {cols dims : List String} (hd : tc ∉ dims) {row : Located (List (Fl ℝ))} {r : String × DA V}
    (h : extractPoint a cols dims row = .ok r) :
    ∃ r', extractPoint a' cols dims row = .ok r' ∧ Together tc a.da a'.da r r' := by
  simp only [extractPoint, selLabels, bind_ok, pure_ok] at h
  obtain ⟨u, h1, s, ⟨pos, h2, h3⟩, h4⟩ := h
  have hz : ∀ p ∈ dims.zip row.dim_vals, p.1 ≠ tc := by
    intro p hp he
    exact hd (he ▸ (List.of_mem_zip hp).1)
  have hk := mapM_labelPos_keys _ _ h2
  refine ⟨(row.name, Spec.seriesAt a'.da (pos.map Prod.fst) (fun d => (pos.lookup d).getD 0)), ?_, ?_⟩
  · simp only [extractPoint, selLabels, bind_ok, pure_ok]
    exact ⟨u, h1, _, ⟨pos, (mapM_labelPos hs _ hz).trans h2, selected⟩, rfl⟩
  · rw [← h4, ← h3]
    refine ⟨rfl, pos.map Prod.fst, fun d => (pos.lookup d).getD 0, ?_, selected, rfl⟩
    rw [hk]
    intro hm
    obtain ⟨p, hp, he⟩ := List.mem_map.1 hm
    exact hz p hp he

theorem mapM_extract {tc : String} {a : GaugeArray V} {a' : GaugeArray W} (hs : SameBut tc a a')
    {cols dims : List String} (hd : tc ∉ dims) :
    ∀ (rows : List (Located (List (Fl ℝ)))) (es : List (String × DA V)),
      rows.mapM (extractPoint a cols dims) = .ok es →
      ∃ es', rows.mapM (extractPoint a' cols dims) = .ok es' ∧ List.Forall₂ (Together tc a.da a'.da) es es'
  | [], es, h => by cases h; exact ⟨[], rfl, List.Forall₂.nil⟩
  | row :: rows, es, h => by
    rw [List.mapM_cons] at h
    simp only [bind_ok, pure_ok] at h
    obtain ⟨r, h1, rs, h2, h3⟩ := h
    obtain ⟨r', h1', ht⟩ := extractPoint_off hs hd h1
    obtain ⟨rs', h2', hts⟩ := mapM_extract hs hd rows rs h2
    refine ⟨r' :: rs', ?_, h3 ▸ List.Forall₂.cons ht hts⟩
    rw [List.mapM_cons, h1', ok_bind, h2', ok_bind]
    rfl

theorem dictSet_together {α β : Type} {R : α → β → Prop} {d : List (String × α)} {d' : List (String × β)}
    (h : List.Forall₂ (fun p q => q.1 = p.1 ∧ R p.2 q.2) d d') {k : String} {v : α} {w : β} (hv : R v w) :
    List.Forall₂ (fun p q => q.1 = p.1 ∧ R p.2 q.2) (dictSet d k v) (dictSet d' k w) := by
  have hk : d'.map Prod.fst = d.map Prod.fst := by
    induction h with
    | nil => rfl
    | cons h1 _ ih => rw [List.map_cons, List.map_cons, ih, h1.1]
  unfold dictSet
  rw [hk]
  split
  · rename_i hcon
    clear hk hcon
    induction h with
    | nil => exact List.Forall₂.nil
    | @cons p q l l' h1 _ ih =>
      rw [List.map_cons, List.map_cons]
      refine List.Forall₂.cons ?_ ih
      rw [h1.1]
      split
      · exact ⟨rfl, hv⟩
      · exact h1
  · exact List.rel_append h (List.Forall₂.cons ⟨rfl, hv⟩ List.Forall₂.nil)

theorem pyDict_together {α β : Type} {R : α → β → Prop} {d : List (String × α)} {d' : List (String × β)}
    (h : List.Forall₂ (fun p q => q.1 = p.1 ∧ R p.2 q.2) d d') :
    List.Forall₂ (fun p q => q.1 = p.1 ∧ R p.2 q.2) (pyDict d) (pyDict d') := by
  unfold pyDict
  have : ∀ (b : List (String × α)) (b' : List (String × β)),
      List.Forall₂ (fun p q => q.1 = p.1 ∧ R p.2 q.2) b b' →
      List.Forall₂ (fun p q => q.1 = p.1 ∧ R p.2 q.2)
        (d.foldl (fun d p => dictSet d p.1 p.2) b) (d'.foldl (fun d p => dictSet d p.1 p.2) b') := by
    induction h with
    | nil => exact fun _ _ hb => hb
    | @cons p q l l' h1 _ ih =>
      intro b b' hb
      rw [List.foldl_cons, List.foldl_cons]
      refine ih _ _ ?_
      rw [h1.1]
      exact dictSet_together hb h1.2
  exact this [] [] List.Forall₂.nil

/-- Coordinates with the same values, and the same labels off `tc`. -/
def Alike (tc : String) (x x' : String × LabelledDA) : Prop :=
  x'.1 = x.1 ∧ x'.2.da = x.2.da ∧ ∀ d, d ≠ tc → x'.2.label d = x.2.label d

theorem resolveAxis_off {tc : String} {a : GaugeArray V} {a' : GaugeArray W} (hs : SameBut tc a a')
    {arg : AxisArg} {x : String × LabelledDA} (h : resolveAxis a arg = .ok x) :
    ∃ x', resolveAxis a' arg = .ok x' ∧ Alike tc x x' := by
  cases arg with
  | other => cases h
  | da s c => cases h; exact ⟨_, rfl, rfl, rfl, fun _ _ => rfl⟩
  | name s =>
    simp only [resolveAxis, hs.coords] at h ⊢
    cases hc : a.coords.lookup s with
    | none => rw [hc] at h; cases h
    | some c =>
      rw [hc] at h
      cases h
      exact ⟨_, rfl, rfl, rfl, hs.labels⟩

theorem toFrame_off {tc : String} {x x' : LabelledDA} (hd : x'.da = x.da)
    (hl : ∀ d, d ≠ tc → x'.label d = x.label d) (ht : tc ∉ x.da.dimNames) : x'.toFrame = x.toFrame := by
  have hat : ∀ e, x'.labelsAt e = x.labelsAt e := by
    intro e
    unfold LabelledDA.labelsAt
    rw [hd]
    refine List.map_congr_left (fun p hp => ?_)
    rw [hl p.1 (fun h => ht (h ▸ List.mem_map_of_mem hp))]
  unfold LabelledDA.toFrame
  rw [hd]
  simp only [hat]

theorem tileAxes_off {x x' y y' : String × LabelledDA} {tc : String} (hx : Alike tc x x')
    (hy : Alike tc y y') : tileAxes x' y' = tileAxes x y := by
  unfold tileAxes
  rw [hx.1, hy.1, hx.2.1, hy.2.1]

theorem tile_off {x x' y y' : String × LabelledDA} {tc : String} (hx : Alike tc x x')
    (hy : Alike tc y y') (htx : tc ∉ x.2.da.dimNames) (hty : tc ∉ y.2.da.dimNames)
    {u v : String × LabelledDA} (h : tileIfFlat x y = .ok (u, v)) :
    ∃ u' v', tileIfFlat x' y' = .ok (u', v') ∧ Alike tc u u' ∧ Alike tc v v' ∧
      tc ∉ u.2.da.dimNames ∧ tc ∉ v.2.da.dimNames := by
  unfold tileIfFlat at h ⊢
  rw [hx.2.1]
  split at h
  · rename_i hn
    rw [if_pos hn, tileAxes_off hx hy]
    refine ⟨u, v, h, ⟨rfl, rfl, fun _ _ => rfl⟩, ⟨rfl, rfl, fun _ _ => rfl⟩, ?_⟩
    simp only [tileAxes, tileNominalCoords, tileArrays, bind_ok, pure_ok] at h
    obtain ⟨⟨x2, y2⟩, h1, h2⟩ := h
    split at h1
    · rename_i xd nx yd ny hxd hyd
      split at h1
      · rename_i hc
        cases h1
        cases h2
        have e1 : tc ≠ x.1 := by
          intro he
          refine htx ?_
          unfold DA.dimNames
          rw [hxd, he, ← hc.1]; simp
        have e2 : tc ≠ y.1 := by
          intro he
          refine hty ?_
          unfold DA.dimNames
          rw [hyd, he, ← hc.2.1]; simp
        constructor <;> simp [DA.dimNames, e1, e2]
      · cases h1
    · cases h1
  · rename_i hn
    rw [if_neg hn]
    cases h
    exact ⟨x', y', rfl, hx, hy, htx, hty⟩

theorem resolveMask_off {tc : String} {x x' : LabelledDA} (hd : x'.da = x.da)
    (hl : ∀ d, d ≠ tc → x'.label d = x.label d) (ht : tc ∉ x.da.dimNames) (m : MaskArg) :
    (resolveMask x' m).toFrame = (resolveMask x m).toFrame := by
  cases m with
  | da m => rfl
  | none =>
    refine toFrame_off (tc := tc) ?_ hl ht
    simp only [resolveMask, hd]
  | other =>
    refine toFrame_off (tc := tc) ?_ hl ht
    simp only [resolveMask, hd]

/-- Two arrays that differ only along `tc` give the same gauges, each at the same place. -/
theorem C123_same_place {tc : String} {a : GaugeArray V} {a' : GaugeArray W} (hs : SameBut tc a a')
    {T : BallTree} {files : String → Option LocFrame} {xarg yarg : AxisArg} {csv : String} {mask : MaskArg}
    {thr : Option (Fl ℝ)} {dw : Bool} {xn yn : String} {x y : LabelledDA}
    (hx : Denotes a xarg xn x) (hy : Denotes a yarg yn y)
    (htx : tc ∉ x.da.dimNames) (hty : tc ∉ y.da.dimNames) {out : List (String × DA V)}
    (h : extractTidegauge T files (.da a) xarg yarg csv mask thr dw = .ok out) :
    ∃ out', extractTidegauge T files (.da a') xarg yarg csv mask thr dw = .ok out' ∧
      List.Forall₂ (fun p q => q.1 = p.1 ∧ ∃ dims e, tc ∉ dims ∧
        p.2 = Spec.seriesAt a.da dims e ∧ q.2 = Spec.seriesAt a'.da dims e) out out' := by
  unfold extractTidegauge at h ⊢
  simp only [bind_ok, ArrArg.get, pure_ok] at h
  obtain ⟨u, hv, b, hb, x0, hx0, y0, hy0, u1, hn, ⟨x1, y1⟩, ht, fx, hfx, fy, hfy, fm, hfm, locs, hl,
    ⟨rows, warns⟩, hg, entries, he, h⟩ := h
  cases Except.ok.inj hb
  obtain ⟨x0', hx0', ax⟩ := resolveAxis_off hs hx0
  obtain ⟨y0', hy0', ay⟩ := resolveAxis_off hs hy0
  rw [resolveAxis_denotes hx] at hx0
  rw [resolveAxis_denotes hy] at hy0
  cases Except.ok.inj hx0
  cases Except.ok.inj hy0
  obtain ⟨x1', y1', ht', ax1, ay1, tx, ty⟩ := tile_off ax ay htx hty ht
  rw [← toFrame_off ax1.2.1 ax1.2.2 tx] at hfx
  rw [← toFrame_off ay1.2.1 ay1.2.2 ty] at hfy
  rw [← resolveMask_off ax1.2.1 ax1.2.2 tx] at hfm
  rw [← ax1.1, ← ay1.1] at hg
  simp only at he
  have hdn : x1.2.da.dimNames = x1'.2.da.dimNames := by rw [ax1.2.1]
  rw [hdn] at he tx
  obtain ⟨es', he', hts⟩ := mapM_extract hs tx rows entries he
  have hv' : validateTidegaugeData (ArrArg.da a').tg xarg.tg yarg.tg mask.tg = .ok u := by
    have : (ArrArg.da a').tg = (ArrArg.da a).tg := by
      show TgArg.dataArray _ = TgArg.dataArray _
      rw [hs.coords]
    rw [this]; exact hv
  have hn' : pyAssert (x0'.2.da.ndim == y0'.2.da.ndim) = .ok u1 := by
    rw [ax.2.1, ay.2.1]; exact hn
  refine ⟨pyDict es', ?_, ?_⟩
  · simp only [hv', ok_bind, ArrArg.get, hx0', hy0', hn', ht', hfx, hfy, hfm, hl, hg, he']
    rfl
  · rw [← h]
    exact pyDict_together (R := fun (p : DA V) (q : DA W) => ∃ dims e, tc ∉ dims ∧
        p = Spec.seriesAt a.da dims e ∧ q = Spec.seriesAt a'.da dims e) hts

/-! ## Averages and trends -/

section
variable {K : Type} [Field K] [LinearOrder K] {dims : List String} {e : Env}

theorem at_column (a : DA (Fl K)) {t : String} (h : t ∉ dims) (env : Env) (pos : List Nat) :
    column (Spec.seriesAt a dims e) t env pos
      = column a t (fun d => if d ∈ dims then e d else env d) pos := by
  unfold column
  refine List.map_congr_left (fun i _ => ?_)
  show a.get _ = a.get _
  congr 1
  funext d
  by_cases hd : d = t
  · subst hd; rw [if_neg h]; simp
  · simp [Function.update_of_ne hd]

theorem at_filter (l : List (String × Nat)) (p q : String × Nat → Bool) :
    (l.filter p).filter q = (l.filter q).filter p := by
  rw [List.filter_filter, List.filter_filter]
  refine List.filter_congr (fun x _ => ?_)
  rw [Bool.and_comm]

theorem at_annualReduce (a : DA (Fl K)) (ax : TimeAxis) (h : "time" ∉ dims) :
    annualReduce (Spec.seriesAt a dims e) ax "time" = Spec.seriesAt (annualReduce a ax "time") dims e := by
  show DA.mk _ _ = DA.mk _ _
  congr 1
  · show _ :: (a.dims.filter _).filter _ = List.filter _ (_ :: _)
    rw [List.filter_cons_of_pos (by simpa using h), at_filter]
  · funext env
    show weightedMean _ = weightedMean _
    simp only [at_column a h, if_neg h]

theorem at_monthlyReduce (a : DA (Fl K)) (ax : TimeAxis) {t : String} (h : t ∉ dims) :
    monthlyReduce (Spec.seriesAt a dims e) ax t = Spec.seriesAt (monthlyReduce a ax t) dims e := by
  show DA.mk _ _ = DA.mk _ _
  congr 1
  · show _ :: (a.dims.filter _).filter _ = List.filter _ (_ :: _)
    rw [List.filter_cons_of_pos (by simpa using h), at_filter]
  · funext env
    show nanmean _ = nanmean _
    simp only [at_column a h, if_neg h]

theorem at_series (a : DA (Fl K)) {t : String} (h : t ∉ dims) (n : Nat) (env : Env) :
    series (Spec.seriesAt a dims e) t n env
      = series a t n (fun d => if d ∈ dims then e d else env d) := at_column a h env (List.range n)

theorem at_polyfit {a b : TrendArray K} {t : String} {ix : DimIndex K} {m q : DA (Fl K)} (h : t ∉ dims)
    (hb : b.da = Spec.seriesAt a.da dims e) (hm : polyfitCoefficients a t ix = .ok (m, q)) :
    polyfitCoefficients b t ix = .ok (Spec.seriesAt m dims e, Spec.seriesAt q dims e) := by
  unfold polyfitCoefficients at hm ⊢
  split at hm
  · rename_i hc
    have hc' : b.da.dimNames.contains t = true := by
      rw [hb]
      simp only [DA.dimNames, List.contains_iff_mem, List.mem_map] at hc ⊢
      obtain ⟨p, hp, rfl⟩ := hc
      exact ⟨p, List.mem_filter.2 ⟨hp, by simpa using h⟩, rfl⟩
    rw [if_pos hc', hb]
    cases hm
    simp only [at_series a.da h]
    have hd : (Spec.seriesAt a.da dims e).dims.filter (fun p => p.1 != t)
        = (a.da.dims.filter (fun p => p.1 != t)).filter (fun q => decide (q.1 ∉ dims)) := at_filter _ _ _
    rw [hd]
    rfl
  · cases hm

end

theorem at_cycleReduce {dims : List String} {e : Env} (f : List (Fl ℝ) → Fl ℝ) (a : DA (Fl ℝ)) (ax : TimeAxis)
    {t : String} (h : t ∉ dims) :
    cycleReduce f (Spec.seriesAt a dims e) ax t = Spec.seriesAt (cycleReduce f a ax t) dims e := by
  show DA.mk _ _ = DA.mk _ _
  congr 1
  · show List.map _ (a.dims.filter _) = List.filter _ (a.dims.map _)
    rw [List.filter_map]
    congr 1
    refine List.filter_congr (fun p _ => ?_)
    show _ = decide ((if p.1 = t then (t, _) else p).1 ∉ dims)
    split
    · rename_i hp; rw [hp]
    · rfl
  · funext env
    show f _ = f _
    simp only [at_column a h, if_neg h]

section
variable {a : GaugeArray (Fl ℝ)} {T : BallTree} {files : String → Option LocFrame} {xarg yarg : AxisArg}
  {csv : String} {mask : MaskArg} {thr : Option (Fl ℝ)} {dw : Bool} {xn yn : String} {x y : LabelledDA}

/-- Annual averages: extracting from the averaged array is averaging the extracted series. -/
theorem C123_annual {axes axr : List (String × TimeAxis)} {r : DA (Fl ℝ)} {label : String → Nat → Fl ℝ}
    (hl : ∀ d, d ≠ "time" → label d = a.label d) (hr : annualAverage ⟨a.da, axes⟩ = .ok ⟨r, axr⟩)
    (hx : Denotes a xarg xn x) (hy : Denotes a yarg yn y)
    (htx : "time" ∉ x.da.dimNames) (hty : "time" ∉ y.da.dimNames) {out : List (String × DA (Fl ℝ))}
    (h : extractTidegauge T files (.da a) xarg yarg csv mask thr dw = .ok out) :
    ∃ out', extractTidegauge T files (.da ⟨r, label, a.coords⟩) xarg yarg csv mask thr dw = .ok out' ∧
      List.Forall₂ (fun p q => q.1 = p.1 ∧ annualAverage ⟨p.2, axes⟩ = .ok ⟨q.2, axr⟩) out out' := by
  simp only [annualAverage, bind_ok, pure_ok] at hr
  obtain ⟨ax, h1, u, h2, h3⟩ := hr
  cases h3
  have hs : SameBut "time" a ⟨annualReduce a.da ax "time", label, a.coords⟩ := by
    refine ⟨rfl, hl, ?_⟩
    show List.filter _ (_ :: _) = _
    rw [List.filter_cons_of_neg (by simp), List.filter_filter]
    simp
  obtain ⟨out', h4, h5⟩ := C123_same_place hs hx hy htx hty h
  refine ⟨out', h4, h5.imp ?_⟩
  rintro p q ⟨hn, dims, e, ht, hp, hq⟩
  refine ⟨hn, ?_⟩
  simp only [annualAverage, bind_ok, pure_ok]
  exact ⟨ax, h1, u, h2, by rw [hp, hq, at_annualReduce _ _ ht]⟩

/-- Monthly averages. -/
theorem C123_monthly {axes axr : List (String × TimeAxis)} {r : DA (Fl ℝ)} {label : String → Nat → Fl ℝ}
    {t : String} (hl : ∀ d, d ≠ t → label d = a.label d) (hr : monthlyAverage ⟨a.da, axes⟩ t = .ok ⟨r, axr⟩)
    (hx : Denotes a xarg xn x) (hy : Denotes a yarg yn y)
    (htx : t ∉ x.da.dimNames) (hty : t ∉ y.da.dimNames) {out : List (String × DA (Fl ℝ))}
    (h : extractTidegauge T files (.da a) xarg yarg csv mask thr dw = .ok out) :
    ∃ out', extractTidegauge T files (.da ⟨r, label, a.coords⟩) xarg yarg csv mask thr dw = .ok out' ∧
      List.Forall₂ (fun p q => q.1 = p.1 ∧ monthlyAverage ⟨p.2, axes⟩ t = .ok ⟨q.2, axr⟩) out out' := by
  simp only [monthlyAverage, bind_ok] at hr
  obtain ⟨ax, h1, h2⟩ := hr
  split at h2
  · rename_i hc
    cases h2
    have hs : SameBut t a ⟨monthlyReduce a.da ax t, label, a.coords⟩ := by
      refine ⟨rfl, hl, ?_⟩
      show List.filter _ (_ :: _) = _
      rw [List.filter_cons_of_neg (by simp), List.filter_filter]
      simp
    obtain ⟨out', h4, h5⟩ := C123_same_place hs hx hy htx hty h
    refine ⟨out', h4, h5.imp ?_⟩
    rintro p q ⟨hn, dims, e, ht, hp, hq⟩
    refine ⟨hn, ?_⟩
    simp only [monthlyAverage, bind_ok]
    refine ⟨ax, h1, ?_⟩
    rw [if_pos hc, hp, hq]
    exact congrArg (fun d => Except.ok (Timed.mk d _)) (at_monthlyReduce a.da ax ht)
  · cases h2

/-- Annual cycles, for every statistic. -/
theorem C123_cycle {axes axr : List (String × TimeAxis)} {r : DA (Fl ℝ)} {label : String → Nat → Fl ℝ}
    {t func : String} {yr : Option Nat} (hl : ∀ d, d ≠ t → label d = a.label d)
    (hr : annualCycle ⟨a.da, axes⟩ t func yr = .ok ⟨r, axr⟩)
    (hx : Denotes a xarg xn x) (hy : Denotes a yarg yn y)
    (htx : t ∉ x.da.dimNames) (hty : t ∉ y.da.dimNames) {out : List (String × DA (Fl ℝ))}
    (h : extractTidegauge T files (.da a) xarg yarg csv mask thr dw = .ok out) :
    ∃ out', extractTidegauge T files (.da ⟨r, label, a.coords⟩) xarg yarg csv mask thr dw = .ok out' ∧
      List.Forall₂ (fun p q => q.1 = p.1 ∧ annualCycle ⟨p.2, axes⟩ t func yr = .ok ⟨q.2, axr⟩) out out' := by
  simp only [annualCycle, bind_ok] at hr
  obtain ⟨ax, h1, f, hf, h2⟩ := hr
  split at h2
  · rename_i hc
    cases h2
    have hs : SameBut t a ⟨cycleReduce f a.da ax t, label, a.coords⟩ := by
      refine ⟨rfl, hl, ?_⟩
      show List.filter _ (a.da.dims.map _) = _
      generalize a.da.dims = l
      induction l with
      | nil => rfl
      | cons p l ih =>
        rw [List.map_cons]
        by_cases hp : p.1 = t
        · rw [if_pos hp, List.filter_cons_of_neg (by simp), List.filter_cons_of_neg (by simp [hp]), ih]
        · rw [if_neg hp, List.filter_cons_of_pos (by simp [hp]), List.filter_cons_of_pos (by simp [hp]), ih]
    obtain ⟨out', h4, h5⟩ := C123_same_place hs hx hy htx hty h
    refine ⟨out', h4, h5.imp ?_⟩
    rintro p q ⟨hn, dims, e, ht, hp, hq⟩
    refine ⟨hn, ?_⟩
    simp only [annualCycle, bind_ok]
    refine ⟨ax, h1, f, hf, ?_⟩
    rw [if_pos hc, hp, hq]
    exact congrArg (fun d => Except.ok (Timed.mk d _)) (at_cycleReduce f a.da ax ht)
  · cases h2

theorem at_trend {b m c : TrendArray ℝ} {t : String} {units : Option String}
    (hr : calcLinearTrend b t units = .ok (m, c)) :
    m.da.dims = b.da.dims.filter (fun p => p.1 != t) ∧ c.da.dims = b.da.dims.filter (fun p => p.1 != t) ∧
    ∀ dims e, t ∉ dims → ∃ m' c',
      calcLinearTrend ⟨Spec.seriesAt b.da dims e, b.indexes, b.attrs⟩ t units = .ok (m', c') ∧
      m'.da = Spec.seriesAt m.da dims e ∧ c'.da = Spec.seriesAt c.da dims e ∧
      m'.attrs = m.attrs ∧ c'.attrs = c.attrs := by
  simp only [calcLinearTrend, bind_ok, pure_ok] at hr
  obtain ⟨ix, h1, ⟨s, c0⟩, h2, sl, h3, h4⟩ := hr
  cases h4
  have hdims : s.dims = b.da.dims.filter (fun p => p.1 != t) ∧
      c0.dims = b.da.dims.filter (fun p => p.1 != t) := by
    unfold polyfitCoefficients at h2
    split at h2
    · cases h2; exact ⟨rfl, rfl⟩
    · cases h2
  refine ⟨?_, hdims.2, ?_⟩
  · unfold scaleSlope at h3
    split at h3
    · simp only [bind_ok, pure_ok] at h3
      obtain ⟨f, h5, h6⟩ := h3
      cases h6
      exact (dims_mul_scalar _ _).trans hdims.1
    · cases h3; exact hdims.1
  · intro dims e ht
    have h2' := at_polyfit (dims := dims) (e := e)
      (b := ⟨Spec.seriesAt b.da dims e, b.indexes, b.attrs⟩) ht rfl h2
    simp only [calcLinearTrend, h1, h2', ok_bind]
    unfold scaleSlope at h3 ⊢
    split at h3
    · rename_i hc
      simp only [bind_ok, pure_ok] at h3
      obtain ⟨f, h5, h6⟩ := h3
      cases h6
      rw [if_pos hc]
      simp only [h5, ok_bind]
      refine ⟨_, _, rfl, ?_, rfl, rfl, rfl⟩
      show Spec.seriesAt s dims e * DA.scalar _ = Spec.seriesAt (s * DA.scalar _) dims e
      have hext : ∀ u v : DA (Fl ℝ), u.dims = v.dims → (∀ env, u.get env = v.get env) → u = v := by
        rintro ⟨_, _⟩ ⟨_, _⟩ h h'
        cases h
        congr 1
        exact funext h'
      refine hext _ _ ?_ (fun env => rfl)
      show (Spec.seriesAt s dims e * DA.scalar _).dims = (s * DA.scalar _).dims.filter _
      rw [dims_mul_scalar, dims_mul_scalar]
      rfl
    · rename_i hc
      cases h3
      rw [if_neg hc]
      exact ⟨_, _, rfl, rfl, rfl, rfl, rfl⟩

/-- Linear trends: slope and intercept of every gauge are the values of the maps of slopes and intercepts there. -/
theorem C123_trend {b m c : TrendArray ℝ} {label : String → Nat → Fl ℝ} {t : String} {units : Option String}
    (hb : b.da = a.da) (hl : ∀ d, d ≠ t → label d = a.label d) (hr : calcLinearTrend b t units = .ok (m, c))
    (hx : Denotes a xarg xn x) (hy : Denotes a yarg yn y)
    (htx : t ∉ x.da.dimNames) (hty : t ∉ y.da.dimNames) {out : List (String × DA (Fl ℝ))}
    (h : extractTidegauge T files (.da a) xarg yarg csv mask thr dw = .ok out) :
    ∃ om oc, extractTidegauge T files (.da ⟨m.da, label, a.coords⟩) xarg yarg csv mask thr dw = .ok om ∧
      extractTidegauge T files (.da ⟨c.da, label, a.coords⟩) xarg yarg csv mask thr dw = .ok oc ∧
      List.Forall₂ (fun p q => q.1 = p.1 ∧ ∃ m' c',
        calcLinearTrend ⟨p.2, b.indexes, b.attrs⟩ t units = .ok (m', c') ∧ m'.da = q.2 ∧
        m'.attrs = m.attrs) out om ∧
      List.Forall₂ (fun p q => q.1 = p.1 ∧ ∃ m' c',
        calcLinearTrend ⟨p.2, b.indexes, b.attrs⟩ t units = .ok (m', c') ∧ c'.da = q.2 ∧
        c'.attrs = c.attrs) out oc := by
  obtain ⟨d1, d2, hat⟩ := at_trend hr
  have hsm : SameBut t a ⟨m.da, label, a.coords⟩ := by
    refine ⟨rfl, hl, ?_⟩
    show m.da.dims.filter _ = _
    rw [d1, hb, List.filter_filter]
    simp
  have hsc : SameBut t a ⟨c.da, label, a.coords⟩ := by
    refine ⟨rfl, hl, ?_⟩
    show c.da.dims.filter _ = _
    rw [d2, hb, List.filter_filter]
    simp
  obtain ⟨om, h1, h2⟩ := C123_same_place hsm hx hy htx hty h
  obtain ⟨oc, h3, h4⟩ := C123_same_place hsc hx hy htx hty h
  refine ⟨om, oc, h1, h3, h2.imp ?_, h4.imp ?_⟩
  · rintro p q ⟨hn, dims, e, ht, hp, hq⟩
    obtain ⟨m', c', e1, e2, e3, e4, e5⟩ := hat dims e ht
    rw [hb, ← hp] at e1
    exact ⟨hn, m', c', e1, e2.trans hq.symm, e4⟩
  · rintro p q ⟨hn, dims, e, ht, hp, hq⟩
    obtain ⟨m', c', e1, e2, e3, e4, e5⟩ := hat dims e ht
    rw [hb, ← hp] at e1
    exact ⟨hn, m', c', e1, e3.trans hq.symm, e5⟩

end

/-! ## A case -/

/-- Twelve months on the grid of `tgArr`: the month at 10°N 0°E, and 0 elsewhere. -/
noncomputable def tgMonths : GaugeArray (Fl ℝ) where
  da := ⟨[("time", 12), ("yh", 2), ("xh", 2)],
    fun e => if e "yh" = 1 ∧ e "xh" = 0 then fin (e "time" : ℝ) else fin 0⟩
  label := tgLabel
  coords := [("geolon", tgX), ("geolat", tgY)]

theorem tgMonths_run (T : BallTree) :
    ∃ out, extractTidegauge T (fun _ => some tgGauges) (.da tgMonths) = .ok out := by
  have hx : Denotes tgMonths (.name "geolon") "geolon" ⟨tgX, tgLabel⟩ := Denotes.name _ _ rfl
  have hy : Denotes tgMonths (.name "geolat") "geolat" ⟨tgY, tgLabel⟩ := Denotes.name _ _ rfl
  have hg : SameGrid tgMonths ⟨tgX, tgLabel⟩ ⟨tgY, tgLabel⟩ :=
    { dims := tgSame.dims, some_dim := tgSame.some_dim, nodup := tgSame.nodup
      labels := fun _ _ _ _ => ⟨rfl, rfl⟩, inj := tgSame.inj
      arr := by
        intro p hp
        simp only [tgX, List.mem_cons, List.not_mem_nil, or_false] at hp
        rcases hp with rfl | rfl <;> simp [tgMonths]
      arr_nodup := by simp [tgMonths]
      wfx := tgSame.wfx, wfy := tgSame.wfy }
  exact C48_success T (files := fun _ => some tgGauges) (csv := "us") (mask := .none)
    none true hx hy (by simp) (by simp) (by simp) (by simp [tgX]) hg (by simp) (by simp)
    (gauges := tgGauges) rfl (by simp [tgGauges]) (by simp [tgGauges]) (by simp [tgGauges])
    (by simp [tgGauges])
    (by
      intro r hr
      simp only [tgGauges, List.mem_singleton] at hr
      exact ⟨10, 0, by rw [hr]; simp, by rw [hr]; simp⟩)
    ⟨fun _ => 0, by intro p hp; simp only [tgX, List.mem_cons, List.not_mem_nil, or_false] at hp
                    rcases hp with rfl | rfl <;> simp, trivial⟩
    (by
      intro e _ _
      exact ⟨_, _, rfl, rfl⟩)

/-- The annual averages at the gauge, in both orders. -/
example (T : BallTree) : ∃ r axr out out', annualAverage ⟨tgMonths.da, exMonthly.axes⟩ = .ok ⟨r, axr⟩ ∧
    extractTidegauge T (fun _ => some tgGauges) (.da tgMonths) = .ok out ∧
    extractTidegauge T (fun _ => some tgGauges) (.da ⟨r, tgLabel, tgMonths.coords⟩) = .ok out' ∧
    List.Forall₂ (fun p q => q.1 = p.1 ∧ annualAverage ⟨p.2, exMonthly.axes⟩ = .ok ⟨q.2, axr⟩) out out' := by
  obtain ⟨out, h⟩ := tgMonths_run T
  obtain ⟨⟨r, axr⟩, hr⟩ := (C38_twelve (x := ⟨tgMonths.da, exMonthly.axes⟩) (ax := exAxis) (tc := "time") rfl
    exAxis_good.nonempty).1 (by decide)
  obtain ⟨out', h1, h2⟩ := C123_annual (a := tgMonths) (label := tgLabel) (fun _ _ => rfl) hr
    (Denotes.name _ tgX rfl) (Denotes.name _ tgY rfl) (by simp [DA.dimNames, tgX])
    (by simp [DA.dimNames, tgY]) h
  exact ⟨r, axr, out, out', hr, h, h1, h2⟩

/-- The slopes at the gauge, in both orders. -/
example (T : BallTree) : ∃ m c out om,
    calcLinearTrend ⟨tgMonths.da, [("time", .numeric ((List.range 12).map (fun k => (k : ℝ))))], []⟩ "time" none
      = .ok (m, c) ∧
    extractTidegauge T (fun _ => some tgGauges) (.da tgMonths) = .ok out ∧
    extractTidegauge T (fun _ => some tgGauges) (.da ⟨m.da, tgLabel, tgMonths.coords⟩) = .ok om ∧
    List.Forall₂ (fun p q => q.1 = p.1 ∧ ∃ m' c', calcLinearTrend
      ⟨p.2, [("time", .numeric ((List.range 12).map (fun k => (k : ℝ))))], []⟩ "time" none = .ok (m', c') ∧
      m'.da = q.2 ∧ m'.attrs = m.attrs) out om := by
  obtain ⟨out, h⟩ := tgMonths_run T
  have hr : ∃ m c, calcLinearTrend
      ⟨tgMonths.da, [("time", .numeric ((List.range 12).map (fun k => (k : ℝ))))], []⟩ "time" none = .ok (m, c) :=
    ⟨_, _, rfl⟩
  obtain ⟨m, c, hr⟩ := hr
  obtain ⟨om, oc, h1, -, h2, -⟩ := C123_trend (a := tgMonths) (label := tgLabel) rfl (fun _ _ => rfl) hr
    (Denotes.name _ tgX rfl) (Denotes.name _ tgY rfl) (by simp [DA.dimNames, tgX])
    (by simp [DA.dimNames, tgY]) h
  exact ⟨m, c, out, om, hr, h, h1, h2⟩

/-- `C123_same_place`: the monthly values and one field without time are taken at the same place. -/
example (T : BallTree) : ∃ out out', extractTidegauge T (fun _ => some tgGauges) (.da tgMonths) = .ok out ∧
    extractTidegauge T (fun _ => some tgGauges)
      (.da ⟨(⟨tgMonths.da.dims.filter (fun p => p.1 != "time"), fun e => fin (e "xh" : ℝ)⟩ : DA (Fl ℝ)), tgLabel,
        tgMonths.coords⟩) = .ok out' ∧ out'.map Prod.fst = out.map Prod.fst := by
  obtain ⟨out, h⟩ := tgMonths_run T
  obtain ⟨out', h1, h2⟩ := C123_same_place (tc := "time") (a := tgMonths)
    (a' := ⟨(⟨tgMonths.da.dims.filter (fun p => p.1 != "time"), fun e => fin (e "xh" : ℝ)⟩ : DA (Fl ℝ)), tgLabel,
      tgMonths.coords⟩) ⟨rfl, fun _ _ => rfl, by simp⟩
    (Denotes.name _ tgX rfl) (Denotes.name _ tgY rfl) (by simp [DA.dimNames, tgX]) (by simp [DA.dimNames, tgY]) h
  refine ⟨out, out', h, h1, ?_⟩
  clear h h1
  induction h2 with
  | nil => rfl
  | cons h _ ih => rw [List.map_cons, List.map_cons, h.1, ih]

/-- `C123_monthly` and `C123_cycle`: the averages of each month at the gauge, in both orders. -/
example (T : BallTree) : ∃ r axr out out', monthlyAverage ⟨tgMonths.da, exMonthly.axes⟩ "time" = .ok ⟨r, axr⟩ ∧
    extractTidegauge T (fun _ => some tgGauges) (.da tgMonths) = .ok out ∧
    extractTidegauge T (fun _ => some tgGauges) (.da ⟨r, tgLabel, tgMonths.coords⟩) = .ok out' ∧
    List.Forall₂ (fun p q => q.1 = p.1 ∧ monthlyAverage ⟨p.2, exMonthly.axes⟩ "time" = .ok ⟨q.2, axr⟩) out out' := by
  obtain ⟨out, h⟩ := tgMonths_run T
  obtain ⟨⟨r, axr⟩, hr⟩ := (C41_complete (x := ⟨tgMonths.da, exMonthly.axes⟩) (ax := exAxis) (tc := "time") rfl
    exAxis_good).1 (fun s hs m h1 h2 => by
      have hy : ∀ s ∈ exAxis.stamps, s.date.year = 2004 := by decide
      rw [hy s hs]
      exact ⟨⟨⟨2004, m - 1 + 1, 15⟩, 0⟩, List.mem_map.2 ⟨m - 1, List.mem_range.2 (by omega), rfl⟩, rfl, by
        show m - 1 + 1 = m; omega⟩)
  obtain ⟨out', h1, h2⟩ := C123_monthly (a := tgMonths) (label := tgLabel) (fun _ _ => rfl) hr
    (Denotes.name _ tgX rfl) (Denotes.name _ tgY rfl) (by simp [DA.dimNames, tgX])
    (by simp [DA.dimNames, tgY]) h
  exact ⟨r, axr, out, out', hr, h, h1, h2⟩

end Momlevel.Props
