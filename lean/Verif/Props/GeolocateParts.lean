import Verif.Props.Geolocate

/-! # C116 `geolocate_points` treats locations one by one -/

set_option linter.unusedSectionVars false

namespace Momlevel.Props
open Momlevel Momlevel.Fl Momlevel.Spec

theorem mapM_append_ok {α β : Type} {f : α → Except PyErr β} {l m : List α} {r : List β} :
    (l ++ m).mapM f = .ok r ↔
      ∃ a b, l.mapM f = .ok a ∧ m.mapM f = .ok b ∧ r = a ++ b := by
  rw [List.mapM_append]
  simp only [bind_ok, pure_ok]
  constructor
  · rintro ⟨a, ha, b, hb, rfl⟩; exact ⟨a, b, ha, hb, rfl⟩
  · rintro ⟨a, b, ha, hb, rfl⟩; exact ⟨a, ha, b, hb, rfl⟩

theorem withinThreshold_append (t : Option (Fl ℝ))
    (l m : List ((String × (String → Fl ℝ)) × (Fl ℝ × Nat))) :
    withinThreshold t (l ++ m) = withinThreshold t l ++ withinThreshold t m := by
  cases t with
  | none => rfl
  | some t => exact List.filter_append ..

theorem reported_append (t : Option (Fl ℝ))
    (l m : List ((String × (String → Fl ℝ)) × (Fl ℝ × Nat))) :
    reported t (l ++ m) = reported t l ++ reported t m := by
  cases t with
  | none => rfl
  | some t => simp [reported]

theorem warnMissing_append {c : List String} {t : Option (Fl ℝ)} {dw : Bool}
    {l m : List ((String × (String → Fl ℝ)) × (Fl ℝ × Nat))} {w : List String} :
    warnMissing c t dw (l ++ m) = .ok w ↔
      ∃ a b, warnMissing c t dw l = .ok a ∧ warnMissing c t dw m = .ok b ∧ w = a ++ b := by
  unfold warnMissing
  rw [reported_append]
  generalize reported t l = x
  generalize reported t m = y
  cases dw
  · by_cases hn : "name" ∈ c
    · cases x <;> cases y <;> simp [hn] <;> exact eq_comm
    · cases x <;> cases y <;> simp [hn]
  · simp only [if_true, Except.ok.injEq]
    exact ⟨fun h => ⟨_, _, rfl, rfl, h.symm⟩, fun ⟨a, b, h1, h2, h⟩ => by rw [h, ← h1, ← h2]; rfl⟩

/-- A successful run, step by step. -/
theorem geolocate_iff {I : Type} {T : BallTree} {df : ModelFrame I} {locs : LocFrame}
    {thr : Option (Fl ℝ)} {yc xc lat lon : String} {R : Fl ℝ} {am dw : Bool}
    {rows : List (Located I)} {warns : List String} :
    geolocatePoints T df locs thr (yc, xc) R (lat, lon) am dw = .ok (rows, warns) ↔
    (xc ∈ df.columns ∧ yc ∈ df.columns ∧ lon ∈ locs.columns ∧ lat ∈ locs.columns ∧
      "lat" ∈ locs.columns ∧ "lon" ∈ locs.columns) ∧
    ∃ pts qs, checkArray ((maskRows df am).map
        (fun r => (npRadians (r.2 yc), npRadians (r.2 xc)))) = .ok pts ∧
      checkArray (locs.rows.map (fun r => (npRadians (r.2 lat), npRadians (r.2 lon)))) = .ok qs ∧
      warnMissing locs.columns thr dw (locs.rows.zip (qs.map (nearestPoint T pts R))) = .ok warns ∧
      (withinThreshold thr (locs.rows.zip (qs.map (nearestPoint T pts R)))).mapM
        (locatedRow (maskRows df am) yc xc) = .ok rows := by
  unfold geolocatePoints
  simp only [bind_ok, pure_ok]
  constructor
  · rintro ⟨_, h1, _, h2, _, h3, _, h4, pts, hp, qs, hq, w, hw, rs, hrs, _, h5, _, h6, h⟩
    obtain ⟨rfl, rfl⟩ := Prod.mk.inj h
    exact ⟨⟨needColumn_ok.1 h1, needColumn_ok.1 h2, needColumn_ok.1 h3, needColumn_ok.1 h4,
      needColumn_ok.1 h5, needColumn_ok.1 h6⟩, pts, qs, hp, hq, hw, hrs⟩
  · rintro ⟨⟨h1, h2, h3, h4, h5, h6⟩, pts, qs, hp, hq, hw, hrs⟩
    exact ⟨_, needColumn_ok.2 h1, _, needColumn_ok.2 h2, _, needColumn_ok.2 h3, _,
      needColumn_ok.2 h4, pts, hp, qs, hq, _, hw, _, hrs, _, needColumn_ok.2 h5, _,
      needColumn_ok.2 h6, rfl⟩

/-- A table of locations put together from two non-empty tables is mapped exactly when both are; the rows
and the warnings are those of the first followed by those of the second.  So no location influences
another one. -/
theorem C116_split {I : Type} (T : BallTree) (df : ModelFrame I) (columns : List String)
    (A B : List (String × (String → Fl ℝ))) (hA : A ≠ []) (hB : B ≠ [])
    (thr : Option (Fl ℝ)) (mc lc : String × String) (R : Fl ℝ) (am dw : Bool)
    (rows : List (Located I)) (warns : List String) :
    geolocatePoints T df ⟨columns, A ++ B⟩ thr mc R lc am dw = .ok (rows, warns) ↔
    ∃ ra wa rb wb,
      geolocatePoints T df ⟨columns, A⟩ thr mc R lc am dw = .ok (ra, wa) ∧
      geolocatePoints T df ⟨columns, B⟩ thr mc R lc am dw = .ok (rb, wb) ∧
      rows = ra ++ rb ∧ warns = wa ++ wb := by
  obtain ⟨yc, xc⟩ := mc
  obtain ⟨lat, lon⟩ := lc
  simp only [geolocate_iff]
  constructor
  · rintro ⟨hc, pts, qs, hp, hq, hw, hr⟩
    obtain ⟨_, hq⟩ := checkArray_ok.1 hq
    rw [List.map_append] at hq
    obtain ⟨qa, qb, rfl, ha, hb⟩ := List.append_eq_map_iff.1 hq
    have hl : A.length = (qa.map (nearestPoint T pts R)).length := by
      have := congrArg List.length ha; simp at this; simp [this]
    rw [List.map_append, List.zip_append hl] at hw hr
    obtain ⟨wa, wb, hwa, hwb, rfl⟩ := warnMissing_append.1 hw
    rw [withinThreshold_append] at hr
    obtain ⟨ra, rb, hra, hrb, rfl⟩ := mapM_append_ok.1 hr
    exact ⟨ra, wa, rb, wb, ⟨hc, pts, qa, hp, checkArray_ok.2 ⟨by simpa using hA, ha.symm⟩, hwa, hra⟩,
      ⟨hc, pts, qb, hp, checkArray_ok.2 ⟨by simpa using hB, hb.symm⟩, hwb, hrb⟩, rfl, rfl⟩
  · rintro ⟨ra, wa, rb, wb, ⟨hc, pts, qa, hp, hqa, hwa, hra⟩, ⟨_, pts', qb, hp', hqb, hwb, hrb⟩,
      rfl, rfl⟩
    rw [hp] at hp'
    obtain rfl := Except.ok.inj hp'
    obtain ⟨_, ha⟩ := checkArray_ok.1 hqa
    obtain ⟨_, hb⟩ := checkArray_ok.1 hqb
    have hl : A.length = (qa.map (nearestPoint T pts R)).length := by
      have := congrArg List.length ha; simp at this; simp [this]
    refine ⟨hc, pts, qa ++ qb, hp, checkArray_ok.2 ⟨by simpa using fun h => absurd h hA, ?_⟩, ?_, ?_⟩
    · rw [List.map_append, List.map_append, ha, hb]
    · rw [List.map_append, List.zip_append hl]
      exact warnMissing_append.2 ⟨wa, wb, hwa, hwb, rfl⟩
    · rw [List.map_append, List.zip_append hl, withinThreshold_append]
      exact mapM_append_ok.2 ⟨ra, rb, hra, hrb, rfl⟩

/-- Rows of the model table with a mask other than 1 can be added, removed, moved or changed: the result
is the same, including errors. -/
theorem C116_land {I : Type} (T : BallTree) {df df' : ModelFrame I} (locs : LocFrame)
    (thr : Option (Fl ℝ)) (mc lc : String × String) (R : Fl ℝ) (dw : Bool)
    (hc : df.columns = df'.columns) (hm : "mask" ∈ df.columns)
    (h : df.rows.filter (fun r => r.2 "mask" = fin 1) = df'.rows.filter (fun r => r.2 "mask" = fin 1)) :
    geolocatePoints T df locs thr mc R lc true dw = geolocatePoints T df' locs thr mc R lc true dw := by
  have e : maskRows df true = maskRows df' true := by
    rw [maskRows_eq, maskRows_eq, if_pos ⟨rfl, hm⟩, if_pos ⟨rfl, hc ▸ hm⟩, h]
  unfold geolocatePoints
  rw [e, hc]

theorem mapM_filter_ok {α β : Type} {f : α → Except PyErr β} {p : α → Bool} {q : β → Bool}
    (hpq : ∀ a b, f a = .ok b → q b = p a) {l : List α} : ∀ {r : List β}, l.mapM f = .ok r →
    (l.filter p).mapM f = .ok (r.filter q) := by
  induction l with
  | nil => intro r h; obtain rfl := (Except.ok.inj h).symm; rfl
  | cons a l ih =>
    intro r h
    rw [List.mapM_cons] at h
    simp only [bind_ok, pure_ok] at h
    obtain ⟨b, hb, s, hs, rfl⟩ := h
    have := ih hs
    rw [List.filter_cons, List.filter_cons, hpq a b hb]
    cases hp : p a
    · simpa using this
    · simp only [if_true, List.mapM_cons, hb, this, ok_bind]; rfl

/-- A smaller threshold selects from the rows of a larger one (or of none) those that are near enough,
unchanged and in the same order. -/
theorem C116_threshold {I : Type} {T : BallTree} {df : ModelFrame I} {locs : LocFrame} {t : ℝ}
    {thr : Option (Fl ℝ)} (hthr : thr = none ∨ ∃ t', thr = some (fin t') ∧ t ≤ t')
    {mc lc : String × String} {R : ℝ} {am : Bool} {rows : List (Located I)} {warns : List String}
    (h : geolocatePoints T df locs thr mc (fin R) lc am true = .ok (rows, warns)) :
    geolocatePoints T df locs (some (fin t)) mc (fin R) lc am true
      = .ok (rows.filter (atMost t), []) := by
  obtain ⟨yc, xc⟩ := mc
  obtain ⟨lat, lon⟩ := lc
  rw [geolocate_iff] at h ⊢
  obtain ⟨hc, pts, qs, hp, hq, hw, hr⟩ := h
  refine ⟨hc, pts, qs, hp, hq, rfl, ?_⟩
  have hd : ∀ r ∈ locs.rows.zip (qs.map (nearestPoint T pts (fin R))), ∃ x, r.2.1 = fin x := by
    intro r hr'
    obtain ⟨q, _, hq⟩ := List.mem_map.1 (List.of_mem_zip hr').2
    rw [← hq]
    exact ⟨_, rfl⟩
  have key := mapM_filter_ok (p := fun r => match r.2.1 with | .fin d => decide (d ≤ t) | _ => false)
    (q := atMost t) (fun a b hab => by
      unfold locatedRow at hab
      split at hab
      · cases hab
      · rw [← Except.ok.inj hab]; rfl) hr
  rw [← key]
  congr 1
  rcases hthr with rfl | ⟨t', rfl, htt⟩
  · refine List.filter_congr (fun r hr' => ?_)
    obtain ⟨x, hx⟩ := hd r hr'
    rw [hx]; rfl
  · simp only [withinThreshold, List.filter_filter]
    refine List.filter_congr (fun r hr' => ?_)
    obtain ⟨x, hx⟩ := hd r hr'
    rw [hx]
    simp only [Fl.le]
    by_cases hxt : x ≤ t
    · simp [hxt, hxt.trans htt]
    · simp [hxt]

/-- More usable model points never put a location farther away. -/
theorem C116_more_points {I J : Type} {T T' : BallTree} {df : ModelFrame I} {df' : ModelFrame J}
    {locs : LocFrame} {yc xc lat lon : String} {R : ℝ} (hR : 0 ≤ R) {am am' dw dw' : Bool}
    {rows : List (Located I)} {rows' : List (Located J)} {warns warns' : List String}
    (hsub : ∀ r ∈ (if am = true ∧ "mask" ∈ df.columns then
          df.rows.filter (fun r => r.2 "mask" = fin 1) else df.rows),
      ∃ r' ∈ (if am' = true ∧ "mask" ∈ df'.columns then
          df'.rows.filter (fun r => r.2 "mask" = fin 1) else df'.rows), r'.2 yc = r.2 yc ∧ r'.2 xc = r.2 xc)
    (h : geolocatePoints T df locs none (yc, xc) (fin R) (lat, lon) am dw = .ok (rows, warns))
    (h' : geolocatePoints T' df' locs none (yc, xc) (fin R) (lat, lon) am' dw' = .ok (rows', warns')) :
    List.Forall₂ (fun r r' => r.name = r'.name ∧
      ∃ d d' : ℝ, r.distance = fin d ∧ r'.distance = fin d' ∧ d' ≤ d) rows rows' := by
  obtain ⟨all, ha, hn, _⟩ := C46_map h
  obtain ⟨all', ha', hn', _⟩ := C46_map h'
  rw [hn rfl, hn' rfl]
  rw [List.forall₂_iff_get] at ha ha' ⊢
  refine ⟨ha.1.symm.trans ha'.1, fun i h1 h2 => ?_⟩
  obtain ⟨n, _, _, m, p, q, hi, _, _, hpy, hpx, hqy, hqx, hd, _⟩ := ha.2 i (ha.1 ▸ h1) h1
  obtain ⟨n', _, _, m', p', q', _, _, _, _, _, hqy', hqx', hd', hmin⟩ := ha'.2 i (ha.1 ▸ h1) h2
  refine ⟨n.trans n'.symm, _, _, hd, hd', ?_⟩
  obtain rfl : q = q' := Prod.ext (Fl.fin.inj (hqy.symm.trans hqy')) (Fl.fin.inj (hqx.symm.trans hqx'))
  obtain ⟨r', hr', ey, ex⟩ := hsub m (List.mem_of_getElem? hi)
  obtain ⟨p'', hy, hx, hle⟩ := hmin r' hr'
  obtain rfl : p = p'' := Prod.ext (Fl.fin.inj (hpy.symm.trans (ey.symm.trans hy)))
    (Fl.fin.inj (hpx.symm.trans (ex.symm.trans hx)))
  exact mul_le_mul_of_nonneg_left hle hR

/-- The order of the model points does not matter: the distances are the same, and the point found is the
same wherever only one usable point is nearest. -/
theorem C116_order {I : Type} {T T' : BallTree} {df df' : ModelFrame I}
    {locs : LocFrame} {yc xc lat lon : String} {R : ℝ} {am dw dw' : Bool}
    {rows rows' : List (Located I)} {warns warns' : List String}
    (hc : df.columns = df'.columns) (hperm : df.rows.Perm df'.rows)
    (h : geolocatePoints T df locs none (yc, xc) (fin R) (lat, lon) am dw = .ok (rows, warns))
    (h' : geolocatePoints T' df' locs none (yc, xc) (fin R) (lat, lon) am dw' = .ok (rows', warns')) :
    List.Forall₂ (fun r r' => r.name = r'.name ∧ r.cols = r'.cols ∧ r.distance = r'.distance ∧
      ((∀ m ∈ df.rows, ∀ p q : ℝ × ℝ, m.2 yc = fin p.1 → m.2 xc = fin p.2 → r.cols lat = fin q.1 →
          r.cols lon = fin q.2 → r.distance = fin (R * centralAngle q p) → m.1 = r.dim_vals ∧
            (m.2 yc, m.2 xc) = r.model_coords) →
        r'.dim_vals = r.dim_vals ∧ r'.model_coords = r.model_coords)) rows rows' := by
  obtain ⟨all, ha, hn, _⟩ := C46_map h
  obtain ⟨all', ha', hn', _⟩ := C46_map h'
  rw [hn rfl, hn' rfl]
  have hw : ∀ m, m ∈ (if am = true ∧ "mask" ∈ df.columns then
        df.rows.filter (fun r => r.2 "mask" = fin 1) else df.rows) ↔
      m ∈ (if am = true ∧ "mask" ∈ df'.columns then
        df'.rows.filter (fun r => r.2 "mask" = fin 1) else df'.rows) := by
    intro m
    rw [hc]
    split
    · simp [List.mem_filter, hperm.mem_iff]
    · exact hperm.mem_iff
  rw [List.forall₂_iff_get] at ha ha' ⊢
  refine ⟨ha.1.symm.trans ha'.1, fun i h1 h2 => ?_⟩
  obtain ⟨n, hcs, _, m, p, q, hi, hl, hmc, hpy, hpx, hqy, hqx, hd, hmin⟩ := ha.2 i (ha.1 ▸ h1) h1
  obtain ⟨n', hcs', _, m', p', q', hi', hl', hmc', hpy', hpx', hqy', hqx', hd', hmin'⟩ :=
    ha'.2 i (ha.1 ▸ h1) h2
  obtain rfl : q = q' := Prod.ext (Fl.fin.inj (hqy.symm.trans hqy')) (Fl.fin.inj (hqx.symm.trans hqx'))
  have hm := List.mem_of_getElem? hi
  have hm' := List.mem_of_getElem? hi'
  obtain ⟨s, hsy, hsx, hs⟩ := hmin m' ((hw m').2 hm')
  obtain ⟨s', hsy', hsx', hs'⟩ := hmin' m ((hw m).1 hm)
  obtain rfl : p' = s := Prod.ext (Fl.fin.inj (hpy'.symm.trans hsy)) (Fl.fin.inj (hpx'.symm.trans hsx))
  obtain rfl : p = s' := Prod.ext (Fl.fin.inj (hpy.symm.trans hsy')) (Fl.fin.inj (hpx.symm.trans hsx'))
  have e := le_antisymm hs hs'
  refine ⟨n.trans n'.symm, hcs.trans hcs'.symm, by rw [hd, hd', e], fun hu => ?_⟩
  have hmr : m' ∈ df.rows := by
    have := (hw m').2 hm'
    split at this
    · exact (List.mem_filter.1 this).1
    · exact this
  obtain ⟨a, b⟩ := hu m' hmr p' q hpy' hpx' (by rw [hcs]; exact hqy) (by rw [hcs]; exact hqx)
    (by rw [hd, e])
  exact ⟨hl'.trans a, hmc'.trans b⟩

/-! ## Concrete cases -/

/-- Two gauges at once are two gauges one after the other. -/
example (T : BallTree) (ra rb : List (Located (Nat × Nat))) (wa wb : List String)
    (a b : String × (String → Fl ℝ))
    (ha : geolocatePoints T exModel ⟨exLocs.columns, [a]⟩ = .ok (ra, wa))
    (hb : geolocatePoints T exModel ⟨exLocs.columns, [b]⟩ = .ok (rb, wb)) :
    geolocatePoints T exModel ⟨exLocs.columns, [a, b]⟩ = .ok (ra ++ rb, wa ++ wb) :=
  (C116_split T exModel exLocs.columns [a] [b] (by simp) (by simp) _ _ _ _ _ _ _ _).2
    ⟨ra, wa, rb, wb, ha, hb, rfl, rfl⟩

/-- The land point of the example can be left out. -/
example (T : BallTree) (thr : Option (Fl ℝ)) (R : Fl ℝ) :
    geolocatePoints T exModel exLocs thr ("geolat", "geolon") R
      = geolocatePoints T ⟨exModel.columns, exModel.rows.tail⟩ exLocs thr ("geolat", "geolon") R :=
  C116_land T exLocs thr _ _ R true rfl (by simp [exModel]) (by simp [exModel])

/-- Without the mask the gauge is at the land point, nearer than the ocean point. -/
example (T : BallTree) {rows rows' : List (Located (Nat × Nat))} {w w' : List String}
    (h : geolocatePoints T exModel exLocs none ("geolat", "geolon") (fin 6378) ("lat", "lon") true
      = .ok (rows, w))
    (h' : geolocatePoints T exModel exLocs none ("geolat", "geolon") (fin 6378) ("lat", "lon") false
      = .ok (rows', w')) :
    List.Forall₂ (fun r r' => r.name = r'.name ∧
      ∃ d d' : ℝ, r.distance = fin d ∧ r'.distance = fin d' ∧ d' ≤ d) rows rows' :=
  C116_more_points (by norm_num) (fun r hr => ⟨r, by
    rw [if_neg (by simp)]
    split at hr
    · exact (List.mem_filter.1 hr).1
    · exact hr, rfl, rfl⟩) h h'

/-- A threshold drops the gauge of the example, which is 10 degrees from the ocean point. -/
example (T : BallTree) : geolocatePoints T exModel exLocs (some (fin 1)) ("geolat", "geolon")
    (fin 6378) ("lat", "lon") true true = .ok ([], []) := by
  obtain ⟨rows, warns, h⟩ := exModel_ok T none (fin 6378) true
  obtain ⟨all, hall, hn, _⟩ := C46_map h
  obtain ⟨r, rfl, _, _, _, hd⟩ := exModel_row hall
  rw [C116_threshold (.inl rfl) h, hn rfl]
  have : ¬ (6378 * rad 10 ≤ 1) := by
    have := Real.two_le_pi
    unfold rad
    linarith
  simp [atMost, hd, this]

/-- The two orders of the example's points. -/
example (T : BallTree) {rows rows' : List (Located (Nat × Nat))} {w w' : List String}
    (h : geolocatePoints T exModel exLocs none ("geolat", "geolon") (fin 6378) = .ok (rows, w))
    (h' : geolocatePoints T ⟨exModel.columns, exModel.rows.reverse⟩ exLocs none ("geolat", "geolon")
      (fin 6378) = .ok (rows', w')) : rows.map Located.distance = rows'.map Located.distance := by
  have := C116_order (df := exModel) (df' := ⟨exModel.columns, exModel.rows.reverse⟩) rfl
    (List.reverse_perm _).symm h h'
  clear h h'
  induction this with
  | nil => rfl
  | cons hr _ ih => simp [hr.2.2.1, ih]

end Momlevel.Props
