import Verif.Props.Geolocate
import Mathlib.Analysis.Convex.SpecificFunctions.Deriv

/-! # C162: errors in coordinates and the mapping of locations -/

set_option linter.unusedSectionVars false

namespace Momlevel.Props
open Momlevel Momlevel.Fl Momlevel.Spec

theorem sin_scale {k x : ℝ} (hk0 : 0 ≤ k) (hk1 : k ≤ 1) (hx0 : 0 ≤ x) (hx1 : x ≤ Real.pi) :
    k * Real.sin x ≤ Real.sin (k * x) := by
  have h := strictConcaveOn_sin_Icc.concaveOn.2 (⟨le_rfl, Real.pi_pos.le⟩ : (0 : ℝ) ∈ Set.Icc 0 Real.pi)
    (⟨hx0, hx1⟩ : x ∈ Set.Icc 0 Real.pi) (sub_nonneg.2 hk1) hk0 (by ring)
  simpa using h

theorem arcsin_le_of_sin {x y : ℝ} (h0 : 0 ≤ x) (h1 : x ≤ Real.pi / 2) (h : y ≤ Real.sin x) :
    Real.arcsin y ≤ x := by
  have := Real.arcsin_le_arcsin h
  rwa [Real.arcsin_sin (by have := Real.pi_pos; linarith) h1] at this

theorem arcsin_scale {k x : ℝ} (hk0 : 0 ≤ k) (hk1 : k ≤ 1) (hx0 : 0 ≤ x) (hx1 : x ≤ Real.pi / 2) :
    Real.arcsin (k * Real.sin x) ≤ k * x := by
  have hpi := Real.pi_pos
  refine arcsin_le_of_sin (mul_nonneg hk0 hx0) ?_ (sin_scale hk0 hk1 hx0 (by linarith))
  nlinarith

theorem arcsin_abs_scale {k x : ℝ} (hk0 : 0 ≤ k) (hk1 : k ≤ 1) :
    Real.arcsin (k * |Real.sin x|) ≤ k * |x| := by
  have hpi := Real.pi_pos
  by_cases h : |x| ≤ Real.pi / 2
  · have e : |Real.sin x| = Real.sin |x| := by
      rcases le_total 0 x with h0 | h0
      · rw [abs_of_nonneg h0] at h ⊢
        exact abs_of_nonneg (Real.sin_nonneg_of_nonneg_of_le_pi h0 (by linarith))
      · rw [abs_of_nonpos h0] at h ⊢
        rw [← abs_neg, ← Real.sin_neg]
        exact abs_of_nonneg (Real.sin_nonneg_of_nonneg_of_le_pi (by linarith) (by linarith))
    rw [e]
    exact arcsin_scale hk0 hk1 (abs_nonneg x) h
  · have h1 : Real.arcsin (k * |Real.sin x|) ≤ Real.arcsin (k * Real.sin (Real.pi / 2)) := by
      apply Real.arcsin_le_arcsin
      rw [Real.sin_pi_div_two]
      exact mul_le_mul_of_nonneg_left (Real.abs_sin_le_one x) hk0
    exact h1.trans ((arcsin_scale hk0 hk1 (by linarith) le_rfl).trans
      (mul_le_mul_of_nonneg_left (not_le.1 h).le hk0))

theorem centralAngle_triangle (p q r : ℝ × ℝ) :
    centralAngle p r ≤ centralAngle p q + centralAngle q r := by
  have := C47_triangle p.1 p.2 q.1 q.2 r.1 r.2
  simpa only [C47_angle] using this

theorem centralAngle_comm (p q : ℝ × ℝ) : centralAngle p q = centralAngle q p := by
  have := C47_symm p.1 p.2 q.1 q.2
  simpa only [C47_angle] using this

theorem centralAngle_parallel (a b d : ℝ) :
    centralAngle (a, b) (a, d) ≤ |Real.cos (rad a)| * rad |b - d| := by
  rw [← C47_angle]
  unfold haversine
  simp only [sub_self, mul_zero, Real.sin_zero]
  have e : (0 : ℝ) ^ 2 + Real.cos (rad a) * Real.cos (rad a) * Real.sin (1 / 2 * (rad b - rad d)) ^ 2
      = (|Real.cos (rad a)| * |Real.sin (1 / 2 * (rad b - rad d))|) ^ 2 := by
    rw [mul_pow, sq_abs, sq_abs]; ring
  rw [e, Real.sqrt_sq (by positivity)]
  have h := arcsin_abs_scale (x := 1 / 2 * (rad b - rad d)) (abs_nonneg (Real.cos (rad a)))
    (Real.abs_cos_le_one _)
  have e2 : |1 / 2 * (rad b - rad d)| = rad |b - d| / 2 := by
    unfold rad
    rw [← sub_mul, ← sub_div, abs_mul, abs_mul, abs_of_pos Real.pi_pos,
      abs_of_pos (by norm_num : (0 : ℝ) < 1 / 2), abs_div, abs_of_pos (by norm_num : (0 : ℝ) < 180)]
    ring
  rw [e2] at h
  linarith

/-- Two points whose coordinates differ by little are close: the angle between them is at most the
difference of latitude plus the difference of longitude times the cosine of the latitude. -/
theorem C162_coordinates (a b c d : ℝ) :
    centralAngle (a, b) (c, d) ≤ rad |a - c| + |Real.cos (rad c)| * rad |b - d| := by
  have hpi := Real.pi_pos
  have h1 : centralAngle (a, b) (c, b) ≤ rad |a - c| := by
    by_cases h : |a - c| ≤ 180
    · rw [← C47_angle, C47_meridian _ _ _ h]
    · refine (Real.arccos_le_pi _).trans ?_
      unfold rad
      have : 1 ≤ |a - c| / 180 := by linarith
      nlinarith
  exact (centralAngle_triangle _ (c, b) _).trans (add_le_add h1 (centralAngle_parallel c b d))

theorem maps_errors {I : Type} {wet wet' : List (I × (String → Fl ℝ))}
    {locs locs' : List (String × (String → Fl ℝ))} {all all' : List (Located I)}
    {yc xc lat lon : String} {R δ ε : ℝ} (hR : 0 < R)
    (hpts : List.Forall₂ (fun m m' => m.1 = m'.1 ∧ WithinAngle yc xc ε m.2 m'.2) wet wet')
    (hloc : List.Forall₂ (fun l l' => l.1 = l'.1 ∧ WithinAngle lat lon δ l.2 l'.2) locs locs')
    (ha : List.Forall₂ (MapsTo wet yc xc lat lon R) locs all)
    (ha' : List.Forall₂ (MapsTo wet' yc xc lat lon R) locs' all') :
    List.Forall₂ (fun r r' => r.name = r'.name ∧
      ∃ d d' : ℝ, r.distance = fin d ∧ r'.distance = fin d' ∧ |d' - d| ≤ R * (δ + ε) ∧
      (∃ (m : I × (String → Fl ℝ)) (p q : ℝ × ℝ), wet[r'.mod_index]? = some m ∧ r'.dim_vals = m.1 ∧
        m.2 yc = fin p.1 ∧ m.2 xc = fin p.2 ∧ r.cols lat = fin q.1 ∧ r.cols lon = fin q.2 ∧
        R * centralAngle q p ≤ d + 2 * R * (δ + ε)) ∧
      ((∀ (k : ℕ) (m : I × (String → Fl ℝ)) (p q : ℝ × ℝ), k ≠ r.mod_index → wet[k]? = some m →
          m.2 yc = fin p.1 → m.2 xc = fin p.2 → r.cols lat = fin q.1 → r.cols lon = fin q.2 →
          d + 2 * R * (δ + ε) < R * centralAngle q p) →
        r'.mod_index = r.mod_index ∧ r'.dim_vals = r.dim_vals)) all all' := by
  have hlen : wet.length = wet'.length := hpts.length_eq
  rw [List.forall₂_iff_get] at ha ha' hloc hpts ⊢
  refine ⟨ha.1.symm.trans (hloc.1.trans ha'.1), fun i h1 h2 => ?_⟩
  have F := ha.2 i (ha.1 ▸ h1) h1
  have F' := ha'.2 i (ha'.1 ▸ h2) h2
  generalize all.get ⟨i, h1⟩ = r at F ⊢
  generalize all'.get ⟨i, h2⟩ = r' at F' ⊢
  obtain ⟨n, hcs, _, m, p, q, hi, hl, _, hpy, hpx, hqy, hqx, hd, hmin⟩ := F
  obtain ⟨n', _, _, m', p', q', hi', hl', _, hpy', hpx', hqy', hqx', hd', hmin'⟩ := F'
  obtain ⟨en, a, b, e1, e2, e3, e4, hδ⟩ := hloc.2 i (ha.1 ▸ h1) (ha'.1 ▸ h2)
  obtain rfl : q = a := Prod.ext (Fl.fin.inj (hqy.symm.trans e1)) (Fl.fin.inj (hqx.symm.trans e2))
  obtain rfl : q' = b := Prod.ext (Fl.fin.inj (hqy'.symm.trans e3)) (Fl.fin.inj (hqx'.symm.trans e4))
  -- the partner of the point found with the true coordinates
  obtain ⟨hk, ek⟩ := List.getElem?_eq_some_iff.1 hi
  obtain ⟨hk', ek'⟩ := List.getElem?_eq_some_iff.1 hi'
  obtain ⟨_, s, s', t1, t2, t3, t4, hε⟩ := hpts.2 _ hk (hlen ▸ hk)
  obtain ⟨el, z, z', v1, v2, v3, v4, hε'⟩ := hpts.2 _ (hlen ▸ hk') hk'
  simp only [List.get_eq_getElem] at t1 t2 t3 t4 v1 v2 v3 v4 el
  rw [ek] at t1 t2
  rw [ek'] at v3 v4 el
  obtain rfl : p = s := Prod.ext (Fl.fin.inj (hpy.symm.trans t1)) (Fl.fin.inj (hpx.symm.trans t2))
  obtain rfl : p' = z' := Prod.ext (Fl.fin.inj (hpy'.symm.trans v3)) (Fl.fin.inj (hpx'.symm.trans v4))
  obtain ⟨c', w1, w2, hle'⟩ := hmin' _ (List.getElem_mem (hlen ▸ hk))
  obtain rfl : s' = c' := Prod.ext (Fl.fin.inj (t3.symm.trans w1)) (Fl.fin.inj (t4.symm.trans w2))
  obtain ⟨c, x1, x2, hle⟩ := hmin _ (List.getElem_mem (hlen ▸ hk' : _ < wet.length))
  obtain rfl : z = c := Prod.ext (Fl.fin.inj (v1.symm.trans x1)) (Fl.fin.inj (v2.symm.trans x2))
  have g1 : centralAngle q' s' ≤ centralAngle q p + (δ + ε) := by
    have := centralAngle_triangle q' q s'
    have := centralAngle_triangle q p s'
    have := centralAngle_comm q' q
    linarith
  have g2 : centralAngle q z ≤ centralAngle q' p' + (δ + ε) := by
    have := centralAngle_triangle q q' z
    have := centralAngle_triangle q' p' z
    have := centralAngle_comm p' z
    linarith
  have hfar : R * centralAngle q z ≤ R * centralAngle q p + 2 * R * (δ + ε) := by
    have : centralAngle q z ≤ centralAngle q p + 2 * (δ + ε) := by linarith
    nlinarith
  refine ⟨n.trans (en.trans n'.symm), _, _, hd, hd', ?_, ⟨wet[r'.mod_index]'(hlen ▸ hk'), z, q,
    List.getElem?_eq_getElem _, hl'.trans el.symm, v1, v2, hcs ▸ hqy, hcs ▸ hqx, hfar⟩, fun hu => ?_⟩
  · rw [abs_le]
    constructor
    · have : centralAngle q p - centralAngle q' p' ≤ δ + ε := by linarith
      nlinarith
    · have : centralAngle q' p' - centralAngle q p ≤ δ + ε := by linarith
      nlinarith
  · by_cases hidx : r'.mod_index = r.mod_index
    · refine ⟨hidx, ?_⟩
      rw [hl', ← el, hl, ← ek]
      congr 1
      simp only [hidx]
    · exact absurd hfar (not_le.2 (hu _ _ z q hidx (List.getElem?_eq_getElem _) v1 v2 (hcs ▸ hqy) (hcs ▸ hqx)))

/-- Coordinates that are off by at most the angle `δ` (locations) and `ε` (model points) change each
distance by at most `R * (δ + ε)`.  The point found is at most `2 * R * (δ + ε)` farther away than the
nearest one, and it is the nearest one if all others are farther by more than that. -/
theorem C162_errors {I : Type} {T T' : BallTree} {df df' : ModelFrame I} {locs locs' : LocFrame}
    {yc xc lat lon : String} {R δ ε : ℝ} (hR : 0 < R) {am am' dw dw' : Bool}
    {rows rows' : List (Located I)} {warns warns' : List String} {wet wet' : List (I × (String → Fl ℝ))}
    (hwet : wet = if am = true ∧ "mask" ∈ df.columns then
      df.rows.filter (fun r => r.2 "mask" = fin 1) else df.rows)
    (hwet' : wet' = if am' = true ∧ "mask" ∈ df'.columns then
      df'.rows.filter (fun r => r.2 "mask" = fin 1) else df'.rows)
    (hpts : List.Forall₂ (fun m m' => m.1 = m'.1 ∧ WithinAngle yc xc ε m.2 m'.2) wet wet')
    (hloc : List.Forall₂ (fun l l' => l.1 = l'.1 ∧ WithinAngle lat lon δ l.2 l'.2) locs.rows locs'.rows)
    (h : geolocatePoints T df locs none (yc, xc) (fin R) (lat, lon) am dw = .ok (rows, warns))
    (h' : geolocatePoints T' df' locs' none (yc, xc) (fin R) (lat, lon) am' dw' = .ok (rows', warns')) :
    List.Forall₂ (fun r r' => r.name = r'.name ∧
      ∃ d d' : ℝ, r.distance = fin d ∧ r'.distance = fin d' ∧ |d' - d| ≤ R * (δ + ε) ∧
      (∃ (m : I × (String → Fl ℝ)) (p q : ℝ × ℝ), wet[r'.mod_index]? = some m ∧ r'.dim_vals = m.1 ∧
        m.2 yc = fin p.1 ∧ m.2 xc = fin p.2 ∧ r.cols lat = fin q.1 ∧ r.cols lon = fin q.2 ∧
        R * centralAngle q p ≤ d + 2 * R * (δ + ε)) ∧
      ((∀ (k : ℕ) (m : I × (String → Fl ℝ)) (p q : ℝ × ℝ), k ≠ r.mod_index → wet[k]? = some m →
          m.2 yc = fin p.1 → m.2 xc = fin p.2 → r.cols lat = fin q.1 → r.cols lon = fin q.2 →
          d + 2 * R * (δ + ε) < R * centralAngle q p) →
        r'.mod_index = r.mod_index ∧ r'.dim_vals = r.dim_vals)) rows rows' := by
  obtain ⟨all, ha, hn, _⟩ := C46_map h
  obtain ⟨all', ha', hn', _⟩ := C46_map h'
  rw [hn rfl, hn' rfl]
  exact maps_errors hR hpts hloc (hwet ▸ ha) (hwet' ▸ ha')

theorem filter_sublist_forall₂ {α β γ : Type} {R : α → β → Prop} {f : α → γ} {g : β → γ} {a : α → Bool}
    {b : β → Bool} (hR : ∀ x y, R x y → f x = g y ∧ (a x = true → b y = true)) {l : List α} {l' : List β}
    (h : List.Forall₂ R l l') : ((l.filter a).map f).Sublist ((l'.filter b).map g) := by
  induction h with
  | nil => simp
  | @cons x y l l' hxy _ ih =>
    obtain ⟨e, hab⟩ := hR x y hxy
    by_cases ha : a x = true
    · rw [List.filter_cons_of_pos ha, List.filter_cons_of_pos (hab ha), List.map_cons, List.map_cons, e]
      exact ih.cons_cons _
    · rw [List.filter_cons_of_neg ha]
      by_cases hb : b y = true
      · rw [List.filter_cons_of_pos hb, List.map_cons]
        exact ih.cons _
      · rw [List.filter_cons_of_neg hb]
        exact ih

/-- A threshold larger by `R * (δ + ε)` keeps every location in spite of the errors of the coordinates. -/
theorem C162_threshold {I : Type} {T T' : BallTree} {df df' : ModelFrame I} {locs locs' : LocFrame}
    {yc xc lat lon : String} {R δ ε t t' : ℝ} (hR : 0 < R) {am am' dw dw' : Bool}
    {rows rows' : List (Located I)} {warns warns' : List String} {wet wet' : List (I × (String → Fl ℝ))}
    (hwet : wet = if am = true ∧ "mask" ∈ df.columns then
      df.rows.filter (fun r => r.2 "mask" = fin 1) else df.rows)
    (hwet' : wet' = if am' = true ∧ "mask" ∈ df'.columns then
      df'.rows.filter (fun r => r.2 "mask" = fin 1) else df'.rows)
    (hpts : List.Forall₂ (fun m m' => m.1 = m'.1 ∧ WithinAngle yc xc ε m.2 m'.2) wet wet')
    (hloc : List.Forall₂ (fun l l' => l.1 = l'.1 ∧ WithinAngle lat lon δ l.2 l'.2) locs.rows locs'.rows)
    (ht : t + R * (δ + ε) ≤ t')
    (h : geolocatePoints T df locs (some (fin t)) (yc, xc) (fin R) (lat, lon) am dw = .ok (rows, warns))
    (h' : geolocatePoints T' df' locs' (some (fin t')) (yc, xc) (fin R) (lat, lon) am' dw'
      = .ok (rows', warns')) :
    (rows.map (fun r => r.name)).Sublist (rows'.map (fun r => r.name)) := by
  obtain ⟨all, ha, _, hn, _⟩ := C46_map h
  obtain ⟨all', ha', _, hn', _⟩ := C46_map h'
  rw [hn t rfl, hn' t' rfl]
  refine filter_sublist_forall₂ ?_ (maps_errors hR hpts hloc (hwet ▸ ha) (hwet' ▸ ha'))
  rintro r r' ⟨hname, d, d', hd, hd', hb, _⟩
  refine ⟨hname, fun hle => ?_⟩
  simp only [atMost, hd, hd', decide_eq_true_eq] at hle ⊢
  have := (abs_le.1 hb).2
  linarith

/-! ## Concrete cases -/

/-- The location of `exLocs` one degree off. -/
noncomputable def exLocsOff : LocFrame where
  columns := ["name", "lat", "lon"]
  rows := [("GAUGE", fun c => if c = "lat" then fin 1 else fin 0)]

theorem exModel_rows : exModel.rows = if false = true ∧ "mask" ∈ exModel.columns then
    exModel.rows.filter (fun r => r.2 "mask" = fin 1) else exModel.rows := by simp

theorem exModel_fin : ∀ r ∈ exModel.rows, ∃ a b : ℝ, r.2 "geolat" = fin a ∧ r.2 "geolon" = fin b := by
  intro r hr
  simp only [exModel, List.mem_cons, List.not_mem_nil, or_false] at hr
  rcases hr with rfl | rfl
  · exact ⟨0, 0, by simp, by simp⟩
  · exact ⟨10, 0, by simp, by simp⟩

theorem centralAngle_self (p : ℝ × ℝ) : centralAngle p p ≤ 0 := by
  have := C162_coordinates p.1 p.2 p.1 p.2
  simpa [rad] using this

theorem exModel_near : List.Forall₂ (fun m m' : (ℕ × ℕ) × (String → Fl ℝ) => m.1 = m'.1 ∧
    WithinAngle "geolat" "geolon" 0 m.2 m'.2) exModel.rows exModel.rows := by
  rw [List.forall₂_same]
  intro m hm
  obtain ⟨a, b, ha, hb⟩ := exModel_fin m hm
  exact ⟨rfl, (a, b), (a, b), ha, hb, ha, hb, centralAngle_self _⟩

theorem exLocs_near : List.Forall₂ (fun l l' : String × (String → Fl ℝ) => l.1 = l'.1 ∧
    WithinAngle "lat" "lon" (rad 1) l.2 l'.2) exLocs.rows exLocsOff.rows := by
  simp only [exLocs, exLocsOff, List.forall₂_cons, List.forall₂_nil_left_iff, and_true, true_and]
  refine ⟨(0, 0), (1, 0), rfl, rfl, by simp, by simp, ?_⟩
  have := C162_coordinates 0 0 1 0
  simpa [rad] using this

theorem exLocs_ok (T : BallTree) (thr : Option (Fl ℝ)) : ∃ rows warns,
    geolocatePoints T exModel exLocs thr ("geolat", "geolon") (fin 6378) ("lat", "lon") false true
      = .ok (rows, warns) :=
  C46_success T exModel exLocs thr (fin 6378) false true (by simp [exModel])
    (by simp [exModel]) (by simp [exLocs]) (by simp [exLocs]) (by simp [exLocs]) (by simp [exLocs])
    (by simp [exLocs]) exModel_rows (by simp [exModel]) (by simp [exLocs]) exModel_fin (by
      intro r hr
      simp only [exLocs, List.mem_singleton] at hr
      exact ⟨0, 0, by rw [hr], by rw [hr]⟩)

theorem exLocsOff_ok (T : BallTree) (thr : Option (Fl ℝ)) : ∃ rows warns,
    geolocatePoints T exModel exLocsOff thr ("geolat", "geolon") (fin 6378) ("lat", "lon") false true
      = .ok (rows, warns) :=
  C46_success T exModel exLocsOff thr (fin 6378) false true
    (by simp [exModel]) (by simp [exModel]) (by simp [exLocsOff]) (by simp [exLocsOff])
    (by simp [exLocsOff]) (by simp [exLocsOff]) (by simp [exLocsOff]) exModel_rows (by simp [exModel])
    (by simp [exLocsOff]) exModel_fin (by
      intro r hr
      simp only [exLocsOff, List.mem_singleton] at hr
      exact ⟨1, 0, by rw [hr]; simp, by rw [hr]; simp⟩)

/-- Without the mask the location of `exLocs` is on a model point and the other one is ten degrees away;
an error of one degree does no harm, and the distance becomes at most that of one degree. -/
example (T : BallTree) : ∃ r warns,
    geolocatePoints T exModel exLocsOff none ("geolat", "geolon") (fin 6378) ("lat", "lon") false true
      = .ok ([r], warns) ∧ r.dim_vals = (0, 0) ∧ ∃ d : ℝ, r.distance = fin d ∧ d ≤ 6378 * rad 1 := by
  obtain ⟨rows, warns, h⟩ := exLocs_ok T none
  obtain ⟨rows', warns', h'⟩ := exLocsOff_ok T none
  have hpi := Real.pi_pos
  have main := C162_errors (by norm_num : (0 : ℝ) < 6378) exModel_rows exModel_rows exModel_near exLocs_near h h'
  obtain ⟨all, ha, hn, _⟩ := C46_map h
  obtain rfl := hn rfl
  rw [← exModel_rows] at ha
  simp only [exLocs, List.forall₂_cons_left_iff, List.forall₂_nil_left_iff] at ha
  obtain ⟨r, _, hm, rfl, rfl⟩ := ha
  simp only [List.forall₂_cons_left_iff, List.forall₂_nil_left_iff] at main
  obtain ⟨r', _, ⟨_, d, d', hd, hd', hb, _, hu⟩, rfl, rfl⟩ := main
  obtain ⟨_, hcs, _, m, p, q, hi, hdv, _, hpy, hpx, hqy, hqx, hdr, hmin⟩ := hm
  have hq : q = (0, 0) := Prod.ext (Fl.fin.inj hqy).symm (Fl.fin.inj hqx).symm
  obtain ⟨p0, hp0y, hp0x, hle⟩ := hmin _ (List.mem_cons_self ..)
  have hp0 : p0 = (0, 0) :=
    Prod.ext (Fl.fin.inj (by simpa using hp0y)).symm (Fl.fin.inj (by simpa using hp0x)).symm
  have h10 : centralAngle (0, 0) (10, 0) = rad 10 := by
    rw [← C47_angle, C47_meridian _ _ _ (by norm_num)]; norm_num
  have hr10 : 0 < rad 10 := by unfold rad; positivity
  have h21 : 2 * rad 1 < rad 10 := by unfold rad; nlinarith
  have hidx : r.mod_index = 0 ∧ m.1 = (0, 0) ∧ p = (0, 0) := by
    have hlt := (List.getElem?_eq_some_iff.1 hi).1
    simp only [exModel, List.length_cons, List.length_nil] at hlt
    rcases (by omega : r.mod_index = 0 ∨ r.mod_index = 1) with e | e
    · rw [e] at hi
      simp only [exModel, List.getElem?_cons_zero, Option.some.injEq] at hi
      subst hi
      exact ⟨e, rfl, Prod.ext (Fl.fin.inj (by simpa using hpy)).symm (Fl.fin.inj (by simpa using hpx)).symm⟩
    · rw [e] at hi
      simp only [exModel, List.getElem?_cons_succ, List.getElem?_cons_zero, Option.some.injEq] at hi
      subst hi
      have hp : p = (10, 0) :=
        Prod.ext (Fl.fin.inj (by simpa using hpy)).symm (Fl.fin.inj (by simpa using hpx)).symm
      rw [hp, hq, hp0, h10] at hle
      have := centralAngle_self (0, 0)
      linarith
  obtain ⟨hi0, hm0, rfl⟩ := hidx
  have hd0 : d ≤ 0 := by
    rw [hd, hq] at hdr
    rw [Fl.fin.inj hdr]
    have := centralAngle_self (0, 0)
    linarith
  refine ⟨r', warns', h', ?_, d', hd', ?_⟩
  · refine ((hu ?_).2.trans hdv).trans hm0
    intro k m' p' q' hk hm' hy hx hqy' hqx'
    have hq' : q' = (0, 0) := by
      rw [hcs] at hqy' hqx'
      exact Prod.ext (Fl.fin.inj hqy').symm (Fl.fin.inj hqx').symm
    have hlt := (List.getElem?_eq_some_iff.1 hm').1
    simp only [exModel, List.length_cons, List.length_nil] at hlt
    obtain rfl : k = 1 := by omega
    simp only [exModel, List.getElem?_cons_succ, List.getElem?_cons_zero, Option.some.injEq] at hm'
    subst hm'
    have hp : p' = (10, 0) :=
      Prod.ext (Fl.fin.inj (by simpa using hy)).symm (Fl.fin.inj (by simpa using hx)).symm
    rw [hq', hp, h10]
    linarith
  · have := (abs_le.1 hb).2
    linarith

/-- Within no distance of a model point by its true coordinates, within one degree in spite of the error. -/
example (T : BallTree) : ∃ rows warns rows' warns',
    geolocatePoints T exModel exLocs (some (fin 0)) ("geolat", "geolon") (fin 6378) ("lat", "lon") false true
      = .ok (rows, warns) ∧
    geolocatePoints T exModel exLocsOff (some (fin (6378 * rad 1))) ("geolat", "geolon") (fin 6378)
      ("lat", "lon") false true = .ok (rows', warns') ∧
    (rows.map (fun r => r.name)).Sublist (rows'.map (fun r => r.name)) := by
  obtain ⟨rows, warns, h⟩ := exLocs_ok T (some (fin 0))
  obtain ⟨rows', warns', h'⟩ := exLocsOff_ok T (some (fin (6378 * rad 1)))
  exact ⟨rows, warns, rows', warns', h, h', C162_threshold (by norm_num : (0 : ℝ) < 6378) exModel_rows
    exModel_rows exModel_near exLocs_near (by simp) h h'⟩

end Momlevel.Props
