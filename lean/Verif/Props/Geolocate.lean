import Verif.Model.Geolocate
import Verif.Spec.Geolocate
import Verif.Props.Grid
import Verif.Lemmas.Steric
import Mathlib.Geometry.Euclidean.Angle.Unoriented.TriangleInequality
import Mathlib.Analysis.InnerProductSpace.PiL2

/-! # C46, C47, C49 `geolocate_points` -/

set_option linter.unusedSectionVars false

namespace Momlevel.Props
open Momlevel Momlevel.Fl Momlevel.Spec

/-! ## C47: the distance -/

theorem dot_eq (a b c d : ℝ) : dot (spherePoint a b) (spherePoint c d)
    = Real.sin (rad a) * Real.sin (rad c)
      + Real.cos (rad a) * Real.cos (rad c) * Real.cos (rad b - rad d) := by
  unfold dot spherePoint
  rw [Real.cos_sub]
  ring

theorem dot_self (a b : ℝ) : dot (spherePoint a b) (spherePoint a b) = 1 := by
  rw [dot_eq, sub_self, Real.cos_zero]
  nlinarith [Real.sin_sq_add_cos_sq (rad a)]

theorem dot_mem (a b c d : ℝ) : -1 ≤ dot (spherePoint a b) (spherePoint c d) ∧
    dot (spherePoint a b) (spherePoint c d) ≤ 1 := by
  have h1 := dot_self a b
  have h2 := dot_self c d
  generalize spherePoint a b = u at *
  generalize spherePoint c d = v at *
  unfold dot at *
  constructor
  · nlinarith [sq_nonneg (u.1 + v.1), sq_nonneg (u.2.1 + v.2.1), sq_nonneg (u.2.2 + v.2.2)]
  · nlinarith [sq_nonneg (u.1 - v.1), sq_nonneg (u.2.1 - v.2.1), sq_nonneg (u.2.2 - v.2.2)]

theorem half_angle {c : ℝ} (h1 : -1 ≤ c) (h2 : c ≤ 1) :
    2 * Real.arcsin (Real.sqrt ((1 - c) / 2)) = Real.arccos c := by
  set t := Real.arccos c with ht
  have hc : c = Real.cos t := (Real.cos_arccos h1 h2).symm
  have h0 : 0 ≤ t := Real.arccos_nonneg c
  have hp : t ≤ Real.pi := Real.arccos_le_pi c
  have hs : (1 - c) / 2 = Real.sin (t / 2) ^ 2 := by
    have := Real.cos_sq (t / 2)
    have h3 := Real.sin_sq_add_cos_sq (t / 2)
    rw [show 2 * (t / 2) = t by ring] at this
    rw [hc]; linarith
  rw [hs, Real.sqrt_sq (Real.sin_nonneg_of_nonneg_of_le_pi (by linarith) (by linarith)),
    Real.arcsin_sin (by linarith) (by linarith)]
  ring

/-- The distance used for geolocation is the angle between the two directions seen from the centre of
the earth. -/
theorem C47_angle (a b c d : ℝ) :
    haversine (rad a, rad b) (rad c, rad d) = centralAngle (a, b) (c, d) := by
  unfold haversine centralAngle
  rw [← half_angle (dot_mem a b c d).1 (dot_mem a b c d).2, dot_eq]
  congr 3
  have h1 := Real.cos_sq ((1 / 2) * (rad b - rad d))
  have h2 := Real.sin_sq_add_cos_sq ((1 / 2) * (rad b - rad d))
  have h3 := Real.cos_sq ((1 / 2) * (rad a - rad c))
  have h4 := Real.sin_sq_add_cos_sq ((1 / 2) * (rad a - rad c))
  rw [show 2 * ((1 / 2) * (rad b - rad d)) = rad b - rad d by ring] at h1
  rw [show 2 * ((1 / 2) * (rad a - rad c)) = rad a - rad c by ring, Real.cos_sub] at h3
  have e1 : Real.sin ((1 / 2) * (rad b - rad d)) ^ 2 = (1 - Real.cos (rad b - rad d)) / 2 := by
    linarith
  rw [e1]
  linarith

theorem spherePoint_shift (a b : ℝ) (k : ℤ) : spherePoint a (b + 360 * k) = spherePoint a b := by
  have : rad (b + 360 * k) = rad b + k * (2 * Real.pi) := by unfold rad; ring
  unfold spherePoint
  rw [this, Real.cos_add_int_mul_two_pi, Real.sin_add_int_mul_two_pi]

/-- Longitudes that differ by whole turns give the same distance. -/
theorem C47_shift (a b c d : ℝ) (j k : ℤ) :
    haversine (rad a, rad (b + 360 * j)) (rad c, rad (d + 360 * k))
      = haversine (rad a, rad b) (rad c, rad d) := by
  rw [C47_angle, C47_angle]
  unfold centralAngle
  rw [spherePoint_shift, spherePoint_shift]

/-- Symmetric. -/
theorem C47_symm (a b c d : ℝ) :
    haversine (rad a, rad b) (rad c, rad d) = haversine (rad c, rad d) (rad a, rad b) := by
  rw [C47_angle, C47_angle]
  unfold centralAngle dot
  congr 1
  ring

/-- Between zero and half the circumference of the unit circle. -/
theorem C47_range (a b c d : ℝ) : 0 ≤ haversine (rad a, rad b) (rad c, rad d) ∧
    haversine (rad a, rad b) (rad c, rad d) ≤ Real.pi := by
  rw [C47_angle]
  exact ⟨Real.arccos_nonneg _, Real.arccos_le_pi _⟩

/-- Zero exactly for two names of the same point of the sphere. -/
theorem C47_zero (a b c d : ℝ) : haversine (rad a, rad b) (rad c, rad d) = 0 ↔
    spherePoint a b = spherePoint c d := by
  rw [C47_angle]
  unfold centralAngle
  rw [Real.arccos_eq_zero]
  constructor
  · intro h
    have h1 := dot_self a b
    have h2 := dot_self c d
    simp only at h
    generalize spherePoint a b = u at *
    generalize spherePoint c d = v at *
    unfold dot at *
    have e : (u.1 - v.1) ^ 2 + (u.2.1 - v.2.1) ^ 2 + (u.2.2 - v.2.2) ^ 2 ≤ 0 := by nlinarith
    have e1 : u.1 - v.1 = 0 := by
      nlinarith [sq_nonneg (u.1 - v.1), sq_nonneg (u.2.1 - v.2.1), sq_nonneg (u.2.2 - v.2.2)]
    have e2 : u.2.1 - v.2.1 = 0 := by
      nlinarith [sq_nonneg (u.1 - v.1), sq_nonneg (u.2.1 - v.2.1), sq_nonneg (u.2.2 - v.2.2)]
    have e3 : u.2.2 - v.2.2 = 0 := by
      nlinarith [sq_nonneg (u.1 - v.1), sq_nonneg (u.2.1 - v.2.1), sq_nonneg (u.2.2 - v.2.2)]
    exact Prod.ext (by linarith) (Prod.ext (by linarith) (by linarith))
  · intro h
    rw [h, dot_self]

/-- The same point of the sphere as a vector of Euclidean space. -/
noncomputable def toEuclid (u : ℝ × ℝ × ℝ) : EuclideanSpace ℝ (Fin 3) := !₂[u.1, u.2.1, u.2.2]

theorem angle_toEuclid (a b c d : ℝ) :
    InnerProductGeometry.angle (toEuclid (spherePoint a b)) (toEuclid (spherePoint c d))
      = centralAngle (a, b) (c, d) := by
  have hn : ∀ x y : ℝ, ‖toEuclid (spherePoint x y)‖ = 1 := by
    intro x y
    rw [EuclideanSpace.norm_eq, Real.sqrt_eq_one]
    have := dot_self x y
    unfold dot at this
    simp [toEuclid, Fin.sum_univ_three]
    nlinarith
  unfold InnerProductGeometry.angle centralAngle
  rw [hn, hn, mul_one, div_one]
  congr 1
  simp [toEuclid, dot, Fin.sum_univ_three, PiLp.inner_apply]
  ring

/-- The triangle inequality. -/
theorem C47_triangle (a b c d x y : ℝ) :
    haversine (rad a, rad b) (rad x, rad y)
      ≤ haversine (rad a, rad b) (rad c, rad d) + haversine (rad c, rad d) (rad x, rad y) := by
  rw [C47_angle, C47_angle, C47_angle, ← angle_toEuclid, ← angle_toEuclid, ← angle_toEuclid]
  exact InnerProductGeometry.angle_le_angle_add_angle _ _ _

/-- Along a meridian the distance is the difference in latitude. -/
theorem C47_meridian (a c b : ℝ) (h : |a - c| ≤ 180) :
    haversine (rad a, rad b) (rad c, rad b) = rad |a - c| := by
  rw [C47_angle]
  unfold centralAngle
  have hpi := Real.pi_pos
  simp only
  rw [dot_eq, sub_self, Real.cos_zero, mul_one]
  have e : Real.sin (rad a) * Real.sin (rad c) + Real.cos (rad a) * Real.cos (rad c)
      = Real.cos (rad |a - c|) := by
    have : rad |a - c| = |rad a - rad c| := by
      unfold rad
      rw [← sub_mul, ← sub_div, abs_mul, abs_div, abs_of_pos hpi]
      norm_num
    rw [this, Real.cos_abs, Real.cos_sub]
    ring
  rw [e, Real.arccos_cos]
  · unfold rad; positivity
  · unfold rad
    calc |a - c| / 180 * Real.pi ≤ 180 / 180 * Real.pi := by gcongr
      _ = Real.pi := by ring

/-- A non-trivial distance: from the equator to the pole. -/
example : haversine (rad 0, rad 20) (rad 90, rad 20) = Real.pi / 2 := by
  rw [C47_meridian _ _ _ (by norm_num)]
  unfold rad
  norm_num
  ring

/-! ## C46: the mapping -/

theorem npRadians_eq_fin {v : Fl ℝ} {x : ℝ} (h : npRadians v = fin x) : ∃ a, v = fin a ∧ x = rad a := by
  have h180 : (180.0 : Fl ℝ) = fin 180 := by rw [ofSci]; norm_num
  rw [npRadians, h180, npPi] at h
  cases v with
  | fin a =>
    refine ⟨a, rfl, ?_⟩
    have := npRadians_fin a
    rw [npRadians, h180, npPi, h] at this
    exact Fl.fin.inj this
  | nan => exact absurd h (by simp [HMul.hMul, Mul.mul, HDiv.hDiv, Div.div, Fl.mul, Fl.div])
  | pinf =>
    have e : (pinf : Fl ℝ) * fin Real.pi = pinf := by
      show Fl.mul _ _ = _
      simp [Fl.mul, infOfSign, Real.pi_pos]
    rw [e] at h
    change Fl.div pinf (fin 180) = _ at h
    rw [Fl.div, if_neg (by norm_num)] at h
    simp at h
  | ninf =>
    have e : (ninf : Fl ℝ) * fin Real.pi = ninf := by
      show Fl.mul _ _ = _
      simp [Fl.mul, infOfSign, Real.pi_pos, Real.pi_pos.le]
    rw [e] at h
    change Fl.div ninf (fin 180) = _ at h
    rw [Fl.div, if_neg (by norm_num)] at h
    simp at h

theorem mapM_finitePoint (l : List (Fl ℝ × Fl ℝ)) : ∀ pts : List (ℝ × ℝ),
    l.mapM finitePoint = .ok pts ↔ l = pts.map (fun p => (fin p.1, fin p.2)) := by
  induction l with
  | nil => intro pts; cases pts <;> simp [pure, Except.pure]
  | cons p l ih =>
    intro pts
    rw [List.mapM_cons]
    rcases p with ⟨a, b⟩
    by_cases hab : ∃ x y, a = fin x ∧ b = fin y
    · obtain ⟨x, y, rfl, rfl⟩ := hab
      rw [finitePoint, ok_bind]
      constructor
      · intro h
        obtain ⟨r, hr, h⟩ := bind_ok.1 h
        rw [(ih r).1 hr, ← Except.ok.inj h]
        rfl
      · intro h
        cases pts with
        | nil => simp at h
        | cons q pts =>
          rw [List.map_cons] at h
          injection h with h1 h2
          rw [(ih pts).2 h2, ok_bind]
          injection h1 with h1 h3
          rw [Fl.fin.inj h1, Fl.fin.inj h3]
          rfl
    · have e : finitePoint (a, b) = .error .valueError := by
        unfold finitePoint
        split
        · rename_i h; exact absurd ⟨_, _, (Prod.mk.inj h).1, (Prod.mk.inj h).2⟩ hab
        · rfl
      rw [e, error_bind]
      constructor
      · intro h; simp at h
      · intro h
        cases pts with
        | nil => simp at h
        | cons q pts =>
          rw [List.map_cons] at h
          injection h with h1 h2
          exact absurd ⟨_, _, (Prod.mk.inj h1).1, (Prod.mk.inj h1).2⟩ hab

theorem checkArray_ok {l : List (Fl ℝ × Fl ℝ)} {pts : List (ℝ × ℝ)} :
    checkArray l = .ok pts ↔ l ≠ [] ∧ l = pts.map (fun p => (fin p.1, fin p.2)) := by
  cases l with
  | nil => simp [checkArray]
  | cons p l => rw [checkArray, mapM_finitePoint]; simp; simp

theorem needColumn_ok {c : List String} {n : String} : needColumn c n = .ok () ↔ n ∈ c := by
  unfold needColumn
  by_cases h : n ∈ c <;> simp [h]

theorem needColumn_error {c : List String} {n : String} (h : n ∉ c) :
    needColumn c n = .error .keyError := by
  unfold needColumn; simp [h]

theorem mapM_some_ok {α β : Type} {f : α → Except PyErr β} {g : α → β} {l : List α}
    (h : ∀ a ∈ l, f a = .ok (g a)) : l.mapM f = .ok (l.map g) := by
  induction l with
  | nil => rfl
  | cons a l ih =>
    rw [List.mapM_cons, h a (by simp), ok_bind, ih (fun b hb => h b (by simp [hb])), ok_bind]
    rfl

/-- The row made for one location. -/
def mkRow {I : Type} (df1 : List (I × (String → Fl ℝ))) (yc xc : String)
    (d : I × (String → Fl ℝ)) (r : (String × (String → Fl ℝ)) × (Fl ℝ × Nat)) : Located I :=
  { name := r.1.1
    cols := r.1.2
    distance := r.2.1
    mod_index := r.2.2
    model_coords := (((df1[r.2.2]?).getD d).2 yc, ((df1[r.2.2]?).getD d).2 xc)
    dim_vals := ((df1[r.2.2]?).getD d).1
    real_coords := (r.1.2 "lat", r.1.2 "lon") }

theorem locatedRow_eq {I : Type} (df1 : List (I × (String → Fl ℝ))) (yc xc : String)
    (d : I × (String → Fl ℝ)) {r : (String × (String → Fl ℝ)) × (Fl ℝ × Nat)}
    (h : r.2.2 < df1.length) : locatedRow df1 yc xc r = .ok (mkRow df1 yc xc d r) := by
  unfold locatedRow mkRow
  rw [List.getElem?_eq_getElem h]
  rfl

theorem mem_withinThreshold {t : Option (Fl ℝ)} {l : List ((String × (String → Fl ℝ)) × (Fl ℝ × Nat))}
    {r : (String × (String → Fl ℝ)) × (Fl ℝ × Nat)} (h : r ∈ withinThreshold t l) : r ∈ l := by
  cases t with
  | none => exact h
  | some t => exact (List.mem_filter.1 h).1

/-- The table of the successful run before filtering by distance. -/
theorem geolocate_ok {I : Type} {T : BallTree} {df : ModelFrame I} {locs : LocFrame}
    {thr : Option (Fl ℝ)} {yc xc lat lon : String} {R : Fl ℝ} {am dw : Bool}
    {rows : List (Located I)} {warns : List String}
    (h : geolocatePoints T df locs thr (yc, xc) R (lat, lon) am dw = .ok (rows, warns)) :
    ∃ (d : I × (String → Fl ℝ)) (pts qs : List (ℝ × ℝ)),
      pts ≠ [] ∧ (maskRows df am).length = pts.length ∧ locs.rows.length = qs.length ∧
      (maskRows df am).map (fun r => (npRadians (r.2 yc), npRadians (r.2 xc)))
        = pts.map (fun p => (fin p.1, fin p.2)) ∧
      locs.rows.map (fun r => (npRadians (r.2 lat), npRadians (r.2 lon)))
        = qs.map (fun p => (fin p.1, fin p.2)) ∧
      warnMissing locs.columns thr dw (locs.rows.zip (qs.map (nearestPoint T pts R))) = .ok warns ∧
      rows = (withinThreshold thr (locs.rows.zip (qs.map (nearestPoint T pts R)))).map
        (mkRow (maskRows df am) yc xc d) := by
  unfold geolocatePoints at h
  simp only [bind_ok] at h
  obtain ⟨_, _, _, _, _, _, _, _, pts, hp, qs, hq, w, hw, rs, hrs, _, _, _, _, h⟩ := h
  have h := Except.ok.inj h
  obtain ⟨hp0, hp⟩ := checkArray_ok.1 hp
  obtain ⟨hq0, hq⟩ := checkArray_ok.1 hq
  have hl : (maskRows df am).length = pts.length := by simpa using congrArg List.length hp
  have hpne : pts ≠ [] := by
    rintro rfl
    rw [List.map_nil] at hp
    exact hp0 hp
  have hpos : 0 < (maskRows df am).length := hl ▸ List.length_pos_iff.2 hpne
  refine ⟨(maskRows df am)[0], pts, qs, hpne, hl, by simpa using congrArg List.length hq, hp, hq, ?_, ?_⟩
  · rw [hw]; exact congrArg Except.ok (Prod.mk.inj h).2
  · rw [← (Prod.mk.inj h).1]
    rw [mapM_some_ok (g := mkRow (maskRows df am) yc xc (maskRows df am)[0])] at hrs
    · exact (Except.ok.inj hrs).symm
    · intro r hr
      apply locatedRow_eq
      have := (List.of_mem_zip (mem_withinThreshold hr)).2
      obtain ⟨q, _, hq⟩ := List.mem_map.1 this
      rw [← hq, hl]
      exact T.query_lt pts q hpne

theorem mapsTo_all {I : Type} {T : BallTree} {wet : List (I × (String → Fl ℝ))}
    {locs : List (String × (String → Fl ℝ))} {yc xc lat lon : String} {R : ℝ}
    {d : I × (String → Fl ℝ)} {pts qs : List (ℝ × ℝ)} (hpne : pts ≠ [])
    (hp : wet.map (fun r => (npRadians (r.2 yc), npRadians (r.2 xc)))
        = pts.map (fun p => (fin p.1, fin p.2)))
    (hq : locs.map (fun r => (npRadians (r.2 lat), npRadians (r.2 lon)))
        = qs.map (fun p => (fin p.1, fin p.2))) :
    List.Forall₂ (MapsTo wet yc xc lat lon R) locs
      ((locs.zip (qs.map (nearestPoint T pts (fin R)))).map (mkRow wet yc xc d)) := by
  have hlp : wet.length = pts.length := by simpa using congrArg List.length hp
  have hlq : locs.length = qs.length := by simpa using congrArg List.length hq
  -- every wet row is finite
  have hrow : ∀ (i : Nat) (h : i < wet.length), ∃ p : ℝ × ℝ, (wet[i]).2 yc = fin p.1 ∧
      (wet[i]).2 xc = fin p.2 ∧ pts[i]? = some (rad p.1, rad p.2) := by
    intro i h
    have := congrArg (fun l => l[i]?) hp
    simp only [List.getElem?_map, List.getElem?_eq_getElem h,
      List.getElem?_eq_getElem (hlp ▸ h : i < pts.length), Option.map_some, Option.some.injEq,
      Prod.mk.injEq] at this
    obtain ⟨a, ha, ha'⟩ := npRadians_eq_fin this.1
    obtain ⟨b, hb, hb'⟩ := npRadians_eq_fin this.2
    refine ⟨(a, b), ha, hb, ?_⟩
    rw [List.getElem?_eq_getElem (hlp ▸ h : i < pts.length), ← ha', ← hb']
  rw [List.forall₂_iff_get]
  refine ⟨by simp [hlq], ?_⟩
  intro i h1 h2
  simp only [List.get_eq_getElem, List.getElem_map, List.getElem_zip]
  have hiq : i < qs.length := hlq ▸ h1
  have := congrArg (fun l => l[i]?) hq
  simp only [List.getElem?_map, List.getElem?_eq_getElem h1, List.getElem?_eq_getElem hiq,
    Option.map_some, Option.some.injEq, Prod.mk.injEq] at this
  obtain ⟨qa, hqa, hqa'⟩ := npRadians_eq_fin this.1
  obtain ⟨qb, hqb, hqb'⟩ := npRadians_eq_fin this.2
  have hqi : qs[i] = (rad qa, rad qb) := Prod.ext hqa' hqb'
  have hk : T.query pts (rad qa, rad qb) < wet.length := hlp ▸ T.query_lt pts _ hpne
  obtain ⟨p, hpy, hpx, hpp⟩ := hrow _ hk
  refine ⟨rfl, rfl, rfl, wet[T.query pts (rad qa, rad qb)], p, (qa, qb), ?_, ?_, ?_, hpy, hpx, hqa,
    hqb, ?_, ?_⟩
  · simp only [mkRow, nearestPoint, hqi]
    exact List.getElem?_eq_getElem hk
  · simp only [mkRow, nearestPoint, hqi, List.getElem?_eq_getElem hk, Option.getD_some]
  · simp only [mkRow, nearestPoint, hqi, List.getElem?_eq_getElem hk, Option.getD_some]
  · simp only [mkRow, nearestPoint, hqi, List.getD_eq_getElem?_getD, hpp, Option.getD_some, Fl.fin_mul]
    rw [C47_angle, mul_comm]
  · intro m' hm'
    obtain ⟨j, hj, rfl⟩ := List.mem_iff_getElem.1 hm'
    obtain ⟨p', hpy', hpx', hpp'⟩ := hrow j hj
    refine ⟨p', hpy', hpx', ?_⟩
    have := T.query_le pts (rad qa, rad qb) (rad p'.1, rad p'.2) (List.mem_of_getElem? hpp')
    rw [List.getD_eq_getElem?_getD, hpp, Option.getD_some, C47_angle, C47_angle] at this
    exact this

/-- The usable model points: those with mask 1 if a mask exists and is applied. -/
theorem maskRows_eq {I : Type} (df : ModelFrame I) (am : Bool) : maskRows df am =
    if am = true ∧ "mask" ∈ df.columns then df.rows.filter (fun r => r.2 "mask" = fin 1)
    else df.rows := by
  have h1 : (1.0 : Fl ℝ) = fin 1 := by rw [ofSci]; norm_num
  have : (fun r : I × (String → Fl ℝ) => Fl.eqv (r.2 "mask") (1.0 : Fl ℝ))
      = (fun r => decide (r.2 "mask" = fin 1)) := by
    funext r
    rw [h1]
    cases r.2 "mask" <;> simp [Fl.eqv]
  unfold maskRows
  rw [this]
  by_cases h : am = true ∧ "mask" ∈ df.columns
  · rw [if_pos h, if_pos]; simpa using h
  · rw [if_neg h, if_neg]; simpa using h

/-- `geolocate_points`: every location is mapped to a nearest model point among those with mask 1.
With a threshold exactly the locations no farther than it are returned, in the order of the input; without
one all are; no distance is within NaN. -/
theorem C46_map {I : Type} {T : BallTree} {df : ModelFrame I} {locs : LocFrame}
    {thr : Option (Fl ℝ)} {yc xc lat lon : String} {R : ℝ} {am dw : Bool}
    {rows : List (Located I)} {warns : List String}
    (h : geolocatePoints T df locs thr (yc, xc) (fin R) (lat, lon) am dw = .ok (rows, warns)) :
    ∃ all : List (Located I),
      List.Forall₂ (MapsTo (if am = true ∧ "mask" ∈ df.columns then
          df.rows.filter (fun r => r.2 "mask" = fin 1) else df.rows) yc xc lat lon R) locs.rows all ∧
      (thr = none → rows = all) ∧
      (∀ t : ℝ, thr = some (fin t) → rows = all.filter (atMost t)) ∧
      (thr = some nan → rows = []) := by
  obtain ⟨d, pts, qs, hpne, _, _, hp, hq, _, hr⟩ := geolocate_ok h
  refine ⟨_, by rw [← maskRows_eq]; exact mapsTo_all (T := T) (d := d) hpne hp hq, ?_, ?_, ?_⟩
  · rintro rfl
    exact hr
  · rintro t rfl
    rw [hr, withinThreshold, List.filter_map]
    congr 1
    refine List.filter_congr (fun r hr' => ?_)
    have := (List.of_mem_zip hr').2
    obtain ⟨q, _, hq⟩ := List.mem_map.1 this
    have e : (mkRow (maskRows df am) yc xc d r).distance = r.2.1 := rfl
    rw [Function.comp_apply, atMost, e, ← hq]
    simp [nearestPoint, Fl.fin_mul, Fl.le]
  · rintro rfl
    rw [hr, withinThreshold, List.map_eq_nil_iff, List.filter_eq_nil_iff]
    intro r _
    cases r.2.1 <;> simp [Fl.le]

/-- `geolocate_points` succeeds whenever all columns exist, at least one model point is usable, there is
at least one location, and the coordinates of usable points and locations are finite. -/
theorem C46_success {I : Type} (T : BallTree) (df : ModelFrame I) (locs : LocFrame)
    (thr : Option (Fl ℝ)) {yc xc lat lon : String} (R : Fl ℝ) (am dw : Bool)
    (hyc : yc ∈ df.columns) (hxc : xc ∈ df.columns)
    (hla : lat ∈ locs.columns) (hlo : lon ∈ locs.columns)
    (hlat : "lat" ∈ locs.columns) (hlon : "lon" ∈ locs.columns) (hname : "name" ∈ locs.columns)
    {wet : List (I × (String → Fl ℝ))} (hwet : wet = if am = true ∧ "mask" ∈ df.columns then
      df.rows.filter (fun r => r.2 "mask" = fin 1) else df.rows)
    (hne : wet ≠ []) (hlocs : locs.rows ≠ [])
    (hfin : ∀ r ∈ wet, ∃ a b : ℝ, r.2 yc = fin a ∧ r.2 xc = fin b)
    (hfin' : ∀ r ∈ locs.rows, ∃ a b : ℝ, r.2 lat = fin a ∧ r.2 lon = fin b) :
    ∃ rows warns, geolocatePoints T df locs thr (yc, xc) R (lat, lon) am dw = .ok (rows, warns) := by
  have key : ∀ (I : Type) (l : List (I × (String → Fl ℝ))) (y x : String), l ≠ [] →
      (∀ r ∈ l, ∃ a b : ℝ, r.2 y = fin a ∧ r.2 x = fin b) →
      ∃ pts : List (ℝ × ℝ), pts ≠ [] ∧ l.length = pts.length ∧
        checkArray (l.map (fun r => (npRadians (r.2 y), npRadians (r.2 x)))) = .ok pts := by
    intro I l y x hl hf
    refine ⟨l.map (fun r => (match r.2 y with | fin a => rad a | _ => 0,
      match r.2 x with | fin a => rad a | _ => 0)), by simpa using hl, by simp, ?_⟩
    rw [checkArray_ok]
    refine ⟨by simpa using hl, ?_⟩
    rw [List.map_map]
    refine List.map_congr_left (fun r hr => ?_)
    obtain ⟨a, b, ha, hb⟩ := hf r hr
    simp [ha, hb, npRadians_fin]
  rw [← maskRows_eq] at hwet
  obtain ⟨pts, hpne, hpl, hp⟩ := key I wet yc xc hne hfin
  obtain ⟨qs, hqne, hql, hq⟩ := key String locs.rows lat lon hlocs hfin'
  rw [hwet] at hp hpl
  have hw : ∃ w, warnMissing locs.columns thr dw (locs.rows.zip (qs.map (nearestPoint T pts R)))
      = .ok w := by
    unfold warnMissing
    split
    · exact ⟨_, rfl⟩
    · split
      · exact ⟨_, rfl⟩
      · rw [if_pos (by simpa using hname)]
        exact ⟨_, rfl⟩
  obtain ⟨w, hw⟩ := hw
  have hpos : 0 < (maskRows df am).length := hpl ▸ List.length_pos_iff.2 hpne
  have hm : (withinThreshold thr (locs.rows.zip (qs.map (nearestPoint T pts R)))).mapM
      (locatedRow (maskRows df am) yc xc) = .ok ((withinThreshold thr
        (locs.rows.zip (qs.map (nearestPoint T pts R)))).map
          (mkRow (maskRows df am) yc xc (maskRows df am)[0])) := by
    apply mapM_some_ok
    intro r hr
    apply locatedRow_eq
    have := (List.of_mem_zip (mem_withinThreshold hr)).2
    obtain ⟨q, _, hq⟩ := List.mem_map.1 this
    rw [← hq, hpl]
    exact T.query_lt pts q hpne
  refine ⟨(withinThreshold thr (locs.rows.zip (qs.map (nearestPoint T pts R)))).map
    (mkRow (maskRows df am) yc xc (maskRows df am)[0]), w, ?_⟩
  unfold geolocatePoints
  simp only [needColumn_ok.2 hyc, needColumn_ok.2 hxc, needColumn_ok.2 hla, needColumn_ok.2 hlo,
    needColumn_ok.2 hlat, needColumn_ok.2 hlon, hp, hq, hw, hm, ok_bind]
  rfl

/-- A mask without any 1 leaves no usable point: ValueError. -/
theorem C46_no_ocean {I : Type} (T : BallTree) (df : ModelFrame I) (locs : LocFrame)
    (thr : Option (Fl ℝ)) {yc xc lat lon : String} (R : Fl ℝ) (dw : Bool)
    (hyc : yc ∈ df.columns) (hxc : xc ∈ df.columns)
    (hla : lat ∈ locs.columns) (hlo : lon ∈ locs.columns) (hmask : "mask" ∈ df.columns)
    (hall : ∀ r ∈ df.rows, r.2 "mask" ≠ fin 1) :
    geolocatePoints T df locs thr (yc, xc) R (lat, lon) true dw = .error .valueError := by
  have : maskRows df true = [] := by
    rw [maskRows_eq, if_pos ⟨rfl, hmask⟩, List.filter_eq_nil_iff]
    intro r hr
    simpa using hall r hr
  unfold geolocatePoints
  simp only [needColumn_ok.2 hyc, needColumn_ok.2 hxc, needColumn_ok.2 hla, needColumn_ok.2 hlo,
    ok_bind, this]
  rfl

/-- A table of locations whose coordinate columns are not called `lat` and `lon` is never mapped,
whatever `loc_coords` says. -/
theorem C46_loc_names {I : Type} (T : BallTree) (df : ModelFrame I) (locs : LocFrame)
    (thr : Option (Fl ℝ)) (mc lc : String × String) (R : Fl ℝ) (am dw : Bool)
    (h : "lat" ∉ locs.columns ∨ "lon" ∉ locs.columns) (x : List (Located I) × List String) :
    geolocatePoints T df locs thr mc R lc am dw ≠ .ok x := by
  intro hx
  unfold geolocatePoints at hx
  simp only [bind_ok] at hx
  obtain ⟨_, _, _, _, _, _, _, _, pts, hp, qs, hq, w, hw, rs, hrs, _, h1, _, h2, _⟩ := hx
  rcases h with h | h
  · exact h (needColumn_ok.1 h1)
  · exact h (needColumn_ok.1 h2)

/-- The default radius is 6378 km. -/
theorem C46_default {I : Type} (T : BallTree) (df : ModelFrame I) (locs : LocFrame) :
    geolocatePoints T df locs = geolocatePoints T df locs none ("geolat", "geolon") (fin 6378)
      ("lat", "lon") true true := by
  have : (6.378e03 : Fl ℝ) = fin 6378 := by rw [ofSci]; norm_num
  rw [this]

/-! ## C49: warnings -/

/-- With warnings enabled the reported names are those of the locations no nearer than the threshold,
while the kept locations are those no farther. -/
theorem C49_reported {I : Type} {T : BallTree} {df : ModelFrame I} {locs : LocFrame} {t : ℝ}
    {yc xc lat lon : String} {R : ℝ} {am : Bool}
    {rows : List (Located I)} {warns : List String}
    (h : geolocatePoints T df locs (some (fin t)) (yc, xc) (fin R) (lat, lon) am false
      = .ok (rows, warns)) :
    ∃ all : List (Located I),
      List.Forall₂ (MapsTo (if am = true ∧ "mask" ∈ df.columns then
          df.rows.filter (fun r => r.2 "mask" = fin 1) else df.rows) yc xc lat lon R) locs.rows all ∧
      rows = all.filter (atMost t) ∧ warns = (all.filter (atLeast t)).map Located.name := by
  obtain ⟨d, pts, qs, hpne, _, _, hp, hq, hw, hr⟩ := geolocate_ok h
  have hd : ∀ r ∈ locs.rows.zip (qs.map (nearestPoint T pts (fin R))), ∃ x, r.2.1 = fin x := by
    intro r hr'
    obtain ⟨q, _, hq⟩ := List.mem_map.1 (List.of_mem_zip hr').2
    rw [← hq]
    exact ⟨_, rfl⟩
  have e : ∀ r, (mkRow (maskRows df am) yc xc d r).distance = r.2.1 := fun _ => rfl
  refine ⟨_, by rw [← maskRows_eq]; exact mapsTo_all (T := T) (d := d) hpne hp hq, ?_, ?_⟩
  · rw [hr, withinThreshold, List.filter_map]
    congr 1
    refine List.filter_congr (fun r hr' => ?_)
    obtain ⟨x, hx⟩ := hd r hr'
    rw [Function.comp_apply, atMost, e, hx]
    rfl
  · have hw' : warns = reported (some (fin t)) (locs.rows.zip (qs.map (nearestPoint T pts (fin R)))) := by
      unfold warnMissing at hw
      simp only [Bool.false_eq_true, if_false] at hw
      split at hw
      · rename_i he
        rw [← Except.ok.inj hw]
        exact (List.isEmpty_iff.1 he).symm
      · split at hw
        · exact (Except.ok.inj hw).symm
        · simp at hw
    rw [hw', reported, List.filter_map, List.map_map]
    congr 1
    refine List.filter_congr (fun r hr' => ?_)
    obtain ⟨x, hx⟩ := hd r hr'
    rw [Function.comp_apply, atLeast, e, hx]
    rfl

/-- Full claim: with warnings enabled the reported locations are exactly the dropped ones.  Missing: a
location at exactly the threshold distance is reported and kept (`C49_counterexample`), so the distances
are required to differ from the threshold. -/
theorem C49_partial {I : Type} {T : BallTree} {df : ModelFrame I} {locs : LocFrame} {t : ℝ}
    {yc xc lat lon : String} {R : ℝ} {am : Bool}
    {rows : List (Located I)} {warns : List String}
    (h : geolocatePoints T df locs (some (fin t)) (yc, xc) (fin R) (lat, lon) am false
      = .ok (rows, warns)) :
    ∃ all : List (Located I),
      List.Forall₂ (MapsTo (if am = true ∧ "mask" ∈ df.columns then
          df.rows.filter (fun r => r.2 "mask" = fin 1) else df.rows) yc xc lat lon R) locs.rows all ∧
      rows = all.filter (atMost t) ∧
      ((∀ r ∈ all, r.distance ≠ fin t) →
        warns = (all.filter (fun r => !atMost t r)).map Located.name) := by
  obtain ⟨all, h1, h2, h3⟩ := C49_reported h
  refine ⟨all, h1, h2, fun hne => ?_⟩
  rw [h3]
  congr 1
  refine List.filter_congr (fun r hr => ?_)
  have : ∃ x, r.distance = fin x := by
    obtain ⟨i, hi, rfl⟩ := List.mem_iff_getElem.1 hr
    have hm := (List.forall₂_iff_get.1 h1).2 i (by rw [(List.forall₂_iff_get.1 h1).1]; exact hi) hi
    obtain ⟨_, _, _, m, p, q, _, _, _, _, _, _, _, hd, _⟩ := hm
    exact ⟨_, hd⟩
  obtain ⟨x, hx⟩ := this
  have hxt : x ≠ t := fun he => hne r hr (he ▸ hx)
  simp only [atLeast, atMost, hx]
  rcases lt_or_gt_of_ne hxt with hlt | hlt
  · simp [hlt.le, hlt]
  · simp [hlt.le, hlt]

/-- The exact condition: the reported names are those of the dropped locations if and only if no location
lies at exactly the threshold. -/
theorem C49_iff {I : Type} {T : BallTree} {df : ModelFrame I} {locs : LocFrame} {t : ℝ}
    {yc xc lat lon : String} {R : ℝ} {am : Bool}
    {rows : List (Located I)} {warns : List String}
    (h : geolocatePoints T df locs (some (fin t)) (yc, xc) (fin R) (lat, lon) am false
      = .ok (rows, warns)) :
    ∃ all : List (Located I),
      List.Forall₂ (MapsTo (if am = true ∧ "mask" ∈ df.columns then
          df.rows.filter (fun r => r.2 "mask" = fin 1) else df.rows) yc xc lat lon R) locs.rows all ∧
      rows = all.filter (atMost t) ∧
      (warns = (all.filter (fun r => !atMost t r)).map Located.name ↔
        ∀ r ∈ all, r.distance ≠ fin t) := by
  obtain ⟨all, h1, h2, h3⟩ := C49_reported h
  have hfin : ∀ r ∈ all, ∃ x, r.distance = fin x := by
    intro r hr
    obtain ⟨i, hi, rfl⟩ := List.mem_iff_getElem.1 hr
    have hm := (List.forall₂_iff_get.1 h1).2 i (by rw [(List.forall₂_iff_get.1 h1).1]; exact hi) hi
    obtain ⟨_, _, _, m, p, q, _, _, _, _, _, _, _, hd, _⟩ := hm
    exact ⟨_, hd⟩
  classical
  have key : ∀ l : List (Located I), (∀ r ∈ l, ∃ x, r.distance = fin x) →
      (l.filter (atLeast t)).length = (l.filter (fun r => !atMost t r)).length +
        (l.filter (fun r => decide (r.distance = fin t))).length := by
    intro l
    induction l with
    | nil => intro _; rfl
    | cons r l ih =>
      intro hl
      obtain ⟨x, hx⟩ := hl r (by simp)
      have := ih (fun r' hr' => hl r' (List.mem_cons_of_mem _ hr'))
      simp only [List.filter_cons, atLeast, atMost, hx] at this ⊢
      rcases lt_trichotomy x t with hlt | rfl | hlt
      · simp [hlt.not_ge, hlt.le, hlt.ne, this]
      · simp [this]
        omega
      · simp [hlt.not_ge, hlt.le, hlt.ne', this]
        omega
  refine ⟨all, h1, h2, fun he r hr hd => ?_, fun hne => ?_⟩
  · rw [h3] at he
    have hlen := congrArg List.length he
    rw [List.length_map, List.length_map, key all hfin] at hlen
    have : r ∈ all.filter (fun r => decide (r.distance = fin t)) :=
      List.mem_filter.2 ⟨hr, by simpa using hd⟩
    have := List.length_pos_of_mem this
    omega
  · rw [h3]
    congr 1
    refine List.filter_congr (fun r hr => ?_)
    obtain ⟨x, hx⟩ := hfin r hr
    have hxt : x ≠ t := fun he => hne r hr (he ▸ hx)
    simp only [atLeast, atMost, hx]
    rcases lt_or_gt_of_ne hxt with hlt | hlt
    · simp [hlt.le, hlt]
    · simp [hlt.le, hlt]

/-- Without a threshold nothing is reported. -/
theorem C49_none {I : Type} {T : BallTree} {df : ModelFrame I} {locs : LocFrame}
    {mc lc : String × String} {R : Fl ℝ} {am dw : Bool}
    {rows : List (Located I)} {warns : List String}
    (h : geolocatePoints T df locs none mc R lc am dw = .ok (rows, warns)) :
    warns = [] := by
  obtain ⟨yc, xc⟩ := mc
  obtain ⟨lat, lon⟩ := lc
  obtain ⟨d, pts, qs, _, _, _, _, _, hw, _⟩ := geolocate_ok h
  unfold warnMissing reported at hw
  cases dw <;> exact (Except.ok.inj hw).symm

/-- Warnings disabled: nothing is reported. -/
theorem C49_disabled {I : Type} {T : BallTree} {df : ModelFrame I} {locs : LocFrame}
    {thr : Option (Fl ℝ)} {mc lc : String × String} {R : Fl ℝ} {am : Bool}
    {rows : List (Located I)} {warns : List String}
    (h : geolocatePoints T df locs thr mc R lc am true = .ok (rows, warns)) :
    warns = [] := by
  obtain ⟨yc, xc⟩ := mc
  obtain ⟨lat, lon⟩ := lc
  obtain ⟨d, pts, qs, _, _, _, _, _, hw, _⟩ := geolocate_ok h
  exact (Except.ok.inj hw).symm

/-! ## Concrete cases -/

/-- A search by trying all points; among equally near ones the first is returned. -/
noncomputable def bruteForce : BallTree where
  query pts p := (pts.map (haversine p)).idxOf ((pts.map (haversine p)).min?.getD 0)
  query_lt pts p h := by
    have hne : pts.map (haversine p) ≠ [] := by simpa using h
    have : (pts.map (haversine p)).min?.getD 0 ∈ pts.map (haversine p) := by
      cases hm : (pts.map (haversine p)).min? with
      | none => exact absurd (List.min?_eq_none_iff.1 hm) hne
      | some m => exact List.min?_mem hm
    simpa using List.idxOf_lt_length_iff.2 this
  query_le pts p q hq := by
    have hne : pts.map (haversine p) ≠ [] := by
      intro h
      rw [List.map_eq_nil_iff] at h
      simp [h] at hq
    cases hm : (pts.map (haversine p)).min? with
    | none => exact absurd (List.min?_eq_none_iff.1 hm) hne
    | some m =>
      have hmem : m ∈ pts.map (haversine p) := List.min?_mem hm
      have hlt := List.idxOf_lt_length_iff.2 hmem
      have hlt' : (pts.map (haversine p)).idxOf m < pts.length := by simpa using hlt
      rw [Option.getD_some, List.getD_eq_getElem?_getD, List.getElem?_eq_getElem hlt', Option.getD_some]
      have e : haversine p pts[(pts.map (haversine p)).idxOf m] = m := by
        have := List.getElem_idxOf hlt
        rwa [List.getElem_map] at this
      rw [e]
      exact (List.le_min?_iff hm).1 le_rfl _ (List.mem_map_of_mem hq)

/-- Two model points, the first on land. -/
noncomputable def exModel : ModelFrame (Nat × Nat) where
  columns := ["geolat", "geolon", "mask"]
  rows := [((0, 0), fun c => if c = "mask" then fin 0 else fin 0),
    ((1, 0), fun c => if c = "mask" then fin 1 else if c = "geolat" then fin 10 else fin 0)]

/-- One location, at the position of the land point. -/
noncomputable def exLocs : LocFrame where
  columns := ["name", "lat", "lon"]
  rows := [("GAUGE", fun _ => fin 0)]

theorem exModel_wet (am : Bool) (h : am = true) : (if am = true ∧ "mask" ∈ exModel.columns then
    exModel.rows.filter (fun r => r.2 "mask" = fin 1) else exModel.rows)
    = [((1, 0), fun c => if c = "mask" then fin 1 else if c = "geolat" then fin 10 else fin 0)] := by
  rw [if_pos ⟨h, by simp [exModel]⟩]
  simp [exModel]

theorem exModel_ok (T : BallTree) (thr : Option (Fl ℝ)) (R : Fl ℝ) (dw : Bool) :
    ∃ rows warns, geolocatePoints T exModel exLocs thr ("geolat", "geolon") R ("lat", "lon") true dw
      = .ok (rows, warns) := by
  refine C46_success T exModel exLocs thr R true dw (by simp [exModel]) (by simp [exModel])
    (by simp [exLocs]) (by simp [exLocs]) (by simp [exLocs]) (by simp [exLocs]) (by simp [exLocs])
    (exModel_wet true rfl).symm (by simp) (by simp [exLocs]) ?_ ?_
  · intro r hr
    rw [List.mem_singleton] at hr
    exact ⟨10, 0, by rw [hr]; simp, by rw [hr]; simp⟩
  · intro r hr
    simp only [exLocs, List.mem_singleton] at hr
    exact ⟨0, 0, by rw [hr], by rw [hr]⟩

/-- What the mapping of the example looks like. -/
theorem exModel_row {R : ℝ} {all : List (Located (Nat × Nat))}
    (h : List.Forall₂ (MapsTo (if true = true ∧ "mask" ∈ exModel.columns then
      exModel.rows.filter (fun r => r.2 "mask" = fin 1) else exModel.rows)
      "geolat" "geolon" "lat" "lon" R) exLocs.rows all) :
    ∃ r, all = [r] ∧ r.name = "GAUGE" ∧ r.mod_index = 0 ∧ r.dim_vals = (1, 0) ∧
      r.distance = fin (R * rad 10) := by
  rw [exModel_wet true rfl] at h
  simp only [exLocs, List.forall₂_cons_left_iff, List.forall₂_nil_left_iff] at h
  obtain ⟨r, _, hm, rfl, rfl⟩ := h
  obtain ⟨h1, _, _, m, p, q, hi, hdv, _, hpy, hpx, hqy, hqx, hd, _⟩ := hm
  have h0 : r.mod_index = 0 := by
    by_contra hne
    rw [List.getElem?_eq_none (by simp; omega)] at hi
    simp at hi
  rw [h0] at hi
  simp only [List.getElem?_cons_zero, Option.some.injEq] at hi
  subst hi
  simp only [String.reduceEq, if_false, if_true] at hpy hpx
  refine ⟨r, rfl, h1, h0, hdv, ?_⟩
  rw [hd]
  congr 2
  have hp : p = (10, 0) := Prod.ext (Fl.fin.inj hpy).symm (Fl.fin.inj hpx).symm
  have hq : q = (0, 0) := Prod.ext (Fl.fin.inj hqy).symm (Fl.fin.inj hqx).symm
  rw [hp, hq, ← C47_angle, C47_meridian _ _ _ (by norm_num)]
  norm_num

/-- The documented meaning of `mod_index`, the position in `df_model`, fails when a mask is applied: it is
the position among the unmasked rows (`C46_map`).  Here the location is mapped to the second row and
`mod_index` is 0. -/
theorem C46_mod_index (T : BallTree) : ∃ r warns,
    geolocatePoints T exModel exLocs none ("geolat", "geolon") (fin 6378) ("lat", "lon") true true
      = .ok ([r], warns) ∧ r.dim_vals = (1, 0) ∧ r.mod_index = 0 ∧
    exModel.rows.map Prod.fst = [(0, 0), (1, 0)] := by
  obtain ⟨rows, warns, h⟩ := exModel_ok T none (fin 6378) true
  obtain ⟨all, hall, hn, _⟩ := C46_map h
  obtain ⟨r, rfl, _, h0, hd, _⟩ := exModel_row hall
  rw [hn rfl] at h
  exact ⟨r, warns, h, hd, h0, by simp [exModel]⟩

/-- A location at exactly the threshold distance is kept and also reported as unmappable. -/
theorem C49_counterexample (T : BallTree) : ∃ r,
    geolocatePoints T exModel exLocs (some (fin (6378 * rad 10))) ("geolat", "geolon") (fin 6378)
      ("lat", "lon") true false = .ok ([r], [r.name]) := by
  obtain ⟨rows, warns, h⟩ := exModel_ok T (some (fin (6378 * rad 10))) (fin 6378) false
  obtain ⟨all, hall, hr, hw⟩ := C49_reported h
  obtain ⟨r, rfl, _, _, _, hd⟩ := exModel_row hall
  refine ⟨r, ?_⟩
  rw [h, hr, hw]
  simp [atMost, atLeast, hd]

/-- With a NaN threshold the location is dropped without a report. -/
theorem C49_nan (T : BallTree) :
    geolocatePoints T exModel exLocs (some nan) ("geolat", "geolon") (fin 6378)
      ("lat", "lon") true false = .ok ([], []) := by
  obtain ⟨rows, warns, h⟩ := exModel_ok T (some nan) (fin 6378) false
  obtain ⟨all, hall, _, _, hr⟩ := C46_map h
  obtain ⟨d, pts, qs, _, _, _, _, _, hw, _⟩ := geolocate_ok h
  have hrep : ∀ l, reported (some (nan : Fl ℝ)) l = [] := by
    intro l
    rw [reported, List.map_eq_nil_iff, List.filter_eq_nil_iff]
    intro r _
    simp [Fl.le]
  rw [warnMissing, hrep] at hw
  rw [h, hr rfl, ← Except.ok.inj hw]

/-- `C47_angle`, `C47_symm`, `C47_shift`: 0 and 10 degrees north on one meridian, which may also be called 360. -/
example : haversine (rad 0, rad (0 + 360 * (1 : ℤ))) (rad 10, rad (0 + 360 * (0 : ℤ))) = rad 10 ∧
    haversine (rad 10, rad 0) (rad 0, rad 0) = rad 10 := by
  have h : haversine (rad 0, rad 0) (rad 10, rad 0) = rad 10 := by
    rw [C47_angle, ← C47_angle, C47_meridian _ _ _ (by norm_num)]
    norm_num
  exact ⟨by rw [C47_shift]; exact h, by rw [C47_symm]; exact h⟩

/-- `C47_zero`, `C47_range`: all longitudes of the pole are one place. -/
example : haversine (rad 90, rad 0) (rad 90, rad 120) = 0 ∧ 0 ≤ haversine (rad 0, rad 0) (rad 0, rad 180) := by
  refine ⟨(C47_zero _ _ _ _).2 ?_, (C47_range _ _ _ _).1⟩
  have h' : rad 90 = Real.pi / 2 := by unfold rad; ring
  unfold spherePoint
  simp [h']

/-- `C46_default` and `C46_success`: the default call on the two model points succeeds. -/
example (T : BallTree) : ∃ rows warns, geolocatePoints T exModel exLocs = .ok (rows, warns) := by
  rw [C46_default]
  exact exModel_ok T none (fin 6378) true

/-- `C49_partial`, `C49_iff`: a threshold of 2000 km, well above the distance of 10 degrees, keeps the location and
reports nothing. -/
example (T : BallTree) : ∃ r, geolocatePoints T exModel exLocs (some (fin 2000)) ("geolat", "geolon") (fin 6378)
      ("lat", "lon") true false = .ok ([r], []) ∧ r.distance = fin (6378 * rad 10) := by
  obtain ⟨rows, warns, h⟩ := exModel_ok T (some (fin 2000)) (fin 6378) false
  obtain ⟨all, h1, h2, h3⟩ := C49_partial h
  obtain ⟨r, rfl, -, -, -, hd⟩ := exModel_row h1
  have hp : 6378 * rad 10 < 2000 := by
    unfold rad
    have := Real.pi_le_four
    nlinarith
  have hk : atMost 2000 r = true := by simp [atMost, hd, hp.le]
  have hw := h3 (by
    intro r' hr'
    rw [List.mem_singleton.1 hr', hd]
    intro h
    exact hp.ne (Fl.fin.inj h))
  refine ⟨r, ?_, hd⟩
  rw [h, h2, hw]
  simp [hk]

/-- `C49_disabled`: the same call without warnings. -/
example (T : BallTree) : ∃ rows, geolocatePoints T exModel exLocs (some (fin 1)) ("geolat", "geolon") (fin 6378)
    ("lat", "lon") true true = .ok (rows, []) := by
  obtain ⟨rows, warns, h⟩ := exModel_ok T (some (fin 1)) (fin 6378) true
  exact ⟨rows, by rw [h, C49_disabled h]⟩

/-- `C46_mod_index`, `C49_nan` for the search that tries all points. -/
example : geolocatePoints bruteForce exModel exLocs (some nan) ("geolat", "geolon") (fin 6378) ("lat", "lon") true false
      = .ok ([], []) ∧
    ∃ r warns, geolocatePoints bruteForce exModel exLocs none ("geolat", "geolon") (fin 6378) ("lat", "lon") true true
      = .ok ([r], warns) ∧ r.mod_index = 0 := by
  obtain ⟨r, w, h1, -, h2, -⟩ := C46_mod_index bruteForce
  exact ⟨C49_nan _, r, w, h1, h2⟩

end Momlevel.Props
