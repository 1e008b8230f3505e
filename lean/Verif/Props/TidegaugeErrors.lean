import Verif.Props.GeolocateErrors
import Verif.Props.TidegaugeCases
import Mathlib.Analysis.Real.Pi.Bounds

/-! # C162: errors in coordinates and the extraction of gauge series -/

set_option linter.unusedSectionVars false

namespace Momlevel.Props
open Momlevel Momlevel.Fl Momlevel.Spec

variable {V : Type}

theorem seriesAt_congr (a : DA V) {dims : List String} {e e' : Env} (h : ∀ d ∈ dims, e' d = e d) :
    seriesAt a dims e' = seriesAt a dims e := by
  unfold seriesAt
  congr 1
  funext env
  congr 1
  funext d
  by_cases hd : d ∈ dims
  · simp [hd, h d hd]
  · simp [hd]

theorem gauges_errors {a : DA V} {dims : List String} {g : Grid} {δ : ℝ}
    {gauges gauges' : List (String × (String → Fl ℝ))} {out out' : List (String × DA V)}
    (hloc : List.Forall₂ (fun l l' => l.1 = l'.1 ∧ WithinAngle "lat" "lon" δ l.2 l'.2) gauges gauges')
    (hclear : ∀ l ∈ gauges, ∃ e, g.inside e ∧ g.wet e ∧ ∀ e', g.inside e' → g.wet e' →
      gaugeDistance g l e' ≤ gaugeDistance g l e + 2 * 6378 * δ → ∀ d ∈ dims, e' d = e d)
    (h : GaugesRight a dims g none gauges out) (h' : GaugesRight a dims g none gauges' out') (name : String) :
    out'.lookup name = out.lookup name := by
  obtain ⟨_, c, hc, hv⟩ := h
  obtain ⟨_, c', hc', hv'⟩ := h'
  rw [hv name, hv' name]
  have key : ∀ (l : List (String × (String → Fl ℝ))) (k : List Env),
      (((l.zip k).filter (fun p => kept g none p.1 p.2 && decide (p.1.1 = name))).getLast?).map
        (fun p => seriesAt a dims p.2)
      = ((((l.zip k).map (fun p => (p.1.1, seriesAt a dims p.2))).filter
          (fun p => decide (p.1 = name))).getLast?).map Prod.snd := by
    intro l k
    rw [List.filter_map, List.getLast?_map, Option.map_map]
    simp only [kept, Bool.true_and]
    rfl
  rw [key, key]
  congr 3
  clear hv hv' key
  induction hloc generalizing c c' with
  | nil => simp
  | @cons l l' ls ls' hll _ ih =>
    rw [List.forall₂_cons_left_iff] at hc hc'
    obtain ⟨e, k, he, hk, rfl⟩ := hc
    obtain ⟨e', k', he', hk', rfl⟩ := hc'
    obtain ⟨hn, p, q, h1, h2, h3, h4, hpq⟩ := hll
    rw [List.zip_cons_cons, List.zip_cons_cons, List.map_cons, List.map_cons]
    congr 1
    · obtain ⟨e0, hi0, hw0, hcl⟩ := hclear l (List.mem_cons_self ..)
      have hsym := centralAngle_comm p q
      have hp : (p.1, p.2) = p := rfl
      have hq : (q.1, q.2) = q := rfl
      have d0 := he.2.2 e0 hi0 hw0
      have d1 := he'.2.2 e0 hi0 hw0
      unfold gaugeDistance at hcl d0 d1
      rw [h1, h2] at hcl d0
      rw [h3, h4] at d1
      simp only [real, hp, hq] at hcl d0 d1
      have t1 := centralAngle_triangle p q (real (g.lat e'), real (g.lon e'))
      have t2 := centralAngle_triangle q p (real (g.lat e0), real (g.lon e0))
      have h0 : 0 ≤ δ := (Real.arccos_nonneg _).trans hpq
      simp only [real] at t1 t2
      have f1 := hcl e he.1 he.2.1 (by linarith)
      have f2 := hcl e' he'.1 he'.2.1 (by linarith)
      rw [hn]
      congr 1
      rw [seriesAt_congr a f1, seriesAt_congr a f2]
    · exact ih (fun l hl => hclear l (List.mem_cons_of_mem _ hl)) k hk k' hk'

/-- Gauges whose positions are off by at most the angle `δ` get the same series, if for each gauge one wet
cell is nearer than all others by more than `2 * δ` times the radius of the earth. -/
theorem C162_gauges {T T' : BallTree} {files files' : String → Option LocFrame} {a : GaugeArray V}
    {xarg yarg : AxisArg} {csv csv' : String} {mask : MaskArg} {dw dw' : Bool}
    {xn yn : String} {x y : LabelledDA} (hx : Denotes a xarg xn x) (hy : Denotes a yarg yn y)
    (hxy : yn ≠ xn) (hxm : "mask" ≠ xn) (hym : "mask" ≠ yn)
    (hdim : x.da.dims.length ≠ 1) (hs : SameGrid a x y) (hm : ∀ m, mask = .da m → MaskOn x m)
    {gauges gauges' : LocFrame} (hf : files (gaugeFile csv) = some gauges)
    (hf' : files' (gaugeFile csv') = some gauges') {δ : ℝ}
    (hloc : List.Forall₂ (fun l l' => l.1 = l'.1 ∧ WithinAngle "lat" "lon" δ l.2 l'.2)
      gauges.rows gauges'.rows)
    (hclear : ∀ l ∈ gauges.rows, ∃ e, x.da.InBounds e ∧ maskWet mask e ∧
      ∀ e', x.da.InBounds e' → maskWet mask e' →
        gaugeDistance ⟨y.da.get, x.da.get, maskWet mask, x.da.InBounds⟩ l e'
          ≤ gaugeDistance ⟨y.da.get, x.da.get, maskWet mask, x.da.InBounds⟩ l e + 2 * 6378 * δ →
        ∀ d ∈ x.da.dimNames, e' d = e d)
    {out out' : List (String × DA V)}
    (h : extractTidegauge T files (.da a) xarg yarg csv mask none dw = .ok out)
    (h' : extractTidegauge T' files' (.da a) xarg yarg csv' mask none dw' = .ok out') (name : String) :
    out'.lookup name = out.lookup name := by
  obtain ⟨g, hg, hr⟩ := C48_value (thr := none) hx hy hxy hxm hym hdim hs hm h
  obtain ⟨g', hg', hr'⟩ := C48_value (thr := none) hx hy hxy hxm hym hdim hs hm h'
  rw [hf] at hg
  rw [hf'] at hg'
  cases Option.some.inj hg
  cases Option.some.inj hg'
  exact gauges_errors hloc hclear hr hr' name

/-- The same with one-dimensional coordinates, on the grid of all pairs of a latitude and a longitude. -/
theorem C162_gauges_flat {T T' : BallTree} {files files' : String → Option LocFrame} {a : GaugeArray V}
    {xarg yarg : AxisArg} {csv csv' : String} {mask : MaskArg} {dw dw' : Bool}
    {xn yn : String} {x y : LabelledDA} (hx : Denotes a xarg xn x) (hy : Denotes a yarg yn y)
    {nx ny : Nat} (hdx : x.da.dims = [(xn, nx)]) (hdy : y.da.dims = [(yn, ny)]) (hxy : yn ≠ xn)
    (hwx : x.da.WF) (hwy : y.da.WF)
    (hlx : ∀ e, e xn < nx → a.label xn (e xn) = x.da.get e)
    (hly : ∀ e, e yn < ny → a.label yn (e yn) = y.da.get e)
    (hix : ∀ e e', e xn < nx → e' xn < nx → x.da.get e = x.da.get e' → e xn = e' xn)
    (hiy : ∀ e e', e yn < ny → e' yn < ny → y.da.get e = y.da.get e' → e yn = e' yn)
    (hax : (xn, nx) ∈ a.da.dims) (hay : (yn, ny) ∈ a.da.dims) (had : (a.da.dims.map Prod.fst).Nodup)
    (hm : ∀ m, mask = .da m → m.da.dims = [(yn, ny), (xn, nx)] ∧ m.da.WF ∧
      (∀ e, e xn < nx → m.label xn (e xn) = x.da.get e) ∧
      (∀ e, e yn < ny → m.label yn (e yn) = y.da.get e))
    {gauges gauges' : LocFrame} (hf : files (gaugeFile csv) = some gauges)
    (hf' : files' (gaugeFile csv') = some gauges') {δ : ℝ}
    (hloc : List.Forall₂ (fun l l' => l.1 = l'.1 ∧ WithinAngle "lat" "lon" δ l.2 l'.2)
      gauges.rows gauges'.rows)
    (hclear : ∀ l ∈ gauges.rows, ∃ e, (e yn < ny ∧ e xn < nx) ∧ maskWet mask e ∧
      ∀ e', (e' yn < ny ∧ e' xn < nx) → maskWet mask e' →
        gaugeDistance ⟨y.da.get, x.da.get, maskWet mask, fun e => e yn < ny ∧ e xn < nx⟩ l e'
          ≤ gaugeDistance ⟨y.da.get, x.da.get, maskWet mask, fun e => e yn < ny ∧ e xn < nx⟩ l e
            + 2 * 6378 * δ → e' yn = e yn ∧ e' xn = e xn)
    {out out' : List (String × DA V)}
    (h : extractTidegauge T files (.da a) xarg yarg csv mask none dw = .ok out)
    (h' : extractTidegauge T' files' (.da a) xarg yarg csv' mask none dw' = .ok out') (name : String) :
    out'.lookup name = out.lookup name := by
  obtain ⟨g, hg, hr⟩ := C48_flat (thr := none) hx hy hdx hdy hxy hwx hwy hlx hly hix hiy hax hay had hm h
  obtain ⟨g', hg', hr'⟩ := C48_flat (thr := none) hx hy hdx hdy hxy hwx hwy hlx hly hix hiy hax hay had hm h'
  rw [hf] at hg
  rw [hf'] at hg'
  cases Option.some.inj hg
  cases Option.some.inj hg'
  refine gauges_errors hloc ?_ hr hr' name
  intro l hl
  obtain ⟨e, h1, h2, h3⟩ := hclear l hl
  refine ⟨e, h1, h2, fun e' h1' h2' hle d hd => ?_⟩
  obtain ⟨ey, ex⟩ := h3 e' h1' h2' hle
  simp only [List.mem_cons, List.not_mem_nil, or_false] at hd
  rcases hd with rfl | rfl
  · exact ey
  · exact ex

/-! ## A concrete case -/

/-- The gauge of `tgGauges` one degree to the north. -/
noncomputable def tgGaugesOff : LocFrame where
  columns := ["PSMSL_site", "lat", "lon"]
  rows := [("G", fun c => if c = "lat" then fin 11 else fin 0)]

theorem rad_ten_cos : 49 / 50 ≤ Real.cos (rad 10) := by
  have h := Real.one_sub_sq_div_two_le_cos (x := rad 10)
  have h1 : rad 10 ≤ 9 / 50 := by
    unfold rad
    have := Real.pi_lt_d2
    linarith
  have h0 : 0 ≤ rad 10 := by unfold rad; have := Real.pi_pos; positivity
  nlinarith

/-- Two points ten degrees of longitude apart, within ten degrees of the equator, are more than two
degrees apart. -/
theorem far_apart {c : ℝ} (hc : c = 0 ∨ c = 10) : 2 * rad 1 < centralAngle (10, 0) (c, 10) := by
  have hpi := Real.pi_pos
  have hpi2 := Real.pi_lt_d2
  rw [← C47_angle]
  unfold haversine
  have hc0 : 49 / 50 ≤ Real.cos (rad c) := by
    rcases hc with rfl | rfl
    · simp [rad]; norm_num
    · exact rad_ten_cos
  have hs : 1 / 18 ≤ Real.sin (rad 5) := by
    have := Real.mul_le_sin (x := rad 5) (by unfold rad; positivity) (by unfold rad; linarith)
    have e : 2 / Real.pi * rad 5 = 1 / 18 := by unfold rad; field_simp; norm_num
    linarith
  have hsq : Real.sin (1 / 2 * (rad 0 - rad 10)) ^ 2 = Real.sin (rad 5) ^ 2 := by
    rw [show 1 / 2 * (rad 0 - rad 10) = -rad 5 by unfold rad; ring, Real.sin_neg]; ring
  simp only [hsq]
  have h1 : (1 / 20 : ℝ) ^ 2 ≤ Real.sin (1 / 2 * (rad 10 - rad c)) ^ 2
      + Real.cos (rad 10) * Real.cos (rad c) * Real.sin (rad 5) ^ 2 := by
    have a1 : (49 / 50 : ℝ) * (49 / 50) ≤ Real.cos (rad 10) * Real.cos (rad c) :=
      mul_le_mul rad_ten_cos hc0 (by norm_num) (by linarith [rad_ten_cos])
    have a2 : (1 / 18 : ℝ) ^ 2 ≤ Real.sin (rad 5) ^ 2 := pow_le_pow_left₀ (by norm_num) hs 2
    have a3 := mul_le_mul a1 a2 (by norm_num) (by linarith)
    have a4 := sq_nonneg (Real.sin (1 / 2 * (rad 10 - rad c)))
    linarith
  have h2 := Real.le_sqrt_of_sq_le h1
  have h3 : (1 / 20 : ℝ) ≤ Real.arcsin (1 / 20) := by
    have := Real.sin_le (x := Real.arcsin (1 / 20)) (Real.arcsin_nonneg.2 (by norm_num))
    rwa [Real.sin_arcsin (by norm_num) (by norm_num)] at this
  have h4 := Real.arcsin_le_arcsin h2
  have h5 : rad 1 < 1 / 20 := by unfold rad; linarith
  linarith

theorem tg_near : List.Forall₂ (fun l l' : String × (String → Fl ℝ) => l.1 = l'.1 ∧
    WithinAngle "lat" "lon" (rad 1) l.2 l'.2) tgGauges.rows tgGaugesOff.rows := by
  simp only [tgGauges, tgGaugesOff, List.forall₂_cons, List.forall₂_nil_left_iff, and_true, true_and]
  refine ⟨(10, 0), (11, 0), by simp, by simp, by simp, by simp, ?_⟩
  refine (C162_coordinates 10 0 11 0).trans ?_
  norm_num [rad]

theorem tg_clear {e : Env} (hy2 : e "yh" < 2) (hx2 : e "xh" < 2)
    (hd : 6378 * centralAngle (10, 0) (10 * (e "yh" : ℝ), 10 * (e "xh" : ℝ))
      ≤ 6378 * centralAngle (10, 0) (10, 0) + 2 * 6378 * rad 1) : e "yh" = 1 ∧ e "xh" = 0 := by
  have hpi := Real.pi_pos
  have h00 := centralAngle_self (10, 0)
  replace hd : centralAngle (10, 0) (10 * (e "yh" : ℝ), 10 * (e "xh" : ℝ)) ≤ 2 * rad 1 := by linarith
  rcases (by omega : e "xh" = 0 ∨ e "xh" = 1) with ex | ex <;>
    rcases (by omega : e "yh" = 0 ∨ e "yh" = 1) with ey | ey <;> rw [ex, ey] at hd <;>
    simp only [Nat.cast_zero, Nat.cast_one, mul_zero, mul_one] at hd
  · rw [← C47_angle, C47_meridian _ _ _ (by norm_num)] at hd
    exfalso
    norm_num [rad] at hd
    linarith
  · exact ⟨ey, ex⟩
  · exact absurd hd (not_le.2 (far_apart (Or.inl rfl)))
  · exact absurd hd (not_le.2 (far_apart (Or.inr rfl)))

/-- The gauge one degree off its place gets the same series. -/
example {T T' : BallTree} {out out' : List (String × DA (Fl ℝ))}
    (h : extractTidegauge T (fun _ => some tgGauges) (.da tgArr) = .ok out)
    (h' : extractTidegauge T' (fun _ => some tgGaugesOff) (.da tgArr) = .ok out') :
    out'.lookup "G" = out.lookup "G" := by
  have hx : Denotes tgArr (.name "geolon") "geolon" ⟨tgX, tgLabel⟩ := Denotes.name _ _ rfl
  have hy : Denotes tgArr (.name "geolat") "geolat" ⟨tgY, tgLabel⟩ := Denotes.name _ _ rfl
  refine C162_gauges (δ := rad 1) hx hy (by simp) (by simp) (by simp) (by simp [tgX]) tgSame (by simp)
    (gauges := tgGauges) (gauges' := tgGaugesOff) rfl rfl tg_near ?_ h h' "G"
  intro l hl
  simp only [tgGauges, List.mem_singleton] at hl
  subst hl
  refine ⟨fun d => if d = "yh" then 1 else 0, ?_, trivial, ?_⟩
  · intro p hp
    simp only [tgX, List.mem_cons, List.not_mem_nil, or_false] at hp
    rcases hp with rfl | rfl <;> simp
  · intro e he _ hle
    have hgoal := tg_clear (he ("yh", 2) (by simp [tgX])) (he ("xh", 2) (by simp [tgX])) (by
      simpa only [gaugeDistance, tgX, tgY, real, if_true, String.reduceEq, if_false, Nat.cast_one,
        Nat.cast_zero, mul_one, mul_zero] using hle)
    intro d hd'
    simp only [DA.dimNames, tgX, List.map_cons, List.map_nil, List.mem_cons, List.not_mem_nil,
      or_false] at hd'
    rcases hd' with rfl | rfl
    · simpa using hgoal.1
    · simpa using hgoal.2

/-- The same with one-dimensional coordinates. -/
example {T T' : BallTree} {out out' : List (String × DA (Fl ℝ))}
    (h : extractTidegauge T (fun _ => some tgGauges) (.da tgFlat) (.name "xh") (.name "yh") "us" .none none true
      = .ok out)
    (h' : extractTidegauge T' (fun _ => some tgGaugesOff) (.da tgFlat) (.name "xh") (.name "yh") "us" .none
      none true = .ok out') :
    out'.lookup "G" = out.lookup "G" := by
  have hx : Denotes tgFlat (.name "xh") "xh" ⟨⟨[("xh", 2)], fun e => fin (10 * (e "xh" : ℝ))⟩, tgFlat.label⟩ :=
    Denotes.name _ _ rfl
  have hy : Denotes tgFlat (.name "yh") "yh" ⟨⟨[("yh", 2)], fun e => fin (10 * (e "yh" : ℝ))⟩, tgFlat.label⟩ :=
    Denotes.name _ _ rfl
  have inj : ∀ a b : ℕ, (fin (10 * (a : ℝ)) : Fl ℝ) = fin (10 * (b : ℝ)) → a = b := by
    intro a b h
    simpa using h
  refine C162_gauges_flat (δ := rad 1) hx hy rfl rfl (by decide)
    (fun e e' he => by simp only; rw [he "xh" (by simp [DA.dimNames])])
    (fun e e' he => by simp only; rw [he "yh" (by simp [DA.dimNames])])
    (fun e _ => rfl) (fun e _ => rfl) (fun e e' _ _ => inj _ _) (fun e e' _ _ => inj _ _)
    (by simp [tgFlat, tgArr]) (by simp [tgFlat, tgArr]) (by simp [tgFlat, tgArr]) (by simp)
    (gauges := tgGauges) (gauges' := tgGaugesOff) rfl rfl tg_near ?_ h h' "G"
  intro l hl
  simp only [tgGauges, List.mem_singleton] at hl
  subst hl
  refine ⟨fun d => if d = "yh" then 1 else 0, by simp, trivial, fun e he _ hle => ?_⟩
  have hgoal := tg_clear he.1 he.2 (by
    simpa only [gaugeDistance, real, if_true, String.reduceEq, if_false, Nat.cast_one,
      Nat.cast_zero, mul_one, mul_zero] using hle)
  simpa using hgoal

end Momlevel.Props
