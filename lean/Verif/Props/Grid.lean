import Verif.Model.Grid
import Verif.Spec.Sphere
import Verif.Props.Coriolis
import Mathlib.Analysis.SpecialFunctions.Integrals.Basic

/-! # C44 `standard_grid_cell_area`, C45 `tile_nominal_coords` -/

set_option linter.unusedSectionVars false

namespace Momlevel.Props
open Momlevel Momlevel.Fl Momlevel.Spec

/-! ## C44 -/

theorem npRadians_fin (x : ℝ) : npRadians (fin x) = fin (rad x) := by
  unfold npRadians npPi
  have : (180.0 : Fl ℝ) = fin 180 := by rw [ofSci]; norm_num
  rw [this]
  show Fl.div (fin (x * Real.pi)) (fin 180) = _
  rw [Fl.div, if_neg (by norm_num)]
  congr 1
  unfold rad
  ring

theorem cellArea_fin (r la lo dla dlo : ℝ) :
    (npPi / (180.0 : Fl ℝ)) * fin r * fin r
      * Fl.abs (npSin (npRadians (fin la - fin dla / (2 : Fl ℝ)))
        - npSin (npRadians (fin la + fin dla / (2 : Fl ℝ))))
      * Fl.abs ((fin lo - fin dlo / (2 : Fl ℝ)) - (fin lo + fin dlo / (2 : Fl ℝ)))
    = fin (quadArea r (la - dla / 2) (la + dla / 2) (lo - dlo / 2) (lo + dlo / 2)) := by
  have h180 : (180.0 : Fl ℝ) = fin 180 := by rw [ofSci]; norm_num
  have h2 : (2 : Fl ℝ) = fin 2 := rfl
  have hd : ∀ x : ℝ, fin x / (2 : Fl ℝ) = fin (x / 2) := fun x => by
    rw [h2, fin_div_of_ne _ (by norm_num)]
  have hpi : npPi / (180.0 : Fl ℝ) = fin (Real.pi / 180) := by
    rw [h180, npPi, fin_div_of_ne _ (by norm_num)]
  rw [hd, hd, hpi]
  simp only [Fl.fin_sub, Fl.fin_add, Fl.fin_mul, npRadians_fin, npSin, Fl.abs_fin]
  congr 1
  unfold quadArea
  have h1 : rad (lo + dlo / 2) - rad (lo - dlo / 2) = Real.pi / 180 * dlo := by
    unfold rad; ring
  have h2 : lo - dlo / 2 - (lo + dlo / 2) = -dlo := by ring
  rw [h1, h2, abs_neg, abs_mul, abs_of_pos (by positivity : (0 : ℝ) < Real.pi / 180), abs_sub_comm]
  ring

theorem npItem_map (l : List ℝ) (k : Nat) : npItem (l.map fin) k =
    match l[k]? with
    | some x => .ok (fin x)
    | none => .error .indexError := by
  unfold npItem
  rw [List.getElem?_map]
  cases l[k]? <;> rfl

/-- `standard_grid_cell_area`: a table with a row for each latitude and a column for each longitude,
each entry being the area between the parallels and meridians half a spacing away from the centre,
the spacing being that of the first two centres. -/
theorem C44_value {lat lon : List ℝ} {la0 la1 lo0 lo1 : ℝ} (r : ℝ) (h1 : lat[0]? = some la0)
    (h2 : lat[1]? = some la1) (h3 : lon[0]? = some lo0) (h4 : lon[1]? = some lo1) :
    standardGridCellArea (lat.map fin) (lon.map fin) (fin r) =
      .ok (lat.map (fun la => lon.map (fun lo => fin (quadArea r
        (la - (la1 - la0) / 2) (la + (la1 - la0) / 2) (lo - (lo1 - lo0) / 2)
        (lo + (lo1 - lo0) / 2))))) := by
  unfold standardGridCellArea
  simp only [npItem_map, h1, h2, h3, h4, ok_bind, Fl.fin_sub]
  show Except.ok _ = Except.ok _
  congr 1
  rw [List.map_map]
  refine List.map_congr_left (fun la _ => ?_)
  simp only [Function.comp_apply, List.map_map]
  refine List.map_congr_left (fun lo _ => ?_)
  exact cellArea_fin r la lo (la1 - la0) (lo1 - lo0)

/-- The default radius is 6371 km. -/
theorem C44_default (lat lon : List (Fl ℝ)) :
    standardGridCellArea lat lon = standardGridCellArea lat lon (fin 6371000) := by
  have : (6371.0e3 : Fl ℝ) = fin 6371000 := by rw [ofSci]; norm_num
  rw [this]

/-- A single latitude or longitude has no spacing: IndexError. -/
theorem C44_short (lat lon : List (Fl ℝ)) (r : Fl ℝ) (h : lat.length < 2 ∨ lon.length < 2) :
    standardGridCellArea lat lon r = .error .indexError := by
  unfold standardGridCellArea npItem
  match lat, lon, h with
  | [], _, _ => rfl
  | [_], _, _ => rfl
  | _ :: _ :: _, [], _ => rfl
  | _ :: _ :: _, [_], _ => rfl
  | _ :: _ :: _, _ :: _ :: _, h => simp at h

theorem quadArea_nonneg (r a b c d : ℝ) : 0 ≤ quadArea r a b c d := by
  unfold quadArea; positivity

theorem quadArea_comm_lat (r a b c d : ℝ) : quadArea r a b c d = quadArea r b a c d := by
  unfold quadArea; rw [abs_sub_comm (Real.sin (rad b))]

theorem quadArea_comm_lon (r a b c d : ℝ) : quadArea r a b c d = quadArea r a b d c := by
  unfold quadArea; rw [abs_sub_comm (rad d)]

/-- `quadArea` is the surface integral of the sphere between the parallels and meridians. -/
theorem C44_integral {r a b c d : ℝ} (ha : -90 ≤ a) (hab : a ≤ b) (hb : b ≤ 90) (hcd : c ≤ d) :
    quadArea r a b c d = ∫ _ in rad c..rad d, ∫ φ in rad a..rad b, r ^ 2 * Real.cos φ := by
  have hm : ∀ {x y : ℝ}, x ≤ y → rad x ≤ rad y := by
    intro x y h
    unfold rad
    have := Real.pi_pos
    gcongr
  have h90 : rad 90 = Real.pi / 2 := by unfold rad; ring
  have h90' : rad (-90) = -(Real.pi / 2) := by unfold rad; ring
  have hs : Real.sin (rad a) ≤ Real.sin (rad b) :=
    Real.sin_le_sin_of_le_of_le_pi_div_two (h90' ▸ hm ha) (h90 ▸ hm hb) (hm hab)
  rw [intervalIntegral.integral_const_mul, integral_cos, intervalIntegral.integral_const]
  unfold quadArea
  rw [abs_of_nonneg (sub_nonneg.2 hs), abs_of_nonneg (sub_nonneg.2 (hm hcd)), smul_eq_mul]
  ring

/-- Sum over a uniform list. -/
theorem sum_uniform (l : List ℝ) (f : ℝ → ℝ) {a d : ℝ} (h : IsUniform l a d) :
    (l.map f).sum = ∑ k ∈ Finset.range l.length, f (a + k * d) := by
  rw [Finset.sum_range, ← List.sum_ofFn]
  congr 1
  refine List.ext_getElem (by simp) (fun k h1 h2 => ?_)
  simp only [List.getElem_map, List.getElem_ofFn]
  have hk : k < l.length := by simpa using h1
  rw [h k l[k] (List.getElem?_eq_getElem hk)]

theorem rad_add (x y : ℝ) : rad (x + y) = rad x + rad y := by unfold rad; ring
theorem rad_sub (x y : ℝ) : rad (x - y) = rad x - rad y := by unfold rad; ring

/-- Telescoping: for an increasing or decreasing axis whose edges stay within the poles. -/
theorem sum_sin {a d : ℝ} {n : Nat} (h0 : |a - d / 2| ≤ 90) (h1 : |a - d / 2 + n * d| ≤ 90) :
    ∑ k ∈ Finset.range n, |Real.sin (rad (a + k * d + d / 2)) - Real.sin (rad (a + k * d - d / 2))|
      = |Real.sin (rad (a - d / 2 + n * d)) - Real.sin (rad (a - d / 2))| := by
  have h90 : rad 90 = Real.pi / 2 := by unfold rad; ring
  have h90' : rad (-90) = -(Real.pi / 2) := by unfold rad; ring
  have hm : ∀ {x y : ℝ}, x ≤ y → rad x ≤ rad y := by
    intro x y h
    unfold rad
    have := Real.pi_pos
    gcongr
  have hsin : ∀ {x y : ℝ}, -90 ≤ x → x ≤ y → y ≤ 90 → Real.sin (rad x) ≤ Real.sin (rad y) := by
    intro x y h1 h2 h3
    exact Real.sin_le_sin_of_le_of_le_pi_div_two (h90' ▸ hm h1) (h90 ▸ hm h3) (hm h2)
  rw [abs_le] at h0 h1
  set s : Nat → ℝ := fun k => Real.sin (rad (a - d / 2 + k * d)) with hs
  have e : ∀ k : Nat, Real.sin (rad (a + k * d + d / 2)) - Real.sin (rad (a + k * d - d / 2))
      = s (k + 1) - s k := by
    intro k
    simp only [hs]
    push_cast
    congr 3 <;> ring
  simp only [e]
  have e0 : Real.sin (rad (a - d / 2)) = s 0 := by simp [hs]
  rw [e0]
  change _ = |s n - s 0|
  rcases le_total 0 d with hd | hd
  · have hmono : ∀ k, k < n → s k ≤ s (k + 1) := by
      intro k hk
      have hk' : ((k + 1 : Nat) : ℝ) ≤ n := by exact_mod_cast hk
      have hk0 : (0 : ℝ) ≤ k := Nat.cast_nonneg k
      refine hsin ?_ ?_ ?_
      · nlinarith
      · push_cast; nlinarith
      · nlinarith
    rw [Finset.sum_congr rfl (fun k hk => abs_of_nonneg (sub_nonneg.2 (hmono k (Finset.mem_range.1 hk)))),
      Finset.sum_range_sub, abs_of_nonneg]
    rw [← Finset.sum_range_sub]
    exact Finset.sum_nonneg (fun k hk => sub_nonneg.2 (hmono k (Finset.mem_range.1 hk)))
  · have hmono : ∀ k, k < n → s (k + 1) ≤ s k := by
      intro k hk
      have hk' : ((k + 1 : Nat) : ℝ) ≤ n := by exact_mod_cast hk
      have hk0 : (0 : ℝ) ≤ k := Nat.cast_nonneg k
      refine hsin ?_ ?_ ?_
      · nlinarith
      · push_cast; nlinarith
      · nlinarith
    rw [Finset.sum_congr rfl (fun k hk => abs_of_nonpos (sub_nonpos.2 (hmono k (Finset.mem_range.1 hk)))),
      Finset.sum_neg_distrib, Finset.sum_range_sub, abs_of_nonpos]
    rw [← Finset.sum_range_sub]
    exact Finset.sum_nonpos (fun k hk => sub_nonpos.2 (hmono k (Finset.mem_range.1 hk)))

/-- On a uniform grid whose cells stay within the poles the areas add up to the area of the whole
region, whatever the directions of the axes. -/
theorem C44_region {lat lon : List ℝ} {a d b c : ℝ} (r : ℝ) (hlat : IsUniform lat a d)
    (hlon : IsUniform lon b c) (hn : 2 ≤ lat.length) (hm : 2 ≤ lon.length)
    (h0 : |a - d / 2| ≤ 90) (h1 : |a - d / 2 + lat.length * d| ≤ 90) :
    ∃ T : List (List ℝ), standardGridCellArea (lat.map fin) (lon.map fin) (fin r)
        = .ok (T.map (fun row => row.map fin)) ∧
      T.length = lat.length ∧ (∀ row ∈ T, row.length = lon.length ∧ ∀ x ∈ row, 0 ≤ x) ∧
      (T.map List.sum).sum = quadArea r (a - d / 2) (a - d / 2 + lat.length * d)
        (b - c / 2) (b - c / 2 + lon.length * c) := by
  have q0 : lat[0]? = some a := by
    rw [List.getElem?_eq_getElem (by omega)]
    rw [hlat 0 _ (List.getElem?_eq_getElem (by omega))]; simp
  have q1 : lat[1]? = some (a + d) := by
    rw [List.getElem?_eq_getElem (by omega)]
    rw [hlat 1 _ (List.getElem?_eq_getElem (by omega))]; simp
  have q2 : lon[0]? = some b := by
    rw [List.getElem?_eq_getElem (by omega)]
    rw [hlon 0 _ (List.getElem?_eq_getElem (by omega))]; simp
  have q3 : lon[1]? = some (b + c) := by
    rw [List.getElem?_eq_getElem (by omega)]
    rw [hlon 1 _ (List.getElem?_eq_getElem (by omega))]; simp
  refine ⟨lat.map (fun la => lon.map (fun lo => quadArea r (la - d / 2) (la + d / 2) (lo - c / 2)
    (lo + c / 2))), ?_, by simp, ?_, ?_⟩
  · rw [C44_value r q0 q1 q2 q3]
    simp [List.map_map, Function.comp_def]
  · intro row hrow
    obtain ⟨la, -, rfl⟩ := List.mem_map.1 hrow
    refine ⟨by simp, fun x hx => ?_⟩
    obtain ⟨lo, -, rfl⟩ := List.mem_map.1 hx
    exact quadArea_nonneg _ _ _ _ _
  · rw [List.map_map, sum_uniform lat _ hlat]
    have hrow : ∀ la : ℝ, (List.sum ∘ fun la => lon.map (fun lo => quadArea r (la - d / 2) (la + d / 2)
        (lo - c / 2) (lo + c / 2))) la = |Real.sin (rad (la + d / 2)) - Real.sin (rad (la - d / 2))|
          * (r ^ 2 * (lon.length * |rad c|)) := by
      intro la
      simp only [Function.comp_apply]
      rw [sum_uniform lon _ hlon]
      have : ∀ lo : ℝ, quadArea r (la - d / 2) (la + d / 2) (lo - c / 2) (lo + c / 2) =
          r ^ 2 * |Real.sin (rad (la + d / 2)) - Real.sin (rad (la - d / 2))| * |rad c| := by
        intro lo
        unfold quadArea
        congr 2
        unfold rad
        ring
      simp only [this, Finset.sum_const, Finset.card_range, nsmul_eq_mul]
      ring
    simp only [hrow]
    rw [← Finset.sum_mul, sum_sin h0 h1]
    unfold quadArea
    have : rad (b - c / 2 + lon.length * c) - rad (b - c / 2) = lon.length * rad c := by
      unfold rad; ring
    rw [this, abs_mul, Nat.abs_cast]
    ring

/-- A uniform grid that covers the globe: the areas add up to the surface of the sphere. -/
theorem C44_globe {lat lon : List ℝ} {a d b c : ℝ} (r : ℝ) (hlat : IsUniform lat a d)
    (hlon : IsUniform lon b c) (hn : 2 ≤ lat.length) (hm : 2 ≤ lon.length)
    (h0 : (a - d / 2 = -90 ∧ lat.length * d = 180) ∨ (a - d / 2 = 90 ∧ lat.length * d = -180))
    (h1 : |lon.length * c| = 360) :
    ∃ T : List (List ℝ), standardGridCellArea (lat.map fin) (lon.map fin) (fin r)
        = .ok (T.map (fun row => row.map fin)) ∧
      (T.map List.sum).sum = 4 * Real.pi * r ^ 2 := by
  obtain ⟨T, hT, -, -, hsum⟩ := C44_region r hlat hlon hn hm
    (by rcases h0 with ⟨h, -⟩ | ⟨h, -⟩ <;> rw [h] <;> norm_num [abs_of_nonneg, abs_of_neg])
    (by rcases h0 with ⟨h, h'⟩ | ⟨h, h'⟩ <;> rw [h, h'] <;> norm_num [abs_of_nonneg, abs_of_neg])
  refine ⟨T, hT, hsum.trans ?_⟩
  unfold quadArea
  have h90 : Real.sin (rad 90) = 1 := by
    rw [show rad 90 = Real.pi / 2 by unfold rad; ring, Real.sin_pi_div_two]
  have h90' : Real.sin (rad (-90)) = -1 := by
    rw [show rad (-90) = -(Real.pi / 2) by unfold rad; ring, Real.sin_neg, Real.sin_pi_div_two]
  have e1 : |rad (b - c / 2 + lon.length * c) - rad (b - c / 2)| = 2 * Real.pi := by
    have : rad (b - c / 2 + lon.length * c) - rad (b - c / 2) = (lon.length * c) * (Real.pi / 180) := by
      unfold rad; ring
    rw [this, abs_mul, h1, abs_of_pos (by positivity)]
    ring
  have e2 : |Real.sin (rad (a - d / 2 + lat.length * d)) - Real.sin (rad (a - d / 2))| = 2 := by
    rcases h0 with ⟨h, h'⟩ | ⟨h, h'⟩
    · rw [h, h', show (-90 + 180 : ℝ) = 90 by norm_num, h90, h90']; norm_num
    · rw [h, h', show (90 + -180 : ℝ) = -90 by norm_num, h90, h90']; norm_num
  rw [e1, e2]
  ring

theorem uniform_reverse {l : List ℝ} {a d : ℝ} (h : IsUniform l a d) :
    IsUniform l.reverse (a + (l.length - 1 : ℝ) * d) (-d) := by
  intro k x hx
  have hk : k < l.length := by
    have := (List.getElem?_eq_some_iff.1 hx).1
    simpa using this
  rw [List.getElem?_reverse hk] at hx
  have := h _ _ hx
  rw [this]
  have : ((l.length - 1 - k : Nat) : ℝ) = (l.length : ℝ) - 1 - k := by
    rw [Nat.cast_sub (by omega), Nat.cast_sub (by omega)]; simp
  rw [this]
  ring

theorem uniform_heads {l : List ℝ} {a d : ℝ} (h : IsUniform l a d) (hn : 2 ≤ l.length) :
    l[0]? = some a ∧ l[1]? = some (a + d) := by
  constructor
  · rw [List.getElem?_eq_getElem (by omega)]
    rw [h 0 _ (List.getElem?_eq_getElem (by omega))]; simp
  · rw [List.getElem?_eq_getElem (by omega)]
    rw [h 1 _ (List.getElem?_eq_getElem (by omega))]; simp

/-- The direction of the axes does not matter: reversing a uniform axis reverses the table. -/
theorem C44_reverse {lat lon : List ℝ} {a d b c : ℝ} (r : ℝ) (hlat : IsUniform lat a d)
    (hlon : IsUniform lon b c) (hn : 2 ≤ lat.length) (hm : 2 ≤ lon.length) :
    ∃ T, standardGridCellArea (lat.map fin) (lon.map fin) (fin r) = .ok T ∧
      standardGridCellArea (lat.reverse.map fin) (lon.map fin) (fin r) = .ok T.reverse ∧
      standardGridCellArea (lat.map fin) (lon.reverse.map fin) (fin r)
        = .ok (T.map List.reverse) := by
  obtain ⟨q0, q1⟩ := uniform_heads hlat hn
  obtain ⟨q2, q3⟩ := uniform_heads hlon hm
  obtain ⟨p0, p1⟩ := uniform_heads (uniform_reverse hlat) (by simpa using hn)
  obtain ⟨p2, p3⟩ := uniform_heads (uniform_reverse hlon) (by simpa using hm)
  refine ⟨_, C44_value r q0 q1 q2 q3, ?_, ?_⟩
  · rw [C44_value r p0 p1 q2 q3, List.map_reverse]
    congr 2
    refine List.map_congr_left (fun la _ => List.map_congr_left (fun lo _ => ?_))
    rw [quadArea_comm_lat]
    congr 2 <;> ring
  · rw [C44_value r q0 q1 p2 p3, List.map_map]
    congr 1
    refine List.map_congr_left (fun la _ => ?_)
    simp only [Function.comp_apply]
    rw [← List.map_reverse]
    refine List.map_congr_left (fun lo _ => ?_)
    rw [quadArea_comm_lon]
    congr 2 <;> ring

theorem values1_eq {V : Type} {a : DA V} {d : String} {n : Nat} (h : a.dims = [(d, n)]) :
    a.values1 = (List.range n).map (fun k => a.get (Function.update (fun _ => 0) d k)) := by
  unfold DA.values1; rw [h]

/-- For DataArrays the result is the same table, labelled with the dimensions of the arguments. -/
theorem C44_dataarray {lat lon : DA (Fl ℝ)} {y x : String} {n m : Nat} {la lo : Nat → ℝ} (r : ℝ)
    (hy : lat.dims = [(y, n)]) (hx : lon.dims = [(x, m)]) (hn : 2 ≤ n) (hm : 2 ≤ m)
    (hla : ∀ e, lat.get e = fin (la (e y))) (hlo : ∀ e, lon.get e = fin (lo (e x))) :
    ∃ A, standardGridCellAreaDA lat lon (fin r) = .ok A ∧ A.dims = [(y, n), (x, m)] ∧
      ∀ e : Env, e y < n → e x < m → A.get e = fin (quadArea r
        (la (e y) - (la 1 - la 0) / 2) (la (e y) + (la 1 - la 0) / 2)
        (lo (e x) - (lo 1 - lo 0) / 2) (lo (e x) + (lo 1 - lo 0) / 2)) := by
  have v1 : lat.values1 = ((List.range n).map la).map fin := by
    rw [values1_eq hy, List.map_map]
    refine List.map_congr_left (fun k _ => ?_)
    rw [hla]; simp
  have v2 : lon.values1 = ((List.range m).map lo).map fin := by
    rw [values1_eq hx, List.map_map]
    refine List.map_congr_left (fun k _ => ?_)
    rw [hlo]; simp
  have g : ∀ (f : Nat → ℝ) (n k : Nat), k < n → ((List.range n).map f)[k]? = some (f k) := by
    intro f n k hk
    rw [List.getElem?_map, List.getElem?_range hk]; rfl
  have key := C44_value r (g la n 0 (by omega)) (g la n 1 (by omega)) (g lo m 0 (by omega))
    (g lo m 1 (by omega))
  unfold standardGridCellAreaDA
  rw [v1, v2, key, ok_bind, hy, hx]
  refine ⟨_, rfl, rfl, fun e h1 h2 => ?_⟩
  simp [List.getD_eq_getElem?_getD, h1, h2]

/-- A two by four global grid, from the south pole and from 0°E. -/
example : ∃ T : List (List ℝ), standardGridCellArea (([-45, 45] : List ℝ).map fin)
    (([45, 135, 225, 315] : List ℝ).map fin) (fin 6371000) = .ok (T.map (fun row => row.map fin)) ∧
    (T.map List.sum).sum = 4 * Real.pi * 6371000 ^ 2 := by
  refine C44_globe (a := -45) (d := 90) (b := 45) (c := 90) _ ?_ ?_ (by simp) (by simp)
    (Or.inl (by norm_num)) (by norm_num)
  · intro k x h
    match k with
    | 0 => simp at h; rw [← h]; norm_num
    | 1 => simp at h; rw [← h]; norm_num
    | k + 2 => simp at h
  · intro k x h
    match k with
    | 0 => simp at h; rw [← h]; norm_num
    | 1 => simp at h; rw [← h]; norm_num
    | 2 => simp at h; rw [← h]; norm_num
    | 3 => simp at h; rw [← h]; norm_num
    | k + 4 => simp at h

/-! ## C45 -/

section C45
variable {V : Type}

/-- `tile_nominal_coords`: both results have dimensions (y, x); longitude depends only on x, latitude
only on y. -/
theorem C45_value {x y : DA V} {xn yn : String} {nx ny : Nat} (hx : x.dims = [(xn, nx)])
    (hy : y.dims = [(yn, ny)]) (hxy : xn ≠ yn) (wx : x.WF) (wy : y.WF) :
    ∃ lon lat, tileNominalCoords (.da xn x) (.da yn y) = .ok (lon, lat) ∧
      lon.dims = [(yn, ny), (xn, nx)] ∧ lat.dims = [(yn, ny), (xn, nx)] ∧
      (∀ e, lon.get e = x.get e) ∧ (∀ e, lat.get e = y.get e) ∧
      (∀ e k, lon.get (Function.update e yn k) = lon.get e) ∧
      (∀ e k, lat.get (Function.update e xn k) = lat.get e) := by
  have gx : ∀ e : Env, x.get (Function.update (fun _ => 0) xn (e xn)) = x.get e := fun e =>
    wx _ _ (fun d hd => by
      simp only [DA.dimNames, hx, List.map_cons, List.map_nil, List.mem_singleton] at hd
      subst hd
      simp)
  have gy : ∀ e : Env, y.get (Function.update (fun _ => 0) yn (e yn)) = y.get e := fun e =>
    wy _ _ (fun d hd => by
      simp only [DA.dimNames, hy, List.map_cons, List.map_nil, List.mem_singleton] at hd
      subst hd
      simp)
  refine ⟨⟨[(yn, ny), (xn, nx)], fun e => x.get (Function.update (fun _ => 0) xn (e xn))⟩,
    ⟨[(yn, ny), (xn, nx)], fun e => y.get (Function.update (fun _ => 0) yn (e yn))⟩,
    ?_, rfl, rfl, gx, gy, fun e k => ?_, fun e k => ?_⟩
  · simp only [tileNominalCoords, tileArrays, hx, hy]
    rw [if_pos ⟨trivial, trivial, hxy⟩]
  · simp only [Function.update_of_ne hxy]
  · simp only [Function.update_of_ne hxy.symm]

/-- Arguments that are not DataArrays raise an AssertionError. -/
theorem C45_type (c : CoordArg V) : tileNominalCoords .other c = .error .assertionError ∧
    tileNominalCoords c .other = .error .assertionError := by
  cases c <;> exact ⟨rfl, rfl⟩

/-- Three longitudes and two latitudes. -/
example : ∃ lon lat, tileNominalCoords
    (.da "xh" ⟨[("xh", 3)], fun e => (10 * e "xh" : Nat)⟩) (.da "yh" ⟨[("yh", 2)], fun e => e "yh"⟩)
      = .ok (lon, lat) ∧ lon.dims = [("yh", 2), ("xh", 3)] ∧
      lon.get (fun d => if d = "xh" then 2 else 1) = 20 ∧
      lat.get (fun d => if d = "xh" then 2 else 1) = 1 :=
  ⟨_, _, rfl, rfl, rfl, rfl⟩

/-- `C44_default` on two latitudes and two longitudes. -/
example : standardGridCellArea [fin (-45), fin 45] [fin 90, fin 270]
    = standardGridCellArea [fin (-45), fin 45] [fin 90, fin 270] (fin 6371000) := C44_default _ _

end C45

end Momlevel.Props
