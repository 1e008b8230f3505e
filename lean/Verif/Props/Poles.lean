import Verif.Props.Grid

/-! # C145: cell areas at the poles and on uneven axes -/

set_option linter.unusedSectionVars false

namespace Momlevel.Props
open Momlevel Momlevel.Fl Momlevel.Spec

theorem sin_pole (x : ℝ) : Real.sin (rad (90 + x)) = Real.cos (rad x) ∧ Real.sin (rad (-90 + x)) = -Real.cos (rad x) := by
  have h1 : rad (90 + x) = rad x + Real.pi / 2 := by unfold rad; ring
  have h2 : rad (-90 + x) = rad x - Real.pi / 2 := by unfold rad; ring
  rw [h1, h2, Real.sin_add_pi_div_two, Real.sin_sub_pi_div_two]
  exact ⟨rfl, rfl⟩

theorem cos_rad_neg (x : ℝ) : Real.cos (rad (-x)) = Real.cos (rad x) := by
  rw [show rad (-x) = -rad x by unfold rad; ring, Real.cos_neg]

theorem polar_zero {la h : ℝ} (hp : la = 90 ∨ la = -90) :
    Real.sin (rad (la + h)) - Real.sin (rad (la - h)) = 0 := by
  rcases hp with rfl | rfl
  · rw [(sin_pole h).1, sub_eq_add_neg, sub_eq_add_neg, (sin_pole (-h)).1, cos_rad_neg]; ring
  · rw [(sin_pole h).2, sub_eq_add_neg, sub_eq_add_neg, (sin_pole (-h)).2, cos_rad_neg]; ring

/-- Every cell centred on a pole has area zero, on every grid. -/
theorem C145_pole {lat lon : List ℝ} (hn : 2 ≤ lat.length) (hm : 2 ≤ lon.length) (r : ℝ) :
    ∃ T : List (List ℝ), standardGridCellArea (lat.map fin) (lon.map fin) (fin r)
        = .ok (T.map (fun row => row.map fin)) ∧
      ∀ (j : ℕ) (row : List ℝ), T[j]? = some row → lat[j]? = some 90 ∨ lat[j]? = some (-90) →
        row.length = lon.length ∧ ∀ x ∈ row, x = 0 := by
  have q0 := List.getElem?_eq_getElem (l := lat) (i := 0) (by omega)
  have q1 := List.getElem?_eq_getElem (l := lat) (i := 1) (by omega)
  have q2 := List.getElem?_eq_getElem (l := lon) (i := 0) (by omega)
  have q3 := List.getElem?_eq_getElem (l := lon) (i := 1) (by omega)
  refine ⟨lat.map (fun la => lon.map (fun lo => quadArea r (la - (lat[1] - lat[0]) / 2)
    (la + (lat[1] - lat[0]) / 2) (lo - (lon[1] - lon[0]) / 2) (lo + (lon[1] - lon[0]) / 2))), ?_, ?_⟩
  · rw [C44_value r q0 q1 q2 q3]
    simp [List.map_map, Function.comp_def]
  · intro j row hj hp
    rw [List.getElem?_map] at hj
    obtain ⟨la, h1, rfl⟩ := Option.map_eq_some_iff.1 hj
    have hla : la = 90 ∨ la = -90 := by simpa [h1] using hp
    refine ⟨by simp, fun x hx => ?_⟩
    obtain ⟨lo, -, rfl⟩ := List.mem_map.1 hx
    unfold quadArea
    rw [polar_zero hla]
    simp

/-- What is missing is positive on every such grid of at least three rows. -/
theorem caps_missing {d r : ℝ} (hr : r ≠ 0) (h0 : d ≠ 0) (h1 : |d| ≤ 180) :
    4 * Real.pi * r ^ 2 * Real.cos (rad (d / 2)) < 4 * Real.pi * r ^ 2 := by
  have hc : Real.cos (rad (d / 2)) < 1 := by
    refine lt_of_le_of_ne (Real.cos_le_one _) (fun h => ?_)
    have hp := Real.pi_pos
    have hb := abs_le.1 h1
    have e : rad (d / 2) = d / 360 * Real.pi := by unfold rad; ring
    rw [Real.cos_eq_one_iff_of_lt_of_lt (by rw [e]; nlinarith) (by rw [e]; nlinarith), e] at h
    rcases mul_eq_zero.1 h with h | h
    · exact h0 (by linarith)
    · exact hp.ne' h
  have : 0 < 4 * Real.pi * r ^ 2 := by have := Real.pi_pos; positivity
  nlinarith

/-- On a uniform grid with centres on both poles, going north or south, the areas add up to `4πr² cos(d/2)`: the two
polar caps of half a spacing are missing, and the total falls short of the sphere. -/
theorem C145_total {lat lon : List ℝ} {a d b c : ℝ} (r : ℝ) (hlat : IsUniform lat a d) (hlon : IsUniform lon b c)
    (hn : 2 ≤ lat.length) (hm : 2 ≤ lon.length)
    (h0 : (a = -90 ∧ (lat.length - 1) * d = 180) ∨ (a = 90 ∧ (lat.length - 1) * d = -180))
    (h1 : |lon.length * c| = 360) :
    ∃ T : List (List ℝ), standardGridCellArea (lat.map fin) (lon.map fin) (fin r)
        = .ok (T.map (fun row => row.map fin)) ∧
      (T.map List.sum).sum = 4 * Real.pi * r ^ 2 * Real.cos (rad (d / 2)) ∧
      (r ≠ 0 → (T.map List.sum).sum < 4 * Real.pi * r ^ 2) := by
  have q0 : lat[0]? = some a := by
    rw [List.getElem?_eq_getElem (by omega)]
    rw [hlat 0 _ (List.getElem?_eq_getElem (by omega))]; simp
  have q1 : lat[1]? = some (a + d) := by
    rw [List.getElem?_eq_getElem (by omega)]
    rw [hlat 1 _ (List.getElem?_eq_getElem (by omega))]; simp
  have q2 : lon[0]? = some b := by
    rw [List.getElem?_eq_getElem (by omega)]
    rw [hlon 0 _ (List.getElem?_eq_getElem (by omega))]; simp
  have q3 : lon[1]? = some (b + c) := by
    rw [List.getElem?_eq_getElem (by omega)]
    rw [hlon 1 _ (List.getElem?_eq_getElem (by omega))]; simp
  refine ⟨lat.map (fun la => lon.map (fun lo => quadArea r (la - d / 2) (la + d / 2) (lo - c / 2)
    (lo + c / 2))), ?_, ?_⟩
  · rw [C44_value r q0 q1 q2 q3]
    simp [List.map_map, Function.comp_def]
  have hd2 : d ≠ 0 ∧ |d| ≤ 180 := by
    have h2 : (2 : ℝ) ≤ lat.length := by exact_mod_cast hn
    rw [abs_le]
    rcases h0 with ⟨-, h⟩ | ⟨-, h⟩
    · refine ⟨by rintro rfl; norm_num at h, ?_, ?_⟩ <;> nlinarith
    · refine ⟨by rintro rfl; norm_num at h, ?_, ?_⟩ <;> nlinarith
  suffices hs : (List.map List.sum (lat.map (fun la => lon.map (fun lo => quadArea r (la - d / 2) (la + d / 2)
      (lo - c / 2) (lo + c / 2))))).sum = 4 * Real.pi * r ^ 2 * Real.cos (rad (d / 2)) from
    ⟨hs, fun hr => hs ▸ caps_missing hr hd2.1 hd2.2⟩
  rw [List.map_map, sum_uniform lat _ hlat]
  have hrow : ∀ la : ℝ, (List.sum ∘ fun la => lon.map (fun lo => quadArea r (la - d / 2) (la + d / 2)
      (lo - c / 2) (lo + c / 2))) la = |Real.sin (rad (la + d / 2)) - Real.sin (rad (la - d / 2))|
        * (r ^ 2 * (2 * Real.pi)) := by
    intro la
    simp only [Function.comp_apply]
    rw [sum_uniform lon _ hlon]
    have e : ∀ lo : ℝ, quadArea r (la - d / 2) (la + d / 2) (lo - c / 2) (lo + c / 2) =
        r ^ 2 * |Real.sin (rad (la + d / 2)) - Real.sin (rad (la - d / 2))| * |rad c| := by
      intro lo
      unfold quadArea
      rw [show rad (lo + c / 2) - rad (lo - c / 2) = rad c by unfold rad; ring]
    simp only [e, Finset.sum_const, Finset.card_range, nsmul_eq_mul]
    have h2 : (lon.length : ℝ) * |rad c| = 2 * Real.pi := by
      unfold rad
      rw [abs_mul, abs_div, abs_of_pos Real.pi_pos, abs_of_pos (by norm_num : (0 : ℝ) < 180)]
      rw [abs_mul, Nat.abs_cast] at h1
      have : (lon.length : ℝ) * (|c| / 180 * Real.pi) = (lon.length * |c|) / 180 * Real.pi := by ring
      rw [this, h1]; ring
    rw [← h2]; ring
  simp only [hrow]
  rw [← Finset.sum_mul]
  obtain ⟨m, hmn⟩ : ∃ m, lat.length = m + 2 := ⟨lat.length - 2, by omega⟩
  rw [hmn] at h0 ⊢
  push_cast at h0
  have hm0 : (0 : ℝ) ≤ m := Nat.cast_nonneg m
  -- half a spacing is at most a quarter turn
  have hd : |d / 2| ≤ 90 := by
    rw [abs_le]
    rcases h0 with ⟨-, h⟩ | ⟨-, h⟩
    · constructor <;> nlinarith
    · constructor <;> nlinarith
  have hcos : 0 ≤ Real.cos (rad (d / 2)) := by
    refine Real.cos_nonneg_of_neg_pi_div_two_le_of_le ?_ ?_
    · have := (abs_le.1 hd).1
      unfold rad
      have hp := Real.pi_pos
      nlinarith
    · have := (abs_le.1 hd).2
      unfold rad
      have hp := Real.pi_pos
      nlinarith
  rw [Finset.sum_range_succ, Finset.sum_range_succ']
  have first : |Real.sin (rad (a + ((0 : ℕ) : ℝ) * d + d / 2)) - Real.sin (rad (a + ((0 : ℕ) : ℝ) * d - d / 2))| = 0 := by
    rw [abs_eq_zero]
    refine polar_zero ?_
    rcases h0 with ⟨h, -⟩ | ⟨h, -⟩ <;> simp [h]
  have last : |Real.sin (rad (a + ((m + 1 : ℕ) : ℝ) * d + d / 2)) - Real.sin (rad (a + ((m + 1 : ℕ) : ℝ) * d - d / 2))| = 0 := by
    rw [abs_eq_zero]
    refine polar_zero ?_
    push_cast
    rcases h0 with ⟨h, k⟩ | ⟨h, k⟩
    · left; rw [h]; linarith
    · right; rw [h]; linarith
  rw [first, last]
  have inner := sum_sin (a := a + d) (d := d) (n := m) (by
      rw [abs_le] at hd ⊢
      rcases h0 with ⟨h, k⟩ | ⟨h, k⟩
      · constructor <;> nlinarith
      · constructor <;> nlinarith) (by
      rw [abs_le] at hd ⊢
      rcases h0 with ⟨h, k⟩ | ⟨h, k⟩
      · constructor <;> nlinarith
      · constructor <;> nlinarith)
  have e2 : ∑ k ∈ Finset.range m, |Real.sin (rad (a + ((k + 1 : ℕ) : ℝ) * d + d / 2))
        - Real.sin (rad (a + ((k + 1 : ℕ) : ℝ) * d - d / 2))|
      = ∑ k ∈ Finset.range m, |Real.sin (rad (a + d + k * d + d / 2)) - Real.sin (rad (a + d + k * d - d / 2))| := by
    refine Finset.sum_congr rfl (fun k _ => ?_)
    push_cast
    rw [show a + ((k : ℝ) + 1) * d = a + d + k * d by ring]
  rw [e2, inner]
  have val : |Real.sin (rad (a + d - d / 2 + m * d)) - Real.sin (rad (a + d - d / 2))| = 2 * Real.cos (rad (d / 2)) := by
    rcases h0 with ⟨h, k⟩ | ⟨h, k⟩
    · rw [show a + d - d / 2 + m * d = 90 + -(d / 2) by rw [h]; linarith,
        show a + d - d / 2 = -90 + d / 2 by rw [h]; ring, (sin_pole _).1, (sin_pole _).2, cos_rad_neg,
        abs_of_nonneg (by linarith)]
      ring
    · rw [show a + d - d / 2 + m * d = -90 + -(d / 2) by rw [h]; linarith,
        show a + d - d / 2 = 90 + d / 2 by rw [h]; ring, (sin_pole _).1, (sin_pole _).2, cos_rad_neg,
        abs_of_nonpos (by linarith)]
      ring
  rw [val]
  ring

/-- Only the first two entries of an axis give its spacing: the area of a cell depends on the longitudes through
the first two alone, and on the latitudes through the first two and its own. -/
theorem C145_spacing {lat lat' lon lon' : List ℝ} (hn : 2 ≤ lat.length) (hm : 2 ≤ lon.length)
    (h0 : lat[0]? = lat'[0]?) (h1 : lat[1]? = lat'[1]?)
    (k0 : lon[0]? = lon'[0]?) (k1 : lon[1]? = lon'[1]?) (r : ℝ) :
    ∃ T T' : List (List ℝ), standardGridCellArea (lat.map fin) (lon.map fin) (fin r)
        = .ok (T.map (fun row => row.map fin)) ∧
      standardGridCellArea (lat'.map fin) (lon'.map fin) (fin r) = .ok (T'.map (fun row => row.map fin)) ∧
      ∀ (j j' i i' : ℕ) (row row' : List ℝ) (x x' : ℝ), T[j]? = some row → T'[j']? = some row' →
        row[i]? = some x → row'[i']? = some x' → lat[j]? = lat'[j']? → x = x' := by
  have q0 := List.getElem?_eq_getElem (l := lat) (i := 0) (by omega)
  have q1 := List.getElem?_eq_getElem (l := lat) (i := 1) (by omega)
  have q2 := List.getElem?_eq_getElem (l := lon) (i := 0) (by omega)
  have q3 := List.getElem?_eq_getElem (l := lon) (i := 1) (by omega)
  let f : ℝ → ℝ → ℝ := fun la lo => quadArea r (la - (lat[1] - lat[0]) / 2)
    (la + (lat[1] - lat[0]) / 2) (lo - (lon[1] - lon[0]) / 2) (lo + (lon[1] - lon[0]) / 2)
  refine ⟨lat.map (fun la => lon.map (f la)), lat'.map (fun la => lon'.map (f la)), ?_, ?_, ?_⟩
  · rw [C44_value r q0 q1 q2 q3]
    simp [List.map_map, Function.comp_def, f]
  · rw [C44_value r (h0 ▸ q0) (h1 ▸ q1) (k0 ▸ q2) (k1 ▸ q3)]
    simp [List.map_map, Function.comp_def, f]
  · intro j j' i i' row row' x x' hj hj' hi hi' hl
    rw [List.getElem?_map] at hj hj'
    obtain ⟨la, a1, rfl⟩ := Option.map_eq_some_iff.1 hj
    obtain ⟨la', a2, rfl⟩ := Option.map_eq_some_iff.1 hj'
    rw [List.getElem?_map] at hi hi'
    obtain ⟨lo, -, rfl⟩ := Option.map_eq_some_iff.1 hi
    obtain ⟨lo', -, rfl⟩ := Option.map_eq_some_iff.1 hi'
    rw [a1, a2, Option.some.injEq] at hl
    subst hl
    simp only [f]
    unfold quadArea
    congr 2
    unfold rad
    ring

/-- Latitudes -90, 0, 90: the areas add up to `4πr² cos 45°`, and both polar rows are empty. -/
example : ∃ T : List (List ℝ), standardGridCellArea ([-90, 0, 90].map fin) ([0, 120, 240].map fin) (fin 1)
      = .ok (T.map (fun row => row.map fin)) ∧
    (T.map List.sum).sum = 4 * Real.pi * 1 ^ 2 * Real.cos (rad (90 / 2)) ∧
    ((1 : ℝ) ≠ 0 → (T.map List.sum).sum < 4 * Real.pi * 1 ^ 2) :=
  C145_total 1 (a := -90) (d := 90) (b := 0) (c := 120)
    (by intro k x h; match k, h with
      | 0, h => simp at h; subst h; norm_num
      | 1, h => simp at h; subst h; norm_num
      | 2, h => simp at h; subst h; norm_num
      | k + 3, h => simp at h)
    (by intro k x h; match k, h with
      | 0, h => simp at h; subst h; norm_num
      | 1, h => simp at h; subst h; norm_num
      | 2, h => simp at h; subst h; norm_num
      | k + 3, h => simp at h)
    (by simp) (by simp) (Or.inl ⟨rfl, by norm_num⟩) (by norm_num)

/-- Longitudes 0, 90, 100, 110: four cells of 90°. -/
example : ∃ T T' : List (List ℝ), standardGridCellArea ([-45, 45].map fin) ([0, 90, 100, 110].map fin) (fin 1)
      = .ok (T.map (fun row => row.map fin)) ∧
    standardGridCellArea ([-45, 45].map fin) ([0, 90, 180, 270].map fin) (fin 1) = .ok (T'.map (fun row => row.map fin)) ∧
    ∀ (j j' i i' : ℕ) (row row' : List ℝ) (x x' : ℝ), T[j]? = some row → T'[j']? = some row' →
      row[i]? = some x → row'[i']? = some x' →
        ([-45, 45] : List ℝ)[j]? = ([-45, 45] : List ℝ)[j']? → x = x' :=
  C145_spacing (lat := [-45, 45]) (lat' := [-45, 45]) (lon := [0, 90, 100, 110]) (lon' := [0, 90, 180, 270])
    (by simp) (by simp) rfl rfl rfl rfl 1

/-- `C145_pole` for the latitudes -90, 0, 90. -/
example : ∃ T : List (List ℝ), standardGridCellArea ([-90, 0, 90].map fin) ([0, 120, 240].map fin) (fin 1)
      = .ok (T.map (fun row => row.map fin)) ∧
    ∀ row, T[2]? = some row → ∀ x ∈ row, x = 0 := by
  obtain ⟨T, h1, h2⟩ := C145_pole (lat := [-90, 0, 90]) (lon := [0, 120, 240]) (by simp) (by simp) 1
  exact ⟨T, h1, fun row h => (h2 2 row h (Or.inl rfl)).2⟩

end Momlevel.Props
