import Verif.Props.AdjustN2
import Verif.Props.Dz
import Verif.Props.N2Interfaces
import Verif.Props.Stability
import Verif.Props.Geolocate

/-! # Concrete cases of C08–C13, C20, C46, C49 and C90 -/

set_option linter.unusedSectionVars false

namespace Momlevel.Props
open Momlevel Momlevel.Fl Momlevel.Spec Momlevel.Eos

/-! ### Thicknesses: one layer of 100 m -/

theorem wz : "z_l" ∉ wDepth.dimNames := by simp [wDepth, DA.dimNames]

theorem wIn : wDepth.InBounds (fun _ => 0) := by
  intro p hp; simp [wDepth] at hp; rcases hp with rfl | rfl <;> decide

/-- C08: the whole layer is water. -/
example : ∃ r, calcDz wLevels wInterfaces wDepth = .ok r ∧ r.get (fun _ => 0) = fin 100 := by
  obtain ⟨r, h1, -, h3⟩ := C08_cell wGrid wBathy wz
  obtain ⟨v, hv, e, -⟩ := h3 (fun _ => 0) wIn (by decide)
  refine ⟨r, h1, ?_⟩
  rw [hv, e]
  norm_num [Spec.overlap, wIfc, wDepth, val0]

example : ∃ r, calcDz wLevels wInterfaces wDepth = .ok r ∧ (r.sumDim "z_l").get (fun _ => 0) = fin 100 := by
  obtain ⟨r, h1, h2⟩ := C08_column_sum wGrid wBathy wz
  refine ⟨r, h1, ?_⟩
  rw [h2 _ wIn]
  norm_num [wIfc, wDepth, val0]

/-- C09: between 40 and 60 m the value is not the overlap; between 0 and 60 m it is. -/
example : (∃ r, calcDz wLevels wInterfaces wDepth (fin 40) (some (fin 60)) = .ok r ∧
      r.get (fun _ => 0) ≠ fin 20) ∧
    ∃ r, calcDz wLevels wInterfaces wDepth (fin 0) (some (fin 60)) = .ok r ∧ r.get (fun _ => 0) = fin 60 := by
  constructor
  · obtain ⟨r, h1, h2⟩ := C09_overlap_iff wGrid wBathy wz 40 60
    refine ⟨r, h1, fun h => ?_⟩
    have := (h2 (fun _ => 0) wIn (by decide)).1 (by rw [h]; norm_num [Spec.overlap, wIfc, wDepth, val0])
    exact this (by norm_num [wIfc, wDepth, val0])
  · obtain ⟨r, h1, h2⟩ := C09_overlap_iff wGrid wBathy wz 0 60
    refine ⟨r, h1, ?_⟩
    have := (h2 (fun _ => 0) wIn (by decide)).2 (by norm_num [wIfc, wDepth, val0])
    rw [this]
    norm_num [Spec.overlap, wIfc, wDepth, val0]

/-- C10: down to 60 m the fraction is 3/5. -/
example : ∃ f, calcDz wLevels wInterfaces wDepth (fin 0) (some (fin 60)) true = .ok f ∧
    f.get (fun _ => 0) = fin (3 / 5) := by
  obtain ⟨r, f, h1, h2, -, h4⟩ := C10_fraction wGrid wBathy wz 0 (some 60)
  obtain ⟨v, hv, -, h5⟩ := h4 (fun _ => 0) wIn (by decide)
  obtain ⟨r', g1, g2⟩ := C09_overlap_iff wGrid wBathy wz 0 60
  obtain rfl : r' = r := Except.ok.inj (g1.symm.trans h1)
  have := (g2 (fun _ => 0) wIn (by decide)).2 (by norm_num [wIfc, wDepth, val0])
  rw [hv] at this
  have hv' : v = 60 := by
    rw [Fl.fin.inj this]; norm_num [Spec.overlap, wIfc, wDepth, val0]
  obtain ⟨q, hq, e, -⟩ := h5 (by rw [hv']; norm_num)
  refine ⟨f, h2, ?_⟩
  rw [hq]
  congr 1
  norm_num [wIfc, hv'] at e
  linarith

/-- C11: land has no water; a negative depth and a level too many are rejected. -/
def landDepth : DA (Fl ℚ) := ⟨[("y", 1), ("x", 1)], fun _ => nan⟩

theorem landBathy : Bathy landDepth where
  wf := fun _ _ _ => rfl
  nodup := by simp [landDepth, DA.dimNames]
  vals := fun _ _ => Or.inl rfl

example : ∃ r, calcDz wLevels wInterfaces landDepth (fin 0) none = .ok r ∧ r.get (fun _ => 0) = fin 0 := by
  obtain ⟨r, h1, h2⟩ := C11_land_zero wGrid landBathy (by simp [landDepth, DA.dimNames]) 0 none
  exact ⟨r, h1, h2 _ (by intro p hp; simp [landDepth] at hp; rcases hp with rfl | rfl <;> decide) (by decide) rfl⟩

example : calcDz wLevels wInterfaces (⟨[("y", 1)], fun _ => fin (-5)⟩ : DA (Fl ℚ)) (fin 0) none false
    = .error .assertionError :=
  (C11_assertion_iff (fun _ _ h => by simp [wLevels])
    (fun _ _ h => by simp [wInterfaces, h "z_i" (by simp [wInterfaces, DA.dimNames])]) (fun _ _ _ => rfl) rfl rfl
    (by simp [DA.dimNames]) (fin 0) none false).2 (Or.inl ⟨fun _ => 0, by
      intro p hp; simp at hp; rw [hp]; decide, by simp, by simp [Fl.lt]⟩)

example : calcDz (⟨[("z_l", 2)], fun _ => fin 50⟩ : DA (Fl ℚ)) wInterfaces wDepth (fin 0) none false
    = .error .valueError :=
  C11_length_mismatch wGrid wBathy 2 ⟨[("z_l", 2)], fun _ => fin 50⟩ rfl (fun _ => rfl) (fun _ _ => by norm_num)
    (by decide) (fin 0) none false

/-! ### Negative buoyancy frequencies -/

/-- C12: 2 above -1 above land. -/
example : ∃ r, adjustNegativeN2 (⟨[("z_l", 3), ("x", 1)], fun e =>
      if e "z_l" = 0 then fin 2 else if e "z_l" = 1 then fin (-1) else nan⟩ : DA (Fl ℚ)) = .ok r ∧
    r.get (fun d => if d = "z_l" then 2 else 0) = nan ∧ r.get (fun _ => 0) = fin 2 := by
  obtain ⟨r, h1, -, h3⟩ := C12_adjust (n2 := (⟨[("z_l", 3), ("x", 1)], fun e =>
      if e "z_l" = 0 then fin 2 else if e "z_l" = 1 then fin (-1) else nan⟩ : DA (Fl ℚ)))
    (z := "z_l") (n := 3) (rest := [("x", 1)]) rfl (by decide) (fun e _ => by
      dsimp only; split
      · exact FN_fin _
      · split
        · exact FN_fin _
        · exact FN_nan)
  refine ⟨r, h1, (h3 _ ?_).1 (by simp), (h3 _ ?_).2.1 2 (by simp) (by norm_num)⟩
  all_goals
    intro p hp; simp only [List.mem_cons, List.not_mem_nil, or_false] at hp
    rcases hp with rfl | rfl <;> decide

/-- C13: with time first, a negative value below a positive one becomes 1e-8 at the first time. -/
example : ∃ r, adjustNegativeN2 (⟨[("time", 2), ("z_l", 2)],
      fun e => if e "z_l" = 0 then fin 1 else fin (-1)⟩ : DA (Fl ℚ)) "z_l" = .ok r ∧
    r.get (fun d => if d = "z_l" then 1 else 0) = fin (1 / 10 ^ 8) := by
  obtain ⟨r, h1, -, h3⟩ := C13_time_first (n2 := (⟨[("time", 2), ("z_l", 2)],
      fun e => if e "z_l" = 0 then fin 1 else fin (-1)⟩ : DA (Fl ℚ))) (t := "time") (z := "z_l") (nt := 2)
    rfl (by decide) (by decide) (by decide) (fun e _ => by dsimp only; split <;> exact FN_fin _)
  refine ⟨r, h1, ((h3 _ ?_).2.2 (-1) (by simp) (by norm_num)).1 (by simp)⟩
  intro p hp; simp only [List.mem_cons, List.not_mem_nil, or_false] at hp
  rcases hp with rfl | rfl <;> decide

/-! ### Stability angle -/

/-- C20: at a ratio of -1 the angle is zero and lies between -45 and 45. -/
example : -45 < turner (-1) ∧ turner (-1) < 45 := (C20_turner_regimes (by norm_num)).1.2 (by norm_num)

theorem uCoeffs : eosFuncFromStr "linear" "alpha" = .ok (fun T S p : Fl ℝ => Linear.alpha T S p) ∧
    eosFuncFromStr "linear" "beta" = .ok (fun T S p : Fl ℝ => Linear.beta T S p) := by
  have hl : pyLower "linear" = "linear".toList := rfl
  constructor <;> · simp only [eosFuncFromStr, hl, if_true]; rfl

/-- Warmer and fresher below: the ratio of the two parts is -4, and the angle lies between -45 and 45. -/
example : ∃ r A, calcStabilityAngle uTh uSo (DA.scalar (fin 0)) (fun k => fin (k : ℝ)) "linear" = .ok r ∧
    r.get (fun _ => 1) = fin A ∧ -45 < A ∧ A < 45 := by
  have hρ : linRho ((10 : ℝ) + ((1 : ℕ) : ℝ)) (35 - ((1 : ℕ) : ℝ)) = 1025 := by norm_num [linRho]
  have hc := linear_coeffs ((10 : ℝ) + ((1 : ℕ) : ℝ)) (35 - ((1 : ℕ) : ℝ)) 0 (by rw [hρ]; norm_num)
  rw [hρ] at hc
  obtain ⟨r, h1, -, -, h4⟩ := C20_angle uColumn uCoeffs.1 uCoeffs.2 (DA.scalar (fin 0)) (by simp) _ _ hc.1 hc.2
  have dT : Spec.derivAt 3 (fun k => (k : ℝ)) (fun k => 10 + (k : ℝ)) 1 = 1 := by
    norm_num [Spec.derivAt, Spec.stencil, Spec.parabolaDeriv]
  have dS : Spec.derivAt 3 (fun k => (k : ℝ)) (fun k => 35 - (k : ℝ)) 1 = -1 := by
    norm_num [Spec.derivAt, Spec.stencil, Spec.parabolaDeriv]
  simp only [dT, dS] at h4
  refine ⟨r, _, h1, h4 (by norm_num) (by norm_num), ?_⟩
  exact (C20_turner_regimes (by norm_num)).1.2 (by norm_num)

/-- The mirrored column (colder and saltier below) has the same angle. -/
noncomputable def mTh : DA (Fl ℝ) := ⟨[("z_l", 3)], fun e => fin (12 - (e "z_l" : ℝ))⟩
noncomputable def mSo : DA (Fl ℝ) := ⟨[("z_l", 3)], fun e => fin (33 + (e "z_l" : ℝ))⟩

theorem mColumn : TSColumn mTh mSo (fun k => fin (k : ℝ)) "z_l" (fun _ => 1) 3 (fun k => (k : ℝ))
    (fun k => 12 - (k : ℝ)) (fun k => 33 + (k : ℝ)) where
  hn := by norm_num
  inj := fun a _ b _ h => by simpa using h
  hz := rfl
  tz := by simp [mTh, DA.dimNames]
  sz := by simp [mSo, DA.dimNames]
  tn := rfl
  sn := rfl
  hT := fun k _ => by simp [mTh]
  hS := fun k _ => by simp [mSo]
  he := by norm_num

example : ∃ r r', calcStabilityAngle uTh uSo (DA.scalar (fin 0)) (fun k => fin (k : ℝ)) "linear" = .ok r ∧
    calcStabilityAngle mTh mSo (DA.scalar (fin 0)) (fun k => fin (k : ℝ)) "linear" = .ok r' ∧
    r.get (fun _ => 1) = r'.get (fun _ => 1) := by
  have hρ : linRho ((10 : ℝ) + ((1 : ℕ) : ℝ)) (35 - ((1 : ℕ) : ℝ)) = 1025 := by norm_num [linRho]
  have hρ' : linRho ((12 : ℝ) - ((1 : ℕ) : ℝ)) (33 + ((1 : ℕ) : ℝ)) = 1025 := by norm_num [linRho]
  have hc := linear_coeffs ((10 : ℝ) + ((1 : ℕ) : ℝ)) (35 - ((1 : ℕ) : ℝ)) 0 (by rw [hρ]; norm_num)
  have hc' := linear_coeffs ((12 : ℝ) - ((1 : ℕ) : ℝ)) (33 + ((1 : ℕ) : ℝ)) 0 (by rw [hρ']; norm_num)
  rw [hρ] at hc
  rw [hρ'] at hc'
  exact C20_sign_blind uColumn mColumn uCoeffs.1 uCoeffs.2 (DA.scalar (fin 0)) (DA.scalar (fin 0)) (by simp)
    (by simp) _ _ hc.1 hc.2 hc'.1 hc'.2
    (by norm_num [Spec.derivAt, Spec.stencil, Spec.parabolaDeriv])
    (by norm_num [Spec.derivAt, Spec.stencil, Spec.parabolaDeriv])

/-! ### Buoyancy frequency on the interfaces -/

/-- C90: on the edge at 20 m of `exEdge_value` the interpolated temperatures are those of the profile. -/
example : ∃ r, calcN2Interfaces false exEdgeTh exEdgeSo (fun k => fin (exEdgeX k)) "z_i" 5
    (fun k => fin (exEdgeV k)) "linear" (fin (-(49 / 5))) (DA.scalar (fin 101325)) "z_l" = .ok r ∧
    r.get (fun _ => 2) = fin (49 / 5 * (1 / 25) / linRho 16 35) := exEdge_value

/-- On the first edge it is missing. -/
example : ∃ r, calcN2Interfaces false exEdgeTh exEdgeSo (fun k => fin (exEdgeX k)) "z_i" 5
    (fun k => fin (exEdgeV k)) "linear" (fin (-(49 / 5))) (DA.scalar (fin 101325)) "z_l" = .ok r ∧
    r.get (fun _ => 0) = nan := by
  have hl : pyLower "linear" = "linear".toList := (pyLower_linear _).2 ((pyLower_linear _).1 rfl)
  have ha : eosFuncFromStr "linear" "alpha" = .ok (fun T S p : Fl ℚ => Linear.alpha T S p) := by
    simp only [eosFuncFromStr, hl, if_true]; rfl
  have hb : eosFuncFromStr "linear" "beta" = .ok (fun T S p : Fl ℚ => Linear.beta T S p) := by
    simp only [eosFuncFromStr, hl, if_true]; rfl
  exact C90_missing (exEdge 0 (by norm_num)) ha hb (fin (-(49 / 5))) (DA.scalar (fin 101325)) (by simp) 0
    (by simp [Spec.stencil]) (Or.inr (Or.inl rfl)) (Or.inl (by norm_num [exEdgeX, exEdgeV]))

/-- The adjustment of negative values cannot be asked for on interfaces. -/
example (r : DA (Fl ℚ)) : calcN2Interfaces false exEdgeTh exEdgeSo (fun k => fin (exEdgeX k)) "z_i" 5
    (fun k => fin (exEdgeV k)) "linear" (fin (-(49 / 5))) (DA.scalar (fin 101325)) "z_l" true ≠ .ok r :=
  C90_adjust false _ _ _ "z_i" 5 _ "linear" _ _ (by decide) (by simp [DA.dimNames]) r

/-! ### Location of gauges -/

/-- C46: without a name for latitude, and with a mask that leaves no ocean, nothing is returned. -/
example (T : BallTree) (x : List (Located (Nat × Nat)) × List String) :
    geolocatePoints T exModel ⟨["name", "y", "lon"], [("GAUGE", fun _ => fin 0)]⟩ none ("geolat", "geolon")
      (fin 6378) ("y", "lon") ≠ .ok x :=
  C46_loc_names T exModel _ none ("geolat", "geolon") ("y", "lon") (fin 6378) true true (Or.inl (by simp)) x

example (T : BallTree) : geolocatePoints T
    (⟨["geolat", "geolon", "mask"], [((0, 0), fun _ => fin 0)]⟩ : ModelFrame (Nat × Nat)) exLocs none
      ("geolat", "geolon") (fin 6378) ("lat", "lon") true false = .error .valueError :=
  C46_no_ocean T _ exLocs none (fin 6378) false (by simp) (by simp) (by simp [exLocs]) (by simp [exLocs])
    (by simp) (by simp)

/-- C49: the location of the example is about 1113 km from the only ocean point; with a threshold of
100 km it is dropped and reported, without a threshold nothing is reported. -/
example (T : BallTree) : ∃ rows warns,
    geolocatePoints T exModel exLocs (some (fin 100)) ("geolat", "geolon") (fin 6378) ("lat", "lon") true false
      = .ok (rows, warns) ∧ rows = [] ∧ warns = ["GAUGE"] := by
  obtain ⟨rows, warns, h⟩ := exModel_ok T (some (fin 100)) (fin 6378) false
  obtain ⟨all, h1, h2, h3⟩ := C49_reported h
  obtain ⟨r, rfl, hn, -, -, hd⟩ := exModel_row h1
  have hbig : (100 : ℝ) < 6378 * rad 10 := by
    have := Real.two_le_pi
    unfold rad
    nlinarith
  refine ⟨rows, warns, h, ?_, ?_⟩
  · rw [h2]; simp [atMost, hd, hbig]
  · rw [h3]; simp [atLeast, hd, hbig.le, hn]

example (T : BallTree) : ∃ rows, geolocatePoints T exModel exLocs none ("geolat", "geolon") (fin 6378)
    ("lat", "lon") true false = .ok (rows, []) := by
  obtain ⟨rows, warns, h⟩ := exModel_ok T none (fin 6378) false
  exact ⟨rows, by rw [h, C49_none h]⟩

end Momlevel.Props
