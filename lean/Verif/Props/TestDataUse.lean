import Verif.Props.TestData
import Verif.Props.Dz

/-!
# C79, C80: test data for cell thicknesses and for vorticity
-/

set_option linter.unusedSectionVars false

namespace Momlevel.Props
open Momlevel Momlevel.Fl Momlevel.Spec

variable {K : Type} [Field K] [LinearOrder K] [IsStrictOrderedRing K]

/-! ## C79 -/

/-- The contents of `generate_test_data_dz`: levels in the middle of their layers; the depth is missing
at row 2, columns 2 and 3, and a uniform draw between 0 and 100 elsewhere. -/
theorem C79_fields (rng : Rng K) (seed : Nat) :
    HasVar (generateTestDataDz rng seed) "z_i" [("z_i", 6)] (fun e => fin (shallowIfc (e "z_i"))) ∧
    HasVar (generateTestDataDz rng seed) "z_l" [("z_l", 5)]
      (fun e => fin ((shallowIfc (e "z_l") + shallowIfc (e "z_l" + 1)) / 2)) ∧
    HasVar (generateTestDataDz rng seed) "deptho" [("yh", 5), ("xh", 5)] (fun e =>
      if e "yh" = 2 ∧ (e "xh" = 2 ∨ e "xh" = 3) then nan
      else fin (100 * rng.uniform seed (5 * e "yh" + e "xh"))) ∧
    HasVar (generateTestDataDz rng seed) "xh" [("xh", 5)] (fun e => fin ((e "xh" : K) + 1)) ∧
    HasVar (generateTestDataDz rng seed) "yh" [("yh", 5)] (fun e => fin (10 * ((e "yh" : K) + 1))) := by
  refine ⟨⟨_, rfl, rfl, fun e he => ?_⟩, ⟨_, rfl, rfl, fun e he => ?_⟩, ⟨_, rfl, rfl, fun e he => ?_⟩,
    ⟨_, rfl, rfl, fun e he => ?_⟩, ⟨_, rfl, rfl, fun e he => ?_⟩⟩
  · have := he ("z_i", 6) (by simp)
    simp only at this
    simp only [arr1]
    congr 1
    interval_cases e "z_i" <;> norm_num [shallowIfc]
  · have := he ("z_l", 5) (by simp)
    simp only at this
    simp only [arr1]
    congr 1
    interval_cases e "z_l" <;> norm_num [shallowIfc]
  · simp only [Rng.uniformAt, rowMajor, List.foldl_cons, List.foldl_nil]
    by_cases h1 : e "yh" = 2
    · by_cases h2 : e "xh" = 2
      · simp [h1, h2]
      · by_cases h3 : e "xh" = 3
        · simp [h1, h3]
        · simp [h1, h2, h3]
          norm_num
    · simp [h1, Nat.mul_comm]
      norm_num
  · have := he ("xh", 5) (by simp)
    simp only at this
    simp only [arr1, arangeInt]
    congr 1
    have h6 : (((6 : Int) - 1 + 1 - 1) / 1).toNat = 5 := rfl
    rw [h6]
    interval_cases e "xh" <;> norm_num [List.range_succ]
  · have := he ("yh", 5) (by simp)
    simp only at this
    simp only [arr1, arangeInt]
    congr 1
    have h6 : (((60 : Int) - 10 + 10 - 1) / 10).toNat = 5 := rfl
    rw [h6]
    interval_cases e "yh" <;> norm_num [List.range_succ]

/-- `calc_dz` accepts the shallow test data; the thicknesses of a column add up to its depth, and to
zero where the depth is missing. -/
theorem C79_thickness (rng : Rng K) (seed : Nat)
    (hu : ∀ i, 0 ≤ rng.uniform seed i ∧ rng.uniform seed i < 1) :
    ∃ zl zi dep r, (generateTestDataDz rng seed).vars.lookup "z_l" = some zl ∧
      (generateTestDataDz rng seed).vars.lookup "z_i" = some zi ∧
      (generateTestDataDz rng seed).vars.lookup "deptho" = some dep ∧
      calcDz zl zi dep = .ok r ∧ r.dims = [("yh", 5), ("xh", 5), ("z_l", 5)] ∧
      (∀ e, e "yh" < 5 → e "xh" < 5 → (r.sumDim "z_l").get e =
        if e "yh" = 2 ∧ (e "xh" = 2 ∨ e "xh" = 3) then fin 0
        else fin (100 * rng.uniform seed (5 * e "yh" + e "xh"))) ∧
      (∀ e, e "yh" < 5 → e "xh" < 5 → e "z_l" < 5 → ∃ v, r.get e = fin v ∧
        0 ≤ v ∧ v ≤ shallowIfc (e "z_l" + 1) - shallowIfc (e "z_l")) := by
  obtain ⟨⟨zi, l1, d1, g1⟩, ⟨zl, l2, d2, g2⟩, ⟨dep, l3, d3, g3⟩, -⟩ := C79_fields rng seed
  simp only at g3
  have e1 : zi = arr1 "z_i" [0.0, 5.0, 10.0, 20.0, 50.0, 100.0] := Option.some.inj (l1.symm.trans rfl)
  have e2 : zl = arr1 "z_l" [(5.0 + 0.0) / 2, (10.0 + 5.0) / 2, (20.0 + 10.0) / 2, (50.0 + 20.0) / 2,
    (100.0 + 50.0) / 2] := Option.some.inj (l2.symm.trans rfl)
  have g : DzGrid zl zi "z_l" "z_i" 5
      (fun k => ([(5.0 + 0.0) / 2, (10.0 + 5.0) / 2, (20.0 + 10.0) / 2, (50.0 + 20.0) / 2,
        (100.0 + 50.0) / 2] : List K).getD k 0)
      (fun k => ([0.0, 5.0, 10.0, 20.0, 50.0, 100.0] : List K).getD k 0) := by
    subst e1 e2
    refine ⟨rfl, fun e => rfl, ?_, rfl, fun e => rfl, by norm_num, ?_⟩
    · intro k hk; interval_cases k <;> norm_num
    · intro k hk; interval_cases k <;> norm_num
  have hb : Bathy dep := by
    refine ⟨?_, by simp [DA.dimNames, d3], fun e he => ?_⟩
    · have e3 : dep = ⟨[("yh", 5), ("xh", 5)], fun e =>
          if e "yh" = 2 ∧ e "xh" = 2 then .nan
          else if e "yh" = 2 ∧ e "xh" = 3 then .nan
          else .fin (rng.uniformAt seed 0.0 100.0 (rowMajor [("yh", 5), ("xh", 5)] e))⟩ :=
        Option.some.inj (l3.symm.trans rfl)
      subst e3
      intro e e' h
      have h1 := h "yh" (by simp [DA.dimNames])
      have h2 := h "xh" (by simp [DA.dimNames])
      simp only [rowMajor, List.foldl_cons, List.foldl_nil, h1, h2]
    · rw [g3 e (by intro p hp; exact he p (by rw [d3]; exact hp))]
      by_cases hl : e "yh" = 2 ∧ (e "xh" = 2 ∨ e "xh" = 3)
      · rw [if_pos hl]; exact Or.inl rfl
      · rw [if_neg hl]
        exact Or.inr ⟨_, mul_nonneg (by norm_num) (hu _).1, rfl⟩
  have hz : "z_l" ∉ dep.dimNames := by simp [DA.dimNames, d3]
  obtain ⟨r, hr, hrd, hrc⟩ := C08_cell g hb hz
  obtain ⟨r', hr', hrs⟩ := C08_column_sum g hb hz
  obtain rfl : r = r' := Except.ok.inj (hr.symm.trans hr')
  have inb : ∀ e : Env, e "yh" < 5 → e "xh" < 5 → dep.InBounds e := by
    intro e h1 h2 p hp
    rw [d3] at hp
    simp only [List.mem_cons, List.not_mem_nil, or_false] at hp
    rcases hp with rfl | rfl
    · exact h1
    · exact h2
  have inb' : ∀ e : Env, e "yh" < 5 → e "xh" < 5 → ∀ p ∈ [("yh", 5), ("xh", 5)], e p.1 < p.2 := by
    intro e h1 h2 p hp
    simp only [List.mem_cons, List.not_mem_nil, or_false] at hp
    rcases hp with rfl | rfl
    · exact h1
    · exact h2
  refine ⟨zl, zi, dep, r, l2, l1, l3, hr, by rw [hrd, d3]; rfl, fun e h1 h2 => ?_, fun e h1 h2 h3 => ?_⟩
  · rw [hrs e (inb e h1 h2), g3 e (inb' e h1 h2)]
    by_cases hl : e "yh" = 2 ∧ (e "xh" = 2 ∨ e "xh" = 3)
    · rw [if_pos hl, if_pos hl]
      norm_num [val0]
    · rw [if_neg hl, if_neg hl]
      have h := hu (5 * e "yh" + e "xh")
      have h5 : (100 : K) * rng.uniform seed (5 * e "yh" + e "xh") ≤ 100 := by linarith [h.2]
      have h6 : (0 : K) ≤ 100 * rng.uniform seed (5 * e "yh" + e "xh") := by linarith [h.1]
      norm_num [val0]
      rw [min_eq_right h5, max_eq_right h6]
  · obtain ⟨v, hv, -, hv0, hv1⟩ := hrc e (inb e h1 h2) h3
    refine ⟨v, hv, hv0, hv1.trans (le_of_eq ?_)⟩
    interval_cases e "z_l" <;> norm_num [shallowIfc]

/-- A generator that always draws a half: depth 50 everywhere but at the two missing cells. -/
example : ∃ zl zi dep r, (generateTestDataDz (K := ℚ) ⟨fun _ _ => 0, fun _ _ => 1 / 2⟩).vars.lookup "z_l"
      = some zl ∧ calcDz zl zi dep = .ok r ∧
    (r.sumDim "z_l").get (fun _ => 2) = fin 0 ∧ (r.sumDim "z_l").get (fun _ => 1) = fin 50 := by
  obtain ⟨zl, zi, dep, r, h1, h2, h3, h4, -, h5, -⟩ :=
    C79_thickness (K := ℚ) ⟨fun _ _ => 0, fun _ _ => 1 / 2⟩ 123 (fun _ => by norm_num)
  refine ⟨zl, zi, dep, r, h1, h4, ?_, ?_⟩
  · rw [h5 _ (by norm_num) (by norm_num)]; norm_num
  · rw [h5 _ (by norm_num) (by norm_num)]; norm_num

/-! ## C80 -/

/-- The contents of `generate_test_data_uv` that `calc_rel_vort` reads. -/
theorem uv_ok (rng : Rng K) (c : Calendar) {y n : Nat} (hy : n = 0 ∨ 1 ≤ y) (seed : Nat) :
    ∃ x nt, generateTestDataUv rng y n c seed = .ok x ∧ nt = (if n = 0 then 5 else 12 * n) ∧
      x.obj.vars.lookup "uo" = some (rng.normalArray seed 0.0061 0.08
        [("time", nt), ("z_l", 5), ("yh", 5), ("xq", 5)]) ∧
      x.obj.vars.lookup "vo" = some (rng.normalArray seed 0.00077 0.04
        [("time", nt), ("z_l", 5), ("yq", 5), ("xh", 5)]) ∧
      x.obj.vars.lookup "dxCu" = some ⟨[("yh", 5), ("xq", 5)], fun _ => .fin 1⟩ ∧
      x.obj.vars.lookup "dyCv" = some ⟨[("yq", 5), ("xh", 5)], fun _ => .fin 1⟩ ∧
      x.obj.vars.lookup "Coriolis"
        = some (rng.normalArray seed 1.21e-5 0.00011 [("yq", 5), ("xq", 5)]) ∧
      x.obj.vars.lookup "areacello_bu"
        = some (scaledArea (rng.normalArray seed 100.0 10.0 [("yq", 5), ("xq", 5)])) := by
  obtain ⟨x, nt, ht, hnt, -, ha0, ha1⟩ := testTimes_ok (K := K) c hy
  obtain ⟨g, r, hg, hr, -⟩ := base_ok rng x.obj
  refine ⟨_, nt, by simp only [generateTestDataUv, ht, hg, hr, ok_bind]; rfl, hnt, ?_⟩
  simp [lookup_setVar]

/-- The velocities, the Coriolis parameter and the corner areas of the vorticity test data all read the
same stream of draws. -/
theorem C80_fields (rng : Rng K) (c : Calendar) {y n : Nat} (hy : n = 0 ∨ 1 ≤ y) (seed : Nat) :
    ∃ x nt, generateTestDataUv rng y n c seed = .ok x ∧ nt = (if n = 0 then 5 else 12 * n) ∧
      HasVar x.obj "uo" [("time", nt), ("z_l", 5), ("yh", 5), ("xq", 5)] (fun e => fin
        (61 / 10000 + 2 / 25 * rng.normal seed (125 * e "time" + 25 * e "z_l" + 5 * e "yh" + e "xq"))) ∧
      HasVar x.obj "vo" [("time", nt), ("z_l", 5), ("yq", 5), ("xh", 5)] (fun e => fin
        (77 / 100000 + 1 / 25 * rng.normal seed (125 * e "time" + 25 * e "z_l" + 5 * e "yq" + e "xh"))) ∧
      HasVar x.obj "dxCu" [("yh", 5), ("xq", 5)] (fun _ => fin 1) ∧
      HasVar x.obj "dyCv" [("yq", 5), ("xh", 5)] (fun _ => fin 1) ∧
      HasVar x.obj "Coriolis" [("yq", 5), ("xq", 5)] (fun e => fin
        (121 / 10000000 + 11 / 100000 * rng.normal seed (5 * e "yq" + e "xq"))) ∧
      (rawTotal (rng.normal seed) ≠ 0 → HasVar x.obj "areacello_bu" [("yq", 5), ("xq", 5)]
        (fun e => fin (cellArea (rng.normal seed) (e "yq") (e "xq")))) := by
  obtain ⟨x, nt, hx, hnt, h1, h2, h3, h4, h5, h6⟩ := uv_ok rng c hy seed
  refine ⟨x, nt, hx, hnt, ⟨_, h1, rfl, fun e _ => ?_⟩, ⟨_, h2, rfl, fun e _ => ?_⟩,
    ⟨_, h3, rfl, fun e _ => rfl⟩, ⟨_, h4, rfl, fun e _ => rfl⟩, ⟨_, h5, rfl, fun e _ => ?_⟩,
    fun h => ⟨_, h6, rfl, fun e _ => ?_⟩⟩
  · simp only [Rng.normalArray, rowMajor, List.foldl_cons, List.foldl_nil]
    rw [show ((((0 * nt + e "time") * 5 + e "z_l") * 5 + e "yh") * 5 + e "xq")
      = 125 * e "time" + 25 * e "z_l" + 5 * e "yh" + e "xq" by ring]
    norm_num
  · simp only [Rng.normalArray, rowMajor, List.foldl_cons, List.foldl_nil]
    rw [show ((((0 * nt + e "time") * 5 + e "z_l") * 5 + e "yq") * 5 + e "xh")
      = 125 * e "time" + 25 * e "z_l" + 5 * e "yq" + e "xh" by ring]
    norm_num
  · simp only [Rng.normalArray, rowMajor, List.foldl_cons, List.foldl_nil]
    rw [show (0 * 5 + e "yq") * 5 + e "xq" = 5 * e "yq" + e "xq" by ring]
    norm_num
  · rw [sci100, sci10]
    exact scaledArea_get rng seed (by decide) h e

/-- `calc_rel_vort` with default arguments accepts the vorticity test data; at interior corners the
result is the circulation of the drawn velocities over the drawn area. -/
theorem C80_vorticity (rng : Rng K) (c : Calendar) {y n : Nat} (hy : n = 0 ∨ 1 ≤ y) (seed : Nat)
    (ht : rawTotal (rng.normal seed) ≠ 0) (ha : ∀ k, 100 + 10 * rng.normal seed k ≠ 0) :
    ∃ x r, generateTestDataUv rng y n c seed = .ok x ∧ calcRelVort x.obj = .ok r ∧
      ∀ e : Env, e "yq" < 4 → e "xq" < 4 →
        let z := rng.normal seed
        let p := 125 * e "time" + 25 * e "z_l" + 5 * e "yq" + e "xq"
        r.get e = fin ((2 / 25 * (z p - z (p + 5)) + 1 / 25 * (z (p + 1) - z p))
          / cellArea z (e "yq") (e "xq")) := by
  obtain ⟨x, nt, hx, hnt, h1, h2, h3, h4, -, h6⟩ := uv_ok rng c hy seed
  have hr0 : ∀ e : Env, ∃ r, calcRelVort x.obj = .ok r ∧ (e "yq" < 4 → e "xq" < 4 →
        let z := rng.normal seed
        let p := 125 * e "time" + 25 * e "z_l" + 5 * e "yq" + e "xq"
        r.get e = fin ((2 / 25 * (z p - z (p + 5)) + 1 / 25 * (z (p + 1) - z p))
          / cellArea z (e "yq") (e "xq"))) := by
    intro e
    have g : CGrid (rng.normalArray seed 0.0061 0.08 [("time", nt), ("z_l", 5), ("yh", 5), ("xq", 5)])
        ⟨[("yh", 5), ("xq", 5)], fun _ => .fin 1⟩
        (rng.normalArray seed 0.00077 0.04 [("time", nt), ("z_l", 5), ("yq", 5), ("xh", 5)])
        ⟨[("yq", 5), ("xh", 5)], fun _ => .fin 1⟩
        (scaledArea (rng.normalArray seed 100.0 10.0 [("yq", 5), ("xq", 5)]))
        "xh" "yh" "xq" "yq" false 5 5 e
        (fun j i => 0.0061 + 0.08 * rng.normal seed (125 * e "time" + 25 * e "z_l" + 5 * j + i))
        (fun _ _ => 1)
        (fun j i => 0.00077 + 0.04 * rng.normal seed (125 * e "time" + 25 * e "z_l" + 5 * j + i))
        (fun _ _ => 1) (fun j i => cellArea (rng.normal seed) j i) := by
      constructor
      case hu =>
        intro e' hs
        simp only [Rng.normalArray, rowMajor, List.foldl_cons, List.foldl_nil]
        rw [hs "time" (by decide), hs "z_l" (by decide)]
        congr 4
        ring
      case hv =>
        intro e' hs
        simp only [Rng.normalArray, rowMajor, List.foldl_cons, List.foldl_nil]
        rw [hs "time" (by decide), hs "z_l" (by decide)]
        congr 4
        ring
      case hdx => intro e' _; rfl
      case hdy => intro e' _; rfl
      case harea =>
        intro e' _
        rw [sci100, sci10]
        exact scaledArea_get rng seed (by decide) ht e'
      case hA =>
        intro j i
        exact mul_ne_zero (by norm_num) (div_ne_zero (ha _) ht)
      case distinct => decide
      case su => rfl
      case sv => rfl
      case yu => simp [Rng.normalArray, DA.dimNames]
      case xv => simp [Rng.normalArray, DA.dimNames]
      case xqd =>
        show "xq" ∈ (["yq", "xq"] : List String)
        simp
      case yqd =>
        show "yq" ∈ (["yq", "xq"] : List String)
        simp
    obtain ⟨r, hr, hv⟩ := C18_circulation x.obj "uo" "vo" "dxCu" "dyCv" "areacello_bu" "xh" "yh" "xq" "yq"
      false h1 h3 h2 h4 h6 g
    refine ⟨r, hr, fun hj hi => ?_⟩
    have := hv (e "yq") (e "xq")
    simp only [Function.update_eq_self] at this
    intro z p
    rw [this]
    congr 2
    simp only [Spec.shift, Bool.false_eq_true, if_false, sub_zero, Spec.pad, mul_one]
    rw [if_pos (by omega), if_pos (by omega), if_pos (by omega), if_pos (by omega)]
    simp only [Int.toNat_natCast, show ((e "yq" : ℤ) + 1).toNat = e "yq" + 1 by omega,
      show ((e "xq" : ℤ) + 1).toNat = e "xq" + 1 by omega]
    rw [show 125 * e "time" + 25 * e "z_l" + 5 * (e "yq" + 1) + e "xq" = p + 5 by ring,
      show 125 * e "time" + 25 * e "z_l" + 5 * e "yq" + (e "xq" + 1) = p + 1 by ring]
    show (0.0061 + 0.08 * z p) - (0.0061 + 0.08 * z (p + 5)) + (0.00077 + 0.04 * z (p + 1))
      - (0.00077 + 0.04 * z p) = _
    norm_num
    ring
  obtain ⟨r, hr, -⟩ := hr0 (fun _ => 0)
  refine ⟨x, r, hx, hr, fun e h1 h2 => ?_⟩
  obtain ⟨r', hr', h⟩ := hr0 e
  obtain rfl : r = r' := Except.ok.inj (hr.symm.trans hr')
  exact h h1 h2

/-- Draws growing with their number: the vorticity of the first corner. -/
example : ∃ x r, generateTestDataUv (K := ℚ) ⟨fun _ k => k, fun _ _ => 0⟩ 1981 0 .noleap 7 = .ok x ∧
    calcRelVort x.obj = .ok r ∧ ∃ q : ℚ, r.get (fun _ => 0) = fin q ∧ q < 0 := by
  have hp : (0 : ℚ) < rawTotal (fun k : Nat => (k : ℚ)) :=
    Finset.sum_pos (fun j _ => Finset.sum_pos (fun i _ => by unfold rawArea; positivity)
      ⟨0, by simp⟩) ⟨0, by simp⟩
  obtain ⟨x, r, h1, h2, h3⟩ := C80_vorticity (K := ℚ) ⟨fun _ k => k, fun _ _ => 0⟩ .noleap
    (y := 1981) (n := 0) (Or.inl rfl) 7 hp.ne' (fun k => by positivity)
  refine ⟨x, r, h1, h2, _, h3 _ (by norm_num) (by norm_num), ?_⟩
  refine div_neg_of_neg_of_pos (by norm_num) ?_
  exact mul_pos (by norm_num) (div_pos (by unfold rawArea; norm_num) hp)

end Momlevel.Props
