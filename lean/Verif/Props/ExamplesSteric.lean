import Mathlib.Tactic.IntervalCases
import Verif.Props.StericSuccess
import Verif.Props.Rounding

set_option linter.unusedSectionVars false

/-!
# Concrete cases of C24–C33

All on the small ocean `exD` of `Props/StericSuccess.lean` (two times, two levels, half of it land; warming by
5 degrees and one unit of salinity).
-/

namespace Momlevel.Props
open Momlevel Momlevel.Fl

/-- C24_global: the hypotheses hold, so the global height starts at zero. -/
example : ∃ r ref a height rhoga, steric exD .none .none none (fin 1035) (DA.scalar (fin 101325)) "Wright"
      "steric" "global" true = .ok (r, ref) ∧ r.getVar "steric" = .ok a ∧
    r.getVar "reference_height" = .ok height ∧ ref.getVar "rhoga" = .ok rhoga ∧
    ∀ e, e "time" = 0 → ∀ g H, rhoga.get e = fin g → g ≠ 0 → height.get e = fin H → a.get e = fin 0 := by
  obtain ⟨⟨r, ref⟩, h⟩ := exRun "steric" "global" "Wright" (by simp) (Or.inl wright_case)
  obtain ⟨a, height, rhoga, h1, h2, h3, h4⟩ := C24_global h exC
  exact ⟨r, ref, a, height, rhoga, h, h1, h2, h3, h4⟩

/-- C25_delta_rho, C25_formula and C25_missing with the linear equation of state: the density change of the steric
run is `-0.2` (5 degrees and one unit of salinity) in the ocean; the height is that of a column of 2000 m; land is
missing. -/
example : ∃ r ref a dr, steric exD .none .none none (fin 1035) (DA.scalar (fin 101325)) "linear"
      "steric" "local" true = .ok (r, ref) ∧ r.getVar "steric" = .ok a ∧ r.getVar "delta_rho" = .ok dr ∧
    (∀ e, e "xh" = 0 → e "time" = 1 → dr.get e = fin (-(1 / 5))) ∧
    (∀ e, e "xh" ≠ 0 → dr.get e = nan) ∧
    (∀ e, exDepth.InBounds e → e "xh" = 0 → e "time" = 1 → a.get e = fin (400 / 1035)) ∧
    (∀ e, exDepth.InBounds e → e "xh" ≠ 0 → a.get e = nan) := by
  obtain ⟨⟨r, ref⟩, h⟩ := exRun "steric" "local" "linear" (by simp) (Or.inr linear_case)
  obtain ⟨dd, tc', zc', zb', pres', th', so', rho', p1, p2, p3, p4, p5, p6, p7, p8, p9⟩ := steric_ok_iff.1 h
  cases p1
  cases p2
  obtain ⟨f', hf, ⟨D⟩⟩ := refData_of exC p3 p4 p5 p6
  obtain ⟨a, dr, vol, k1, k2, k3, -, k4⟩ := C25_formula h (by decide) exC exGrid rfl
  obtain ⟨a', dr', vol', m1, m2, m3, m4⟩ := C25_missing h (by decide) exC exGrid rfl
  cases k1.symm.trans m1
  cases k2.symm.trans m2
  cases k3.symm.trans m3
  obtain ⟨dr', vol', rrho, rho, f, th, so, z', n1, n2, n3, n4, n6, -, n5, n7, n8, -⟩ :=
    C25_delta_rho h (by decide) exC
  cases k2.symm.trans n1
  cases k3.symm.trans n2
  obtain ⟨th0, so0, rho0, z, f0, q1, q2, q3, q4, q5, q6⟩ := C31_density p5 exC
  cases n3.symm.trans q3
  cases n4.symm.trans (linear_eos linear_case)
  cases q5.symm.trans (linear_eos linear_case)
  cases q1.symm.trans D.rhth
  cases q2.symm.trans D.rhso
  have hT : D.th = exT := Except.ok.inj (D.hth.symm.trans rfl)
  have hS : D.so = exS := Except.ok.inj (D.hso.symm.trans rfl)
  have hV : D.vol = exV := Except.ok.inj (D.hvol.symm.trans rfl)
  have hvol : vol = D.rvol := Except.ok.inj (k3.symm.trans D.rhvol)
  have hts : th = exT ∧ so = exS := by
    rcases n6 with ⟨hv, -⟩ | ⟨hv, -⟩ | ⟨-, u1, u2⟩
    · exact absurd hv (by decide)
    · exact absurd hv (by decide)
    · exact ⟨(Except.ok.inj u1).symm, (Except.ok.inj u2).symm⟩
  obtain ⟨rfl, rfl⟩ := hts
  have hland : ∀ e, vol.get e = if e "xh" = 0 then fin 1 else nan := by
    intro e
    rw [hvol, D.vol_get, hV]
    show (if Function.update e "time" 0 "xh" = 0 then fin 1 else nan : Fl ℝ) = _
    rw [Function.update_of_ne (by decide)]
  have hnan : ∀ e, e "xh" ≠ 0 → dr.get e = nan := fun e he => n7 e (by rw [hland, if_neg he])
  have hval : ∀ e, e "xh" = 0 → dr.get e = fin (-(1 / 5) * (e "time" : ℝ)) := by
    intro e he
    rw [n8 e (by rw [hland, if_pos he]; simp), q6, n5, D.th_get, D.so_get, hT, hS]
    simp [exT, exS, DA.zip3, linear_float, linRho]
    ring
  have hFN : ∀ e, FN (dr.get e) := by
    intro e
    by_cases he : e "xh" = 0
    · rw [hval e he]; simp [FN]
    · rw [hnan e he]; simp [FN]
  refine ⟨r, ref, a, dr, h, k1, k2, fun e he ht => ?_, hnan, fun e hb he ht => ?_, fun e hb he => ?_⟩
  · rw [hval e he, ht]; norm_num
  · rw [k4 e hb (fun k _ => hFN _)]
    have hx : ∀ k, Function.update e "z_l" k "xh" = 0 := fun k => by
      rw [Function.update_of_ne (by decide)]; exact he
    have ht' : ∀ k, Function.update e "z_l" k "time" = 1 := fun k => by
      rw [Function.update_of_ne (by decide)]; exact ht
    rw [if_neg (by rw [hland, if_pos (hx 0)]; simp)]
    simp only [hval _ (hx _), ht', Finset.sum_range_succ, Finset.sum_range_zero, val0_fin]
    have hd : val0 (exDepth.get e) = 2000 := by simp [exDepth, he, val0_fin]
    rw [hd]
    unfold thickness Spec.overlap
    norm_num
  · refine (m4 e hb (fun k _ => hFN _)).2 ?_
    rw [hland, if_neg]
    rw [Function.update_of_ne (by decide)]; exact he

/-- C28_wright_salinification and C28_wright_warming: at the second time the saltier ocean stands lower, the warmer
one higher. -/
example : (∃ r ref a, halosteric exD .none .none none (fin 1035) (DA.scalar (fin 101325)) "Wright" "local" true
      = .ok (r, ref) ∧ r.getVar "halosteric" = .ok a ∧
      ∀ e, exDepth.InBounds e → e "xh" = 0 → e "time" = 1 → ∃ v, a.get e = fin v ∧ v < 0) ∧
    (∃ r ref a, thermosteric exD .none .none none (fin 1035) (DA.scalar (fin 101325)) "Wright" "local" true
      = .ok (r, ref) ∧ r.getVar "thermosteric" = .ok a ∧
      ∀ e, exDepth.InBounds e → e "xh" = 0 → e "time" = 1 → ∃ v, a.get e = fin v ∧ 0 < v) := by
  have hv : ∀ (e : Env) k, e "xh" = 0 → exV.get (cell0 "time" "z_l" e k) ≠ nan := by
    intro e k he
    simp [exV, cell0, Function.update_of_ne, he]
  constructor
  · obtain ⟨⟨r, ref⟩, h⟩ := exRun "halosteric" "local" "Wright" (by simp) (Or.inl wright_case)
    obtain ⟨a, h1, h2⟩ := C28_wright_salinification h wright_case (by decide) exC exGrid rfl (by norm_num) rfl
      rfl rfl rfl
    refine ⟨r, ref, a, h, h1, fun e hb he ht => ?_⟩
    obtain ⟨v, v1, -, v3⟩ := h2 e hb (hv e 0 he) (fun _ => 35) (fun _ => 10) (fun _ => 34) (fun k hk _ => by
      refine ⟨?_, ?_, ?_, by norm_num, ?_, ?_⟩
      · simp [exS, cell, Function.update_of_ne, ht]; norm_num
      · simp [exT, cell0]
      · simp [exS, cell0]
      all_goals
        interval_cases k <;> norm_num [Spec.Wright.Ocean])
    refine ⟨v, v1, v3 ⟨0, by norm_num, hv e 0 he, ?_, by norm_num⟩⟩
    have hd : val0 (exDepth.get e) = 2000 := by simp [exDepth, he, val0_fin]
    rw [hd]
    unfold thickness Spec.overlap
    norm_num
  · obtain ⟨⟨r, ref⟩, h⟩ := exRun "thermosteric" "local" "Wright" (by simp) (Or.inl wright_case)
    obtain ⟨a, h1, h2⟩ := C28_wright_warming h wright_case (by decide) exC exGrid rfl (by norm_num) rfl
      rfl rfl rfl
    refine ⟨r, ref, a, h, h1, fun e hb he ht => ?_⟩
    obtain ⟨v, v1, -, v3⟩ := h2 e hb (hv e 0 he) (fun _ => 15) (fun _ => 10) (fun _ => 34) (fun k hk _ => by
      refine ⟨?_, ?_, ?_, by norm_num, by norm_num, ?_, ?_⟩
      · simp [exT, cell, Function.update_of_ne, ht]; norm_num
      · simp [exT, cell0]
      · simp [exS, cell0]
      all_goals
        interval_cases k <;> norm_num [Spec.Wright.Ocean])
    refine ⟨v, v1, v3 ⟨0, by norm_num, hv e 0 he, ?_, by norm_num⟩⟩
    have hd : val0 (exDepth.get e) = 2000 := by simp [exDepth, he, val0_fin]
    rw [hd]
    unfold thickness Spec.overlap
    norm_num

/-- C28_sign: with the linear equation of state the steric density change is nowhere positive. -/
example : ∃ r ref a dr vol, steric exD .none .none none (fin 1035) (DA.scalar (fin 101325)) "linear"
      "steric" "local" true = .ok (r, ref) ∧ r.getVar "steric" = .ok a ∧ r.getVar "delta_rho" = .ok dr ∧
    ref.getVar "volcello" = .ok vol ∧
    ∀ e, exDepth.InBounds e → vol.get (cell "z_l" e 0) ≠ nan →
      (∀ k < 2, dr.get (cell "z_l" e k) = nan ∨ ∃ x ≤ 0, dr.get (cell "z_l" e k) = fin x) →
      ∃ v, 0 ≤ v ∧ a.get e = fin v := by
  obtain ⟨⟨r, ref⟩, h⟩ := exRun "steric" "local" "linear" (by simp) (Or.inr linear_case)
  obtain ⟨a, dr, vol, h1, h2, h3, h4⟩ := C28_sign h (by decide) exC exGrid rfl (by norm_num)
  exact ⟨r, ref, a, dr, vol, h, h1, h2, h3, fun e hb hv hx => (h4 e hb hv).1 hx⟩

/-- C29_own_reference. -/
example : ∃ r ref rhoga volo masso, steric exD .none .none none (fin 1035) (DA.scalar (fin 101325)) "Wright"
      "steric" "global" true = .ok (r, ref) ∧ ref.getVar "rhoga" = .ok rhoga ∧ ref.getVar "volo" = .ok volo ∧
      ref.getVar "masso" = .ok masso ∧ ∀ e, ∀ V g M : ℝ, volo.get e = fin V → rhoga.get e = fin g →
        masso.get e = fin M → V ≠ 0 → g * V = M := by
  obtain ⟨⟨r, ref⟩, h⟩ := exRun "steric" "global" "Wright" (by simp) (Or.inl wright_case)
  obtain ⟨a, b, c, h1, h2, h3, h4⟩ := C29_own_reference h
  exact ⟨r, ref, a, b, c, h, h1, h2, h3, h4⟩

/-- C30_invalid: without salinity.  C30_invalid_reference: the time-dependent dataset itself as reference. -/
example : steric (⟨exD.vars.filter (fun p => p.1 != "so"), exD.coords⟩ : DS (Fl ℝ)) .none .none none (fin 1035)
      (DA.scalar (fin 101325)) "Wright" "steric" "local" true = .error .valueError ∧
    ∃ err, steric exD (.dataset exD) .none none (fin 1035) (DA.scalar (fin 101325)) "Wright" "steric" "local" true
      = .error err := by
  refine ⟨C30_invalid _ _ _ _ _ exC (fun h => ?_), C30_invalid_reference _ _ _ _ (fun h => ?_)⟩
  · have := h.1 "so" (by simp)
    simp [rankOf, exD, List.lookup] at this
  · have := h.1 "so" (by simp)
    simp [rankOf, exD, List.lookup, exS, exDims] at this

/-- C30_variant and C30_eos: an unknown variant, an unknown equation of state. -/
example : steric exD .none .none none (fin 1035) (DA.scalar (fin 101325)) "Wright" "barystatic" "local" true
      = .error .valueError ∧
    ∃ err, steric exD .none .none none (fin 1035) (DA.scalar (fin 101325)) "teos10" "steric" "local" true
      = .error err := by
  obtain ⟨x, h⟩ := exRun "steric" "local" "Wright" (by simp) (Or.inl wright_case)
  refine ⟨(C30_variant (by decide)).2 x h, C30_eos ?_ ?_⟩
  · rw [← pyLower_wright]; decide
  · rw [← pyLower_linear]; decide

/-- C31_slice: the reference state at the first time; C31_index: no third time. -/
example : (∃ ref, setupReferenceState exD (DA.scalar (fin 101325)) "Wright" .none 0 = .ok ref ∧
      ∃ b, ref.getVar "so" = .ok b ∧ ∀ e, e "z_l" < 2 → e "yh" < 2 → e "xh" < 2 → b.get e = fin 34) ∧
    ∃ err, setupReferenceState exD (DA.scalar (fin 101325)) "Wright" .none 2 = .error err := by
  constructor
  · obtain ⟨⟨r, ref⟩, h⟩ := exRun "steric" "local" "Wright" (by simp) (Or.inl wright_case)
    obtain ⟨dd, tc', zc', zb', pres', th', so', rho', p1, p2, p3, p4, p5, p6, p7, p8, p9⟩ := steric_ok_iff.1 h
    cases p1
    refine ⟨ref, p5, ?_⟩
    obtain ⟨a, b, j, h1, h2, -, h3, h4, h5⟩ := (C31_slice p5 exC).1 "so" (by simp)
    cases h1.symm.trans (rfl : exD.getVar "so" = .ok exS)
    refine ⟨b, h2, fun e e1 e2 e3 => ?_⟩
    rw [h5 e (by simp [exS, exDims, e1, e2, e3])]
    have : j = 0 := by simpa using h4
    simp [exS, this]
  · exact C31_index exC (rfl : exD.getVar "thetao" = .ok exT) (by simp [exT, exDims, DA.size])

/-- C31_singleton: a section one row wide. -/
example : ∃ err, setupReferenceState
    (⟨[("thetao", ⟨[("time", 2), ("z_l", 2), ("yh", 1), ("xh", 2)], exT.get⟩),
       ("so", ⟨[("time", 2), ("z_l", 2), ("yh", 1), ("xh", 2)], exS.get⟩),
       ("volcello", ⟨[("time", 2), ("z_l", 2), ("yh", 1), ("xh", 2)], exV.get⟩),
       ("areacello", ⟨[("yh", 1), ("xh", 2)], exA.get⟩), ("z_l", exZ), ("z_i", exZi)], ["z_l", "z_i"]⟩ : DS (Fl ℝ))
    (DA.scalar (fin 101325)) "Wright" .none 0 = .error err :=
  C31_singleton exC (vol := ⟨[("time", 2), ("z_l", 2), ("yh", 1), ("xh", 2)], exV.get⟩) rfl rfl (x := "yh")
    (by simp) (by decide)

/-- C33_scaling with reference densities 1035 and 1000, and C33_zero. -/
example : (∃ r r' ref ref' a b, steric exD .none .none none (fin 1035) (DA.scalar (fin 101325)) "Wright" "steric"
      "local" true = .ok (r, ref) ∧ steric exD .none .none none (fin 1000) (DA.scalar (fin 101325)) "Wright" "steric"
      "local" true = .ok (r', ref') ∧ r.getVar "steric" = .ok a ∧ r'.getVar "steric" = .ok b ∧
      ∀ e v, a.get e = fin v → b.get e = fin (1035 * v / 1000)) ∧
    steric exD .none .none none (fin 0) (DA.scalar (fin 101325)) "Wright" "steric" "local" true
      = .error .zeroDivisionError := by
  obtain ⟨⟨r, ref⟩, h⟩ := exRun "steric" "local" "Wright" (by simp) (Or.inl wright_case)
  obtain ⟨⟨r', ref'⟩, h'⟩ : ∃ x, steric exD .none .none none (fin 1000) (DA.scalar (fin 101325)) "Wright" "steric"
      "local" true = .ok x := C30_success exGood rfl (by simp) (Or.inl wright_case) (by simp) (fun _ => exArea)
  obtain ⟨-, -, -, -, a, b, k1, k2, k3⟩ := C33_scaling h h' (by decide)
  exact ⟨⟨r, r', ref, ref', a, b, h, h', k1, k2, fun e v hv => (k3 e).1 v hv⟩, C33_zero h (by decide)⟩

/-- C92_steric: the column of the rounding model. -/
example : ∃ r ref a, steric exD .none .none none (fin 1035) (DA.scalar (fin 101325)) "Wright" "steric" "local" true
      = .ok (r, ref) ∧ r.getVar "steric" = .ok a ∧
    ∀ e, exDepth.InBounds e → e "xh" = 0 → e "time" = 1 →
      a.get e = fin (colHeight Eos.Wright.density 101325 1035
        (fun k => ⟨1000, 500 + 1000 * (k : ℝ), 15, 35, 10, 34⟩) (.node (.leaf 1) (.leaf 0))) := by
  obtain ⟨⟨r, ref⟩, h⟩ := exRun "steric" "local" "Wright" (by simp) (Or.inl wright_case)
  obtain ⟨a, h1, h2⟩ := C92_steric h wright_case (by decide) exC exGrid rfl rfl rfl rfl rfl
  have hv : ∀ (e : Env) k, e "xh" = 0 → exV.get (cell0 "time" "z_l" e k) ≠ nan := by
    intro e k he
    simp [exV, cell0, Function.update_of_ne, he]
  refine ⟨r, ref, a, h, h1, fun e hb he ht => h2 e hb (hv e 0 he) _ _ ?_ ?_⟩
  · rw [List.filter_eq_self.2 (fun k _ => by simpa using hv e k he)]
    exact List.Perm.swap _ _ _
  · intro k hk _
    have hd : val0 (exDepth.get e) = 2000 := by simp [exDepth, he, val0_fin]
    refine ⟨?_, rfl, ?_, ?_, ?_, ?_, ?_, ?_⟩
    · rw [hd]
      unfold thickness Spec.overlap
      interval_cases k <;> norm_num
    · simp [exT, cell, Function.update_of_ne, ht]; norm_num
    · simp [exS, cell, Function.update_of_ne, ht]; norm_num
    · simp [exT, cell0]
    · simp [exS, cell0]
    all_goals
      interval_cases k <;> norm_num [Spec.Wright.Ocean]

end Momlevel.Props
