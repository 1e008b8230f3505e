import Verif.Props.TrendModes
import Mathlib.Tactic.IntervalCases
import Mathlib.Algebra.Order.Ring.Rat

/-!
# Broadcasting from the first time step (C68), examples and counterexamples for trends
-/

set_option linter.unusedSectionVars false

namespace Momlevel.Props
open Momlevel

variable {K : Type} [Field K] [LinearOrder K] [IsStrictOrderedRing K]

/-! ### C68: `subtract_time_zero` -/

/-- What `broadcast_trend` does before the option is looked at. -/
theorem broadcast_option {s : TrendArray K} {dim : String} {ix : DimIndex K} {r : DA (Fl K)}
    (h : broadcastTrend (some s) (some ⟨[dim], some ix⟩) = .ok r) :
    broadcastTrend (some s) (some ⟨[dim], some ix⟩) true = subtractFirst r ∧
      ∃ m, slopeForIndex s ix = .ok m ∧ r = m * indexArray dim ix.numbers := by
  unfold broadcastTrend at h ⊢
  simp only [Option.elim, ok_bind, List.length_singleton, beq_self_eq_true, pyAssert_true,
    List.headD_cons] at h ⊢
  cases hm : slopeForIndex s ix with
  | error er => rw [hm] at h; cases h
  | ok m =>
    rw [hm] at h
    simp only [ok_bind] at h ⊢
    unfold cleanInterpIndex at h ⊢
    split at h
    · rename_i hs
      rw [if_pos hs]
      cases h
      exact ⟨rfl, m, rfl, rfl⟩
    · cases h

/-- C68, the part that holds (the full claim is about axes of any name and is refuted by
`C68_counterexample`): along an axis called "time", the option subtracts the first value of every
line, so each line starts at zero unless its slope is missing. -/
theorem C68_partial {s : TrendArray K} {ix : DimIndex K} {n : Nat} {r : DA (Fl K)}
    (hn : Spec.pointCount ix = n) (hpos : 0 < n) (hs : "time" ∉ s.da.dimNames)
    (h : broadcastTrend (some s) (some ⟨["time"], some ix⟩) = .ok r) :
    ∃ r', broadcastTrend (some s) (some ⟨["time"], some ix⟩) true = .ok r' ∧ r'.dims = r.dims ∧
      ∀ e, r'.get e = r.get e - r.get (Function.update e "time" 0) := by
  obtain ⟨h1, m, hm, hr⟩ := broadcast_option h
  have hmd : m.dims = s.da.dims := by
    unfold slopeForIndex at hm
    split at hm
    · unfold slopeToNs at hm
      split at hm
      · cases hm; rfl
      · split at hm
        · cases hm; rfl
        · split at hm
          · cases hm; rfl
          · obtain ⟨f, _, hm⟩ := bind_ok.1 hm
            cases hm
            exact dims_mul_scalar _ _
        · cases hm
    · cases hm; rfl
  have hd : r.dims = s.da.dims ++ [("time", n)] := by
    rw [hr, DA.dims_mul, hmd]
    have : (indexArray (K := K) "time" ix.numbers).dims = [("time", n)] := by
      unfold indexArray; rw [numbers_length, hn]
    rw [this]
    apply DA.bdims_disjoint
    intro p hp
    rw [List.mem_singleton.1 hp]
    exact hs
  have hc : r.dimNames.contains "time" = true := by
    rw [List.contains_iff_mem]
    unfold DA.dimNames
    rw [hd]; simp
  have hsz : r.size "time" = n := by
    unfold DA.size
    rw [hd, List.find?_append]
    have : s.da.dims.find? (fun p => p.1 == "time") = none := by
      rw [List.find?_eq_none]
      intro p hp hc
      exact hs (List.mem_map.2 ⟨p, hp, by simpa using hc⟩)
    rw [this]; rfl
  refine ⟨r - r.isel "time" 0, ?_, ?_, fun e => by rw [DA.get_sub, DA.get_isel]⟩
  · rw [h1]
    unfold subtractFirst
    rw [if_pos hc, hsz, if_neg (by omega)]
  · rw [DA.dims_sub]
    exact DA.bdims_eq_left (fun p hp => List.mem_of_mem_filter hp)

/-- C68 (defect). Along an axis of any other name the option is a ValueError. -/
theorem C68_other_name {s : TrendArray K} {dim : String} {ix : DimIndex K} {r : DA (Fl K)}
    (hd : dim ≠ "time") (hs : "time" ∉ s.da.dimNames)
    (h : broadcastTrend (some s) (some ⟨[dim], some ix⟩) = .ok r) :
    broadcastTrend (some s) (some ⟨[dim], some ix⟩) true = .error .valueError := by
  obtain ⟨h1, m, hm, hr⟩ := broadcast_option h
  have hmd : m.dims = s.da.dims := by
    unfold slopeForIndex at hm
    split at hm
    · unfold slopeToNs at hm
      split at hm
      · cases hm; rfl
      · split at hm
        · cases hm; rfl
        · split at hm
          · cases hm; rfl
          · obtain ⟨f, _, hm⟩ := bind_ok.1 hm
            cases hm
            exact dims_mul_scalar _ _
        · cases hm
    · cases hm; rfl
  rw [h1]
  unfold subtractFirst
  rw [if_neg]
  rw [List.contains_iff_mem]
  intro hc
  obtain ⟨p, hp, hpn⟩ := List.mem_map.1 hc
  rw [hr, DA.dims_mul] at hp
  rcases DA.mem_bdims hp with hp | hp
  · rw [hmd] at hp
    exact hs (List.mem_map.2 ⟨p, hp, hpn⟩)
  · unfold indexArray at hp
    rw [List.mem_singleton.1 hp] at hpn
    exact hd hpn

/-! ### Examples -/

/-- Three samples on the line `2 t + 5` at the positions 1, 2, 4, the middle one missing, at two
points `x`; at the second point an outlier. -/
def trA : TrendArray ℚ :=
  ⟨⟨[("time", 3), ("x", 2)], fun e =>
      if e "time" = 0 then .fin 7 else if e "time" = 1 then (if e "x" = 0 then .nan else .fin 0)
      else .fin 13⟩,
   [("time", .numeric [1, 2, 4])], [("units", "m")]⟩

theorem trA_axis : Spec.HasAxis trA "time" (.numeric [1, 2, 4]) 3 :=
  ⟨by decide, rfl, by simp [trA], rfl⟩

theorem trA_increasing : Spec.Increasing (.numeric [1, 2, 4] : DimIndex ℚ) 3 := by
  intro i j hij hj
  have hi : i < 3 := by omega
  interval_cases j <;> interval_cases i <;> simp_all [Spec.position] <;> norm_num

theorem trA_off : Spec.OffOrigin (.numeric [1, 2, 4] : DimIndex ℚ) 3 :=
  ⟨0, by omega, by simp [Spec.position]⟩

theorem trA_plain : Spec.PlainUnits (.numeric [1, 2, 4]) trA := fun _ h => by cases h

theorem trA_ordinary (e : Env) : Spec.Ordinary 3 (Spec.along trA "time" e) := by
  intro k _
  unfold Spec.along trA
  dsimp only
  split_ifs <;> simp

/-- The trend of the first series is found in spite of the missing sample. -/
example : ∃ s b, calcLinearTrend trA "time" none = .ok (s, b) ∧
    s.da.get (fun _ => 0) = .fin 2 ∧ b.da.get (fun _ => 0) = .fin 5 := by
  obtain ⟨s, b, hs, -⟩ := C51_least_squares trA_axis trA_off (unitScale_none _)
  have := C51_exact trA_axis (unitScale_none _) hs (e := fun _ => 0) (m := 2) (q := 5)
    (fun k hk => by
      interval_cases k <;> simp [Spec.along, trA, Spec.position] <;> norm_num)
    (i := 0) (j := 2) (by omega) (by omega) (by simp [Spec.along, trA]) (by simp [Spec.along, trA])
    (by simp [Spec.position])
  exact ⟨s, b, hs, by simpa using this.1, this.2⟩

/-- `C52_residual`, `C52_idempotent`, `C53_value` and `C54_roundtrip` apply to it. -/
example : ∃ y, linearDetrend (.array trA) "time" 1 "remove" = .ok (.array y) ∧
    Spec.overValid 3 (Spec.along y "time" (fun _ => 1)) (fun _ r => r) = 0 := by
  obtain ⟨y, hy, -, -, h⟩ := C52_residual trA_axis trA_increasing trA_off trA_plain
  exact ⟨y, hy, (h _ (trA_ordinary _)).2.2.2.1⟩

example : ∃ y z, linearDetrend (.array trA) "time" 1 "remove" = .ok (.array y) ∧
    linearDetrend (.array y) "time" 1 "remove" = .ok (.array z) ∧
    Spec.along z "time" (fun _ => 1) 2 = Spec.along y "time" (fun _ => 1) 2 := by
  obtain ⟨y, z, hy, hz, -, h⟩ := C52_idempotent trA_axis trA_increasing trA_off trA_plain
  exact ⟨y, z, hy, hz, h _ (trA_ordinary _) 2 (by omega)⟩

/-- The mean is not preserved by mode "correct": for the first series 7, missing, 13 the sum of the
corrected samples is 10, not 20. -/
theorem C53_counterexample : ∃ yc, linearDetrend (.array trA) "time" 1 "correct" = .ok (.array yc) ∧
    Spec.overValid 3 (Spec.along trA "time" (fun _ => 0)) (fun _ v => v) = 20 ∧
    Spec.overValid 3 (Spec.along yc "time" (fun _ => 0)) (fun _ v => v) = 10 := by
  obtain ⟨s, b, yr, yc, hs, -, hyc, -⟩ := C53_value trA_axis trA_increasing trA_off trA_plain
  have hx := C51_exact trA_axis (unitScale_none _) hs (e := fun _ => 0) (m := 2) (q := 5)
    (fun k hk => by
      interval_cases k <;> simp [Spec.along, trA, Spec.position] <;> norm_num)
    (i := 0) (j := 2) (by omega) (by omega) (by simp [Spec.along, trA]) (by simp [Spec.along, trA])
    (by simp [Spec.position])
  have hm : s.da.get (fun _ => 0) = .fin 2 := by simpa using hx.1
  refine ⟨yc, hyc, ?_, ?_⟩
  · simp [Spec.overValid, Finset.sum_range_succ, Spec.along, trA, Spec.ifValid]
    norm_num
  · rw [C53_mean trA_axis trA_increasing trA_plain hs hyc hm (trA_ordinary _)]
    simp [Spec.overValid, Finset.sum_range_succ, Spec.along, trA, Spec.ifValid, Spec.position]
    norm_num

/-- Two days of a velocity (units "m s-1") or of a height (units "m"). -/
def trB (units : String) : TrendArray ℚ :=
  ⟨⟨[("time", 2)], fun e => .fin (e "time")⟩,
   [("time", .cftime ⟨.noleap, [⟨⟨1, 1, 1⟩, 0⟩, ⟨⟨1, 1, 2⟩, 0⟩]⟩)], [("units", units)]⟩

theorem trB_axis (u : String) : Spec.HasAxis (trB u) "time"
    (.cftime ⟨.noleap, [⟨⟨1, 1, 1⟩, 0⟩, ⟨⟨1, 1, 2⟩, 0⟩]⟩) 2 :=
  ⟨by simp [trB, DA.dimNames], rfl, by simp [trB], rfl⟩

theorem trB_increasing : Spec.Increasing
    (.cftime ⟨.noleap, [⟨⟨1, 1, 1⟩, 0⟩, ⟨⟨1, 1, 2⟩, 0⟩]⟩ : DimIndex ℚ) 2 := by
  intro i j hij hj
  have h1 : j = 1 := by omega
  have h0 : i = 0 := by omega
  subst h0 h1
  have e0 : Stamp.toUs .noleap ⟨⟨1, 1, 1⟩, 0⟩ = 0 := by decide
  have e1 : Stamp.toUs .noleap ⟨⟨1, 1, 2⟩, 0⟩ = 86400000000 := by decide
  simp only [Spec.position]
  generalize Stamp.toUs Calendar.noleap ⟨⟨1970, 1, 1⟩, 0⟩ = z
  simp only [List.map_cons, e0, e1, List.getD_cons_zero, List.getD_cons_succ, Int.cast_lt]
  omega

/-- A height detrends, and its slope in metres per year broadcasts to the same line as in metres per
nanosecond. -/
example : ∃ s b s' b' r r', calcLinearTrend (trB "m") "time" (some "yr") = .ok (s, b) ∧
    calcLinearTrend (trB "m") "time" none = .ok (s', b') ∧
    broadcastTrend (some s) (some ⟨["time"], (trB "m").indexes.lookup "time"⟩) = .ok r ∧
    broadcastTrend (some s') (some ⟨["time"], (trB "m").indexes.lookup "time"⟩) = .ok r' ∧
    r.dims = r'.dims ∧ ∀ e, r.get e = r'.get e := by
  obtain ⟨s, b, s', b', r, r', h1, h2, h3, h4, h5, h6, -⟩ := C54_roundtrip (u := some "yr") (u' := none)
    (trB_axis "m") trB_increasing
    (fun _ _ t ht => by
      simp only [trB, List.lookup, beq_self_eq_true, Option.some.injEq] at ht
      subst ht
      unfold Spec.mentionsPer; decide)
    (c := 86400000000000 * 365) rfl (unitScale_none _)
  exact ⟨s, b, s', b', r, r', h1, h2, h3, h4, h5, h6⟩

/-- C55 (defect). Detrending does not work for every units attribute: two days of a velocity in
"m s-1" cannot be detrended. -/
theorem C55_counterexample : ¬ ∀ (x : TrendArray ℚ) (dim : String) (ix : DimIndex ℚ) (n : Nat),
    Spec.HasAxis x dim ix n → Spec.Increasing ix n →
    ∃ y, linearDetrend (.array x) dim 1 "remove" = .ok (.array y) := by
  intro h
  obtain ⟨y, hy⟩ := h _ _ _ _ (trB_axis "m s-1") trB_increasing
  rw [C55_per (trB_axis "m s-1") rfl (by unfold Spec.mentionsPer; decide)] at hy
  cases hy

/-- C56 on a dataset with a variable along the axis and one without it. -/
example : ∃ y, linearDetrend (.dataset [("h", trB "m"), ("area", ⟨DA.scalar (.fin 1), [], []⟩)])
    "time" 1 "remove" = .ok (.dataset [("h", y), ("area", ⟨DA.scalar (.fin 1), [], []⟩)]) := by
  obtain ⟨y, hy, -⟩ := C55_partial (trB_axis "m") trB_increasing
    (fun _ _ t ht => by
      simp only [trB, List.lookup, beq_self_eq_true, Option.some.injEq] at ht
      subst ht
      unfold Spec.mentionsPer; decide) (Or.inl rfl)
  refine ⟨y, C56_dataset.2 ?_⟩
  refine .cons ⟨rfl, Or.inr ⟨by simp [trB, DA.dimNames], hy⟩⟩ (.cons ⟨rfl, Or.inl ⟨?_, rfl⟩⟩ .nil)
  simp [DA.scalar, DA.dimNames]

example : linearDetrend (.array (trB "m")) "time" 1 "anomaly" = .error .valueError :=
  C56_mode (trB_axis "m") trB_increasing (by decide) (by decide)

/-- A slope in metres per day, for `broadcast_trend`. -/
def trS : TrendArray ℚ := ⟨DA.scalar (.fin 3), [], [("units", "m day-1")]⟩

/-- C68 (defect). The option does not work for every axis name. -/
theorem C68_counterexample : ¬ ∀ (s : TrendArray ℚ) (dim : String) (ix : DimIndex ℚ) (r : DA (Fl ℚ)),
    broadcastTrend (some s) (some ⟨[dim], some ix⟩) = .ok r →
    ∃ r', broadcastTrend (some s) (some ⟨[dim], some ix⟩) true = .ok r' := by
  intro h
  have h0 : broadcastTrend (some trS) (some ⟨["z"], some (.numeric [1, 2])⟩) =
      .ok (trS.da * indexArray "z" [1, 2]) := by
    unfold broadcastTrend cleanInterpIndex
    simp [slopeForIndex, DimIndex.isCftime, DimIndex.numbers]
  obtain ⟨r', hr'⟩ := h _ _ _ _ h0
  rw [C68_other_name (by decide) (by simp [trS, DA.scalar, DA.dimNames]) h0] at hr'
  cases hr'

/-- Along "time" the line starts at zero. -/
example : ∃ r', broadcastTrend (some trS) (some ⟨["time"], some (.numeric [1, 2])⟩) true = .ok r' ∧
    r'.get (fun _ => 0) = .fin 0 ∧ r'.get (fun _ => 1) = .fin 3 := by
  have h0 : broadcastTrend (some trS) (some ⟨["time"], some (.numeric [1, 2])⟩) =
      .ok (trS.da * indexArray "time" [1, 2]) := by
    unfold broadcastTrend cleanInterpIndex
    simp [slopeForIndex, DimIndex.isCftime, DimIndex.numbers]
  obtain ⟨r', hr', -, h⟩ := C68_partial (n := 2) rfl (by omega)
    (by simp [trS, DA.scalar, DA.dimNames]) h0
  refine ⟨r', hr', ?_, ?_⟩
  · rw [h]; simp [trS, indexArray]
  · rw [h]; simp [trS, indexArray]; norm_num

/-- `C52_add_line` and `C53_mean` on the same series: adding a line changes no residual; the corrected series has
lost the slope times the sum of the positions. -/
example : ∃ y y', linearDetrend (.array trA) "time" 1 "remove" = .ok (.array y) ∧
    linearDetrend (.array { trA with da := ⟨trA.da.dims, fun e =>
      trA.da.get e + .fin (3 * Spec.position (.numeric [1, 2, 4]) (e "time") + 5)⟩ }) "time" 1 "remove" =
        .ok (.array y') ∧
    ∀ e, ∀ k < 3, Spec.along y' "time" e k = Spec.along y "time" e k := by
  obtain ⟨y, y', h1, h2, -, h3⟩ := C52_add_line trA_axis trA_increasing trA_off trA_plain (fun _ => 3) (fun _ => 5)
    (fun _ _ => rfl) (fun _ _ => rfl)
  exact ⟨y, y', h1, h2, fun e => h3 e (trA_ordinary e)⟩

example {s b yc : TrendArray ℚ} (hs : calcLinearTrend trA "time" none = .ok (s, b))
    (hyc : linearDetrend (.array trA) "time" 1 "correct" = .ok (.array yc)) {m : ℚ}
    (hm : s.da.get (fun _ => 0) = .fin m) :
    Spec.overValid 3 (Spec.along yc "time" (fun _ => 0)) (fun _ v => v) =
      Spec.overValid 3 (Spec.along trA "time" (fun _ => 0)) (fun _ v => v) -
        m * Spec.overValid 3 (Spec.along trA "time" (fun _ => 0)) (fun k _ => Spec.position (.numeric [1, 2, 4]) k) :=
  C53_mean trA_axis trA_increasing trA_plain hs hyc hm (trA_ordinary _)

end Momlevel.Props
