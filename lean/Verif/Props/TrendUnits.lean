import Verif.Spec.Trend
import Verif.Props.Util
import Mathlib.Tactic.NormNum
import Mathlib.Tactic.FieldSimp
import Mathlib.Algebra.Order.Field.Basic

/-!
# Time units of trends (C50)
-/

set_option linter.unusedSectionVars false

namespace Momlevel.Props
open Momlevel

variable {K : Type} [Field K] [LinearOrder K] [IsStrictOrderedRing K]

theorem nsFrom_eq (dpm dpy : K) : nsFrom (.fin dpm) (.fin dpy) =
    [("ns", .fin 1), ("s", .fin 1000000000), ("min", .fin 60000000000),
     ("hr", .fin 3600000000000), ("day", .fin 86400000000000),
     ("mon", .fin (86400000000000 * dpm)), ("yr", .fin (86400000000000 * dpy))] := by
  unfold nsFrom
  simp only [Fl.ofSci, Fl.fin_mul]
  norm_num

theorem pyRecip_fin {v : K} (h : v ≠ 0) : pyRecip (.fin v) = .ok (.fin (1 / v)) := by
  unfold pyRecip
  rw [Fl.eqv_fin, decide_eq_false h, if_neg (by simp), Fl.ofSci, Fl.fin_div_of_ne _ h]
  norm_num

theorem pyRecip_zero : pyRecip (.fin (0 : K)) = .error .zeroDivisionError := by
  unfold pyRecip
  rw [Fl.eqv_fin, decide_eq_true rfl, if_pos rfl]

theorem lookup_from (dpm dpy : K) (s : String) :
    ([("ns", Fl.fin (1 : K)), ("s", .fin 1000000000), ("min", .fin 60000000000),
     ("hr", .fin 3600000000000), ("day", .fin 86400000000000),
     ("mon", .fin (86400000000000 * dpm)), ("yr", .fin (86400000000000 * dpy))] :
      List (String × Fl K)).lookup s = (Spec.nsIn dpm dpy s).map Fl.fin := by
  unfold Spec.nsIn
  split_ifs with h1 h2 h3 h4 h5 h6 h7
  all_goals first
    | (subst_vars; rfl)
    | (simp only [List.lookup, beq_false_of_ne h1, beq_false_of_ne h2, beq_false_of_ne h3,
        beq_false_of_ne h4, beq_false_of_ne h5, beq_false_of_ne h6, beq_false_of_ne h7]; rfl)

theorem lookup_to (dpm dpy : K) (s : String) :
    ([("ns", Fl.fin (1 / 1 : K)), ("s", .fin (1 / 1000000000)), ("min", .fin (1 / 60000000000)),
     ("hr", .fin (1 / 3600000000000)), ("day", .fin (1 / 86400000000000)),
     ("mon", .fin (1 / (86400000000000 * dpm))), ("yr", .fin (1 / (86400000000000 * dpy)))] :
      List (String × Fl K)).lookup s = (Spec.nsIn dpm dpy s).map (fun a => Fl.fin (1 / a)) := by
  unfold Spec.nsIn
  split_ifs with h1 h2 h3 h4 h5 h6 h7
  all_goals first
    | (subst_vars; rfl)
    | (simp only [List.lookup, beq_false_of_ne h1, beq_false_of_ne h2, beq_false_of_ne h3,
        beq_false_of_ne h4, beq_false_of_ne h5, beq_false_of_ne h6, beq_false_of_ne h7]; rfl)

theorem contains_nsIn (dpm dpy : K) (s : String) :
    (["ns", "s", "min", "hr", "day", "mon", "yr"]).contains s = (Spec.nsIn dpm dpy s).isSome := by
  unfold Spec.nsIn
  split_ifs with h1 h2 h3 h4 h5 h6 h7
  all_goals first
    | (subst_vars; rfl)
    | simp [h1, h2, h3, h4, h5, h6, h7]

/-- The result of `time_conversion_factor`, for every pair of strings and non-zero lengths. -/
theorem conversion_eq {dpm dpy : K} (hm : dpm ≠ 0) (hy : dpy ≠ 0) (src dst : String) :
    timeConversionFactor src dst (.fin dpm) (.fin dpy) =
      match Spec.nsIn dpm dpy src, Spec.nsIn dpm dpy dst with
      | some a, some b => .ok (.fin (a / b))
      | _, _ => .error .assertionError := by
  have h : ([("ns", Fl.fin (1 : K)), ("s", .fin 1000000000), ("min", .fin 60000000000),
     ("hr", .fin 3600000000000), ("day", .fin 86400000000000),
     ("mon", .fin (86400000000000 * dpm)), ("yr", .fin (86400000000000 * dpy))].mapM
      (fun p => do return (p.1, ← pyRecip p.2)) : Except PyErr (List (String × Fl K))) =
      .ok [("ns", .fin (1 / 1)), ("s", .fin (1 / 1000000000)), ("min", .fin (1 / 60000000000)),
     ("hr", .fin (1 / 3600000000000)), ("day", .fin (1 / 86400000000000)),
     ("mon", .fin (1 / (86400000000000 * dpm))), ("yr", .fin (1 / (86400000000000 * dpy)))] := by
    have h1 : (1 : K) ≠ 0 := one_ne_zero
    have h2 : (1000000000 : K) ≠ 0 := by norm_num
    have h3 : (60000000000 : K) ≠ 0 := by norm_num
    have h4 : (3600000000000 : K) ≠ 0 := by norm_num
    have h5 : (86400000000000 : K) ≠ 0 := by norm_num
    simp only [List.mapM_cons, List.mapM_nil, pyRecip_fin h1, pyRecip_fin h2, pyRecip_fin h3,
      pyRecip_fin h4, pyRecip_fin h5, pyRecip_fin (mul_ne_zero h5 hm), pyRecip_fin (mul_ne_zero h5 hy),
      ok_bind]
    rfl
  unfold timeConversionFactor
  simp only [nsFrom_eq, h, ok_bind, List.map_cons, List.map_nil]
  rw [contains_nsIn dpm dpy src, contains_nsIn dpm dpy dst]
  unfold dictGet
  rw [lookup_from, lookup_to]
  cases Spec.nsIn dpm dpy src with
  | none => rfl
  | some a =>
    cases Spec.nsIn dpm dpy dst with
    | none => rfl
    | some b =>
      simp only [Option.map_some, Option.isSome_some, pyAssert_true, ok_bind, Fl.fin_mul]
      rw [mul_one_div]
      rfl

theorem nsIn_ne_zero {dpm dpy : K} (hm : dpm ≠ 0) (hy : dpy ≠ 0) {u : String} {a : K}
    (h : Spec.nsIn dpm dpy u = some a) : a ≠ 0 := by
  unfold Spec.nsIn at h
  split_ifs at h <;> cases h
  all_goals first
    | exact mul_ne_zero (by norm_num) hm
    | exact mul_ne_zero (by norm_num) hy
    | norm_num

/-! ### C50: conversion factors -/

/-- C50. The factor is the ratio of the lengths of the two units. -/
theorem C50_value {dpm dpy : K} (hm : dpm ≠ 0) (hy : dpy ≠ 0) {src dst : String} {a b : K}
    (ha : Spec.nsIn dpm dpy src = some a) (hb : Spec.nsIn dpm dpy dst = some b) :
    timeConversionFactor src dst (.fin dpm) (.fin dpy) = .ok (.fin (a / b)) := by
  rw [conversion_eq hm hy, ha, hb]

theorem recognised_some (dpm dpy : K) {u : String} (h : Spec.Recognised u) :
    ∃ a, Spec.nsIn dpm dpy u = some a := by
  have := contains_nsIn dpm dpy u
  rw [List.contains_iff_mem.2 h] at this
  exact Option.isSome_iff_exists.1 this.symm

/-- C50. Converting a unit to itself has factor 1. -/
theorem C50_self {dpm dpy : K} (hm : dpm ≠ 0) (hy : dpy ≠ 0) {u : String} (h : Spec.Recognised u) :
    timeConversionFactor u u (.fin dpm) (.fin dpy) = .ok (.fin 1) := by
  obtain ⟨a, ha⟩ := recognised_some dpm dpy h
  rw [C50_value hm hy ha ha, div_self (nsIn_ne_zero hm hy ha)]

/-- C50. There and back is the identity. -/
theorem C50_inverse {dpm dpy : K} (hm : dpm ≠ 0) (hy : dpy ≠ 0) {u v : String} (hu : Spec.Recognised u)
    (hv : Spec.Recognised v) : ∃ f g : K,
      timeConversionFactor u v (.fin dpm) (.fin dpy) = .ok (.fin f) ∧
      timeConversionFactor v u (.fin dpm) (.fin dpy) = .ok (.fin g) ∧ f * g = 1 := by
  obtain ⟨a, ha⟩ := recognised_some dpm dpy hu
  obtain ⟨b, hb⟩ := recognised_some dpm dpy hv
  have h1 := nsIn_ne_zero hm hy ha
  have h2 := nsIn_ne_zero hm hy hb
  exact ⟨a / b, b / a, C50_value hm hy ha hb, C50_value hm hy hb ha, by field_simp⟩

/-- C50. Converting in two steps is converting at once. -/
theorem C50_chain {dpm dpy : K} (hm : dpm ≠ 0) (hy : dpy ≠ 0) {u v w : String} (hu : Spec.Recognised u)
    (hv : Spec.Recognised v) (hw : Spec.Recognised w) : ∃ f g : K,
      timeConversionFactor u v (.fin dpm) (.fin dpy) = .ok (.fin f) ∧
      timeConversionFactor v w (.fin dpm) (.fin dpy) = .ok (.fin g) ∧
      timeConversionFactor u w (.fin dpm) (.fin dpy) = .ok (.fin (f * g)) := by
  obtain ⟨a, ha⟩ := recognised_some dpm dpy hu
  obtain ⟨b, hb⟩ := recognised_some dpm dpy hv
  obtain ⟨c, hc⟩ := recognised_some dpm dpy hw
  have h2 := nsIn_ne_zero hm hy hb
  refine ⟨a / b, b / c, C50_value hm hy ha hb, C50_value hm hy hb hc, ?_⟩
  rw [C50_value hm hy ha hc, div_mul_div_cancel₀ h2]

/-- C50. An unrecognised unit on either side is an AssertionError. -/
theorem C50_unknown {dpm dpy : K} (hm : dpm ≠ 0) (hy : dpy ≠ 0) {src dst : String}
    (h : ¬ Spec.Recognised src ∨ ¬ Spec.Recognised dst) :
    timeConversionFactor src dst (.fin dpm) (.fin dpy) = .error .assertionError := by
  have key : ∀ s, ¬ Spec.Recognised s → Spec.nsIn dpm dpy s = none := by
    intro s hs
    have := contains_nsIn dpm dpy s
    rw [Bool.eq_false_iff.2 (fun c => hs (List.contains_iff_mem.1 c))] at this
    exact Option.isSome_eq_false_iff.1 this.symm |> Option.isNone_iff_eq_none.1
  rw [conversion_eq hm hy]
  rcases h with h | h
  · rw [key _ h]
  · rw [key _ h]
    cases Spec.nsIn dpm dpy src <;> rfl

/-- C50. A zero month or year length is a ZeroDivisionError for every pair of unit strings, even for
pairs that involve neither months nor years and for unrecognised units. -/
theorem C50_zero {dpm dpy : K} (h : dpm = 0 ∨ dpy = 0) (src dst : String) :
    timeConversionFactor src dst (.fin dpm) (.fin dpy) = .error .zeroDivisionError := by
  have h1 : (1 : K) ≠ 0 := one_ne_zero
  have h2 : (1000000000 : K) ≠ 0 := by norm_num
  have h3 : (60000000000 : K) ≠ 0 := by norm_num
  have h4 : (3600000000000 : K) ≠ 0 := by norm_num
  have h5 : (86400000000000 : K) ≠ 0 := by norm_num
  unfold timeConversionFactor
  simp only [nsFrom_eq, List.mapM_cons, List.mapM_nil, pyRecip_fin h1, pyRecip_fin h2,
    pyRecip_fin h3, pyRecip_fin h4, pyRecip_fin h5, ok_bind]
  by_cases hm : dpm = 0
  · subst hm
    simp only [mul_zero, pyRecip_zero]
    rfl
  · have hy : dpy = 0 := h.resolve_left hm
    subst hy
    simp only [pyRecip_fin (mul_ne_zero h5 hm), mul_zero, pyRecip_zero]
    rfl

/-- The default lengths, 30.417 and 365 days, are covered by the theorems above. -/
example : timeConversionFactor (K := K) "hr" "min" = .ok (.fin 60) := by
  have : timeConversionFactor (K := K) "hr" "min" (.fin (30417 / 1000)) (.fin 365) =
      .ok (.fin (3600000000000 / 60000000000)) := C50_value (by norm_num) (by norm_num) rfl rfl
  have e1 : (30.417 : Fl K) = .fin (30417 / 1000) := by rw [Fl.ofSci]; norm_num
  have e2 : (365.0 : Fl K) = .fin 365 := by rw [Fl.ofSci]; norm_num
  rw [e1, e2, this]
  norm_num

/-- Twelve months of 30 days in a year of 360 days. -/
example : timeConversionFactor (K := K) "yr" "mon" (.fin 30) (.fin 360) = .ok (.fin 12) := by
  rw [C50_value (by norm_num) (by norm_num) (src := "yr") (dst := "mon") rfl rfl]
  norm_num

example : Spec.Recognised "day" ∧ ¬ Spec.Recognised "days" := by
  constructor <;> simp [Spec.Recognised]

example : timeConversionFactor (K := K) "s" "min" (.fin 30) (.fin 0) = .error .zeroDivisionError :=
  C50_zero (Or.inr rfl) _ _

end Momlevel.Props
