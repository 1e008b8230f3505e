import Verif.Model.AverageDS
import Verif.Props.CycleStats
import Verif.Props.Monthly
import Verif.Lemmas.Steric

/-!
# C40, C41 for datasets
-/

set_option linter.unusedSectionVars false

namespace Momlevel.Props
open Momlevel Momlevel.Spec

section
variable {K : Type} [Field K] [LinearOrder K]

/-- The variables of a dataset that are averaged: those that are neither dimensions nor coordinates
and are numeric. -/
theorem averagedVars_spec (x : DS (Fl K)) (isObject : String → Bool) (tc : String) :
    (∀ vars, averagedVars x isObject tc = .ok vars →
      vars = x.vars.filter (fun p => !(x.dimNames.contains p.1 || x.coords.contains p.1 || isObject p.1))) ∧
    ((∃ p ∈ x.vars, p.1 ∉ x.dimNames ∧ p.1 ∉ x.coords ∧ isObject p.1 = false ∧ tc ∈ p.2.dimNames) →
      averagedVars x isObject tc = .ok (x.vars.filter
        (fun p => !(x.dimNames.contains p.1 || x.coords.contains p.1 || isObject p.1)))) ∧
    (¬ (∃ p ∈ x.vars, p.1 ∉ x.dimNames ∧ p.1 ∉ x.coords ∧ isObject p.1 = false ∧ tc ∈ p.2.dimNames) →
      averagedVars x isObject tc = .error .keyError) := by
  have key : ((x.vars.filter (fun p => !(x.dimNames.contains p.1 || x.coords.contains p.1 ||
      isObject p.1))).any (fun p => p.2.dimNames.contains tc)) = true ↔
      ∃ p ∈ x.vars, p.1 ∉ x.dimNames ∧ p.1 ∉ x.coords ∧ isObject p.1 = false ∧
        tc ∈ p.2.dimNames := by
    simp only [List.any_eq_true, List.mem_filter, Bool.not_eq_true', Bool.or_eq_false_iff,
      List.contains_eq_mem, decide_eq_false_iff_not, decide_eq_true_eq]
    constructor
    · rintro ⟨p, ⟨h1, ⟨h2, h3⟩, h4⟩, h5⟩
      exact ⟨p, h1, h2, h3, h4, h5⟩
    · rintro ⟨p, h1, h2, h3, h4, h5⟩
      exact ⟨p, ⟨h1, ⟨h2, h3⟩, h4⟩, h5⟩
  refine ⟨?_, ?_, ?_⟩
  · intro vars h
    unfold averagedVars at h
    simp only at h
    split at h
    · exact (Except.ok.inj h).symm
    · simp at h
  · intro h
    unfold averagedVars
    simp only
    rw [if_pos (key.2 h)]
  · intro h
    unfold averagedVars
    simp only
    rw [if_neg (fun hh => h (key.1 hh))]

/-- `annual_average` of a dataset succeeds exactly when the average of an array on the same time axis
does, provided some averaged variable has the time dimension; otherwise it is a KeyError. -/
theorem C38_dataset_success (x : Timed (DS (Fl K))) (isObject : String → Bool) (tc : String) :
    (∀ b, (∃ p ∈ x.obj.vars, p.1 ∉ x.obj.dimNames ∧ p.1 ∉ x.obj.coords ∧ isObject p.1 = false ∧
        tc ∈ p.2.dimNames) →
      ((∃ r, annualAverageDS x isObject tc = .ok r) ↔
        ∃ r, annualAverage (⟨b, x.axes⟩ : Timed (DA (Fl K))) tc = .ok r)) ∧
    (∀ ax : TimeAxis, x.axes.lookup tc = some ax → ax.stamps ≠ [] →
      (∀ p ∈ x.obj.vars, p.1 ∉ x.obj.dimNames → p.1 ∉ x.obj.coords → isObject p.1 = false →
        tc ∉ p.2.dimNames) → annualAverageDS x isObject tc = .error .keyError) := by
  obtain ⟨-, v2, v3⟩ := averagedVars_spec x.obj isObject tc
  constructor
  · intro b hb
    have h' : Timed.axis (⟨b, x.axes⟩ : Timed (DA (Fl K))) tc = x.axis tc := rfl
    unfold annualAverageDS annualAverage
    rw [h', v2 hb]
    cases x.axis tc with
    | error e => simp
    | ok ax =>
      simp only [ok_bind]
      cases annualCheck ax with
      | error e => simp
      | ok u => exact ⟨fun _ => ⟨_, rfl⟩, fun _ => ⟨_, rfl⟩⟩
  · intro ax hax hne h
    unfold annualAverageDS
    have h1 : x.axis tc = .ok ax := axis_ok hax hne
    rw [h1, ok_bind, v3 (by
      rintro ⟨p, h1, h2, h3, h4, h5⟩
      exact h p h1 h2 h3 h4 h5), error_bind]

/-- `monthly_average` of a dataset: the numeric variables that are neither dimensions nor coordinates,
in order, each averaged as the array would be; a KeyError if none of them has the time dimension;
otherwise it succeeds exactly when the average of an array on the same time axis does. -/
theorem C41_dataset (x : Timed (DS (Fl K))) (isObject : String → Bool) (tc : String) :
    (∀ r, monthlyAverageDS x isObject tc = .ok r →
      r.obj.vars.map Prod.fst = (x.obj.vars.map Prod.fst).filter
        (fun n => !(x.obj.dimNames.contains n || x.obj.coords.contains n || isObject n)) ∧
      ∀ n a, (n, a) ∈ r.obj.vars → ∃ b, (n, b) ∈ x.obj.vars ∧
        monthlyAverage ⟨b, x.axes⟩ tc = .ok ⟨a, r.axes⟩) ∧
    (∀ b, (∃ p ∈ x.obj.vars, p.1 ∉ x.obj.dimNames ∧ p.1 ∉ x.obj.coords ∧ isObject p.1 = false ∧
        tc ∈ p.2.dimNames) →
      ((∃ r, monthlyAverageDS x isObject tc = .ok r) ↔
        ∃ r, monthlyAverage (⟨b, x.axes⟩ : Timed (DA (Fl K))) tc = .ok r)) ∧
    (∀ ax : TimeAxis, x.axes.lookup tc = some ax → ax.stamps ≠ [] →
      (∀ p ∈ x.obj.vars, p.1 ∉ x.obj.dimNames → p.1 ∉ x.obj.coords → isObject p.1 = false →
        tc ∉ p.2.dimNames) → monthlyAverageDS x isObject tc = .error .keyError) := by
  obtain ⟨v1, v2, v3⟩ := averagedVars_spec x.obj isObject tc
  refine ⟨?_, ?_, ?_⟩
  · intro r hr
    unfold monthlyAverageDS at hr
    rw [bind_ok] at hr
    obtain ⟨ax, hax, hr⟩ := hr
    rw [bind_ok] at hr
    obtain ⟨vars, hv, hr⟩ := hr
    obtain rfl := v1 vars hv
    split at hr
    · rename_i hc
      obtain rfl : _ = r := Except.ok.inj hr
      refine ⟨?_, ?_⟩
      · simp [List.filter_map, Function.comp_def]
      · intro n a ha
        simp only [List.mem_map, List.mem_filter, Prod.mk.injEq] at ha
        obtain ⟨p, ⟨hp, -⟩, rfl, rfl⟩ := ha
        refine ⟨p.2, hp, ?_⟩
        have h' : Timed.axis (⟨p.2, x.axes⟩ : Timed (DA (Fl K))) tc = .ok ax := hax
        simp only [monthlyAverage, h', ok_bind]
        rw [if_pos hc]
        rfl
    · simp at hr
  · intro b hb
    have hv := v2 hb
    have h' : Timed.axis (⟨b, x.axes⟩ : Timed (DA (Fl K))) tc = x.axis tc := rfl
    unfold monthlyAverageDS monthlyAverage
    rw [h', hv]
    cases x.axis tc with
    | error e => simp
    | ok ax =>
      simp only [ok_bind]
      by_cases hc : ((groupKeys ax.years).all
          (fun y => (groupKeys (ax.sel (groupPos ax.years y)).months).length == 12)) = true
      · rw [if_pos hc, if_pos hc]
        exact ⟨fun _ => ⟨_, rfl⟩, fun _ => ⟨_, rfl⟩⟩
      · rw [if_neg hc, if_neg hc]
        simp
  · intro ax hax hne h
    unfold monthlyAverageDS
    have h1 : x.axis tc = .ok ax := axis_ok hax hne
    rw [h1, ok_bind, v3 (by
      rintro ⟨p, h1, h2, h3, h4, h5⟩
      exact h p h1 h2 h3 h4 h5), error_bind]

end

/-- `annual_cycle` of a dataset: as for `monthly_average`, variable by variable. -/
theorem C40_dataset (x : Timed (DS (Fl ℝ))) (isObject : String → Bool) (tc func : String)
    (yr : Option Nat) :
    (∀ r, annualCycleDS x isObject tc func yr = .ok r →
      r.obj.vars.map Prod.fst = (x.obj.vars.map Prod.fst).filter
        (fun n => !(x.obj.dimNames.contains n || x.obj.coords.contains n || isObject n)) ∧
      ∀ n a, (n, a) ∈ r.obj.vars → ∃ b, (n, b) ∈ x.obj.vars ∧
        annualCycle ⟨b, x.axes⟩ tc func yr = .ok ⟨a, r.axes⟩) ∧
    (∀ b, (∃ p ∈ x.obj.vars, p.1 ∉ x.obj.dimNames ∧ p.1 ∉ x.obj.coords ∧ isObject p.1 = false ∧
        tc ∈ p.2.dimNames) →
      ((∃ r, annualCycleDS x isObject tc func yr = .ok r) ↔
        ∃ r, annualCycle ⟨b, x.axes⟩ tc func yr = .ok r)) ∧
    (∀ ax : TimeAxis, x.axes.lookup tc = some ax → ax.stamps ≠ [] →
      (∀ p ∈ x.obj.vars, p.1 ∉ x.obj.dimNames → p.1 ∉ x.obj.coords → isObject p.1 = false →
        tc ∉ p.2.dimNames) → annualCycleDS x isObject tc func yr = .error .keyError) := by
  obtain ⟨v1, v2, v3⟩ := averagedVars_spec x.obj isObject tc
  refine ⟨?_, ?_, ?_⟩
  · intro r hr
    unfold annualCycleDS at hr
    rw [bind_ok] at hr
    obtain ⟨ax, hax, hr⟩ := hr
    rw [bind_ok] at hr
    obtain ⟨vars, hv, hr⟩ := hr
    obtain rfl := v1 vars hv
    rw [bind_ok] at hr
    obtain ⟨f, hf, hr⟩ := hr
    split at hr
    · rename_i hc
      obtain rfl : _ = r := Except.ok.inj hr
      refine ⟨?_, ?_⟩
      · simp [List.filter_map, Function.comp_def]
      · intro n a ha
        simp only [List.mem_map, List.mem_filter, Prod.mk.injEq] at ha
        obtain ⟨p, ⟨hp, -⟩, rfl, rfl⟩ := ha
        refine ⟨p.2, hp, ?_⟩
        have h' : Timed.axis (⟨p.2, x.axes⟩ : Timed (DA (Fl ℝ))) tc = .ok ax := hax
        simp only [annualCycle, h', hf, ok_bind]
        rw [if_pos hc]
        rfl
    · simp at hr
  · intro b hb
    have hv := v2 hb
    have h' : Timed.axis (⟨b, x.axes⟩ : Timed (DA (Fl ℝ))) tc = x.axis tc := rfl
    unfold annualCycleDS annualCycle
    rw [h', hv]
    cases x.axis tc with
    | error e => simp
    | ok ax =>
      simp only [ok_bind]
      cases cycleFunc func with
      | error e => simp
      | ok f =>
        simp only [ok_bind]
        by_cases hc : ((groupKeys ax.months).length == 12) = true
        · rw [if_pos hc, if_pos hc]
          exact ⟨fun _ => ⟨_, rfl⟩, fun _ => ⟨_, rfl⟩⟩
        · rw [if_neg hc, if_neg hc]
          simp
  · intro ax hax hne h
    unfold annualCycleDS
    have h1 : x.axis tc = .ok ax := axis_ok hax hne
    rw [h1, ok_bind, v3 (by
      rintro ⟨p, h1, h2, h3, h4, h5⟩
      exact h p h1 h2 h3 h4 h5), error_bind]

section examples

/-- Twelve months of one variable, and an object variable. -/
def exMonthlyDS : Timed (DS (Fl ℚ)) :=
  ⟨⟨[("v", exMonthly.obj), ("label", ⟨[("time", 12)], fun _ => Fl.nan⟩)], []⟩, exMonthly.axes⟩

/-- The numeric variable is averaged, the other one dropped. -/
example : ∃ r, monthlyAverageDS exMonthlyDS (fun n => n == "label") "time" = .ok r ∧
    r.obj.vars.map Prod.fst = ["v"] := by
  obtain ⟨h1, h2, -⟩ := C41_dataset exMonthlyDS (fun n => n == "label") "time"
  obtain ⟨r, hr⟩ := (h2 exMonthly.obj ⟨("v", exMonthly.obj), by simp [exMonthlyDS], by decide,
    by decide, rfl, by decide⟩).2 ((C41_complete (x := exMonthly) (ax := exAxis) (tc := "time") rfl
      exAxis_good).1 (fun s hs m h1 h2 => by
      have hy : ∀ s ∈ exAxis.stamps, s.date.year = 2004 := by decide
      rw [hy s hs]
      have : ∀ m < 13, 1 ≤ m → ∃ s' ∈ exAxis.stamps, s'.date.year = 2004 ∧ s'.date.month = m := by
        decide
      exact this m (by omega) h1))
  refine ⟨r, hr, ?_⟩
  rw [(h1 r hr).1]
  decide

/-- Without the numeric variable there is nothing to average. -/
example : monthlyAverageDS (⟨⟨[("label", ⟨[("time", 12)], fun _ => Fl.nan⟩)], []⟩,
    exMonthly.axes⟩ : Timed (DS (Fl ℚ))) (fun n => n == "label") "time" = .error .keyError := by
  refine (C41_dataset _ _ _).2.2 exAxis rfl (by decide) ?_
  intro p hp
  obtain rfl : p = _ := List.mem_singleton.1 hp
  intro _ _ h
  simp at h

/-- A dataset with a year of constant real values. -/
noncomputable def exCycleDS : Timed (DS (Fl ℝ)) :=
  ⟨⟨[("v", ⟨[("time", 12)], fun _ => Fl.fin 1⟩)], []⟩, exMonthly.axes⟩

example : annualCycleDS exCycleDS (fun _ => true) "time" "max" none = .error .keyError := by
  refine (C40_dataset _ _ _ _ _).2.2 exAxis rfl (by decide) ?_
  intro p _ _ _ h
  simp at h

example : ∃ r, annualCycleDS exCycleDS (fun _ => false) "time" "max" none = .ok r ∧
    r.obj.vars.map Prod.fst = ["v"] := by
  obtain ⟨h1, h2, -⟩ := C40_dataset exCycleDS (fun _ => false) "time" "max" none
  obtain ⟨r, hr⟩ := (h2 ⟨[("time", 12)], fun _ => Fl.fin 1⟩ ⟨_, List.mem_singleton_self _, by
    simp [exCycleDS, DS.dimNames, DA.dimNames], by simp [exCycleDS], rfl, by simp [DA.dimNames]⟩).2
    ⟨_, rfl⟩
  refine ⟨r, hr, ?_⟩
  rw [(h1 r hr).1]
  simp [exCycleDS, DS.dimNames, DA.dimNames]

/-- `C38_dataset_success`: the dataset is averaged, and without its numeric variable refused. -/
example : (∃ r, annualAverageDS exMonthlyDS (fun n => n == "label") "time" = .ok r) ∧
    annualAverageDS (⟨⟨[("label", ⟨[("time", 12)], fun _ => Fl.nan⟩)], []⟩, exMonthly.axes⟩ : Timed (DS (Fl ℚ)))
      (fun n => n == "label") "time" = .error .keyError := by
  refine ⟨((C38_dataset_success exMonthlyDS (fun n => n == "label") "time").1 exMonthly.obj
    ⟨("v", exMonthly.obj), by simp [exMonthlyDS], by decide, by decide, rfl, by decide⟩).2 exMonthly_ok, ?_⟩
  refine (C38_dataset_success _ _ _).2 exAxis rfl (by decide) ?_
  intro p hp
  obtain rfl : p = _ := List.mem_singleton.1 hp
  intro _ _ h
  simp at h

end examples

end Momlevel.Props
