import Verif.Model.Validate
import Verif.Spec.Validate
import Verif.Lemmas.Sum
import Mathlib.Tactic.NormNum.OfScientific
import Mathlib.Tactic.Linarith

/-! # C34, C35, C36, C37: input validation -/

set_option linter.unusedSectionVars false

namespace Momlevel.Props
open Momlevel Momlevel.Fl

variable {K : Type} [Field K] [LinearOrder K] [IsStrictOrderedRing K]

/-! ## C34 -/

/-- Number of dimensions of a variable of a dataset, `none` if it is absent. -/
def rankOf (d : DS (Fl K)) (v : String) : Option Nat := (d.vars.lookup v).map (fun a => a.dims.length)

theorem lookup_none_iff {V : Type*} (l : List (String × V)) (v : String) :
    l.lookup v = none ↔ v ∉ l.map Prod.fst := by
  induction l with
  | nil => simp
  | cons p l ih =>
    rw [List.lookup_cons, List.map_cons, List.mem_cons, not_or]
    by_cases h : v = p.1
    · simp [h]
    · have : (v == p.1) = false := by simpa using h
      rw [this]
      simpa [h] using ih

theorem contains_names (d : DS (Fl K)) (v : String) :
    d.names.contains v = (rankOf d v).isSome := by
  have := lookup_none_iff d.vars v
  unfold rankOf DS.names
  cases h : d.vars.lookup v with
  | none =>
    rw [h] at this
    simpa using this.1 rfl
  | some a =>
    rw [h] at this
    have hm : v ∈ d.vars.map Prod.fst := by
      by_contra hc; exact absurd (this.2 hc) (by simp)
    simpa using hm

theorem rank_eq (d : DS (Fl K)) (v : String) :
    ((d.vars.lookup v).map DA.ndim).getD 0 = (rankOf d v).getD 0 := rfl

/-- Names that must be present, as seen by a caller. -/
def extraVars : VarsArg → List String
  | .none => []
  | .list l => l
  | .one s => [s]

/-- The variables a caller must supply. -/
def requiredVars (reference : Bool) (av : VarsArg) : List String :=
  ["thetao", "so", "volcello", "areacello"] ++ extraVars av ++
    (if reference then ["rho", "volo", "masso", "rhoga"] else [])

/-- When each message is due. -/
def Problem (d : DS (Fl K)) (reference strict : Bool) (av : VarsArg) : ValErr → Prop
  | .timeCoord => False
  | .missingVars => ∃ v ∈ requiredVars reference av, rankOf d v = none
  | .rank3d v => v ∈ ["thetao", "so", "volcello"] ∧
      ∃ k, rankOf d v = some k ∧ k ≠ (if reference then 3 else 4)
  | .rank2d v => v ∈ ["areacello", "deptho"] ∧ ∃ k, rankOf d v = some k ∧ k ≠ 2
  | .area => strict = true ∧ ∃ a, d.vars.lookup "areacello" = some a ∧ validateAreacello a = false
  | .rhoRank => reference = true ∧ ∃ k, rankOf d "rho" = some k ∧ k ≠ 3
  | .notScalar v => reference = true ∧ v ∈ ["masso", "volo", "rhoga"] ∧
      ∃ k, rankOf d v = some k ∧ k ≠ 0

theorem rank_ne_iff (o : Option Nat) (n : Nat) :
    (o.isSome && o.getD 0 != n) = true ↔ ∃ k, o = some k ∧ k ≠ n := by
  cases o <;> simp

/-- All problems are reported together: a message is collected exactly when its problem is present,
whatever else is wrong. The time-coordinate problem is never reported. -/
theorem C34_reports_all (d : DS (Fl K)) (reference strict : Bool) (av : VarsArg) (x : ValErr) :
    x ∈ validateErrors d reference strict av ↔ Problem d reference strict av x := by
  have htime : (d.coords.map (fun x => PyObj.lowerMethod x)).contains (PyObj.str "time") = false := by
    simp
  have hav : av.toList = extraVars av := by cases av <;> rfl
  have hexp : (if reference = true then
      ["thetao", "so", "volcello", "areacello"] ++ extraVars av ++ ["rho", "volo", "masso", "rhoga"]
      else ["thetao", "so", "volcello", "areacello"] ++ extraVars av) = requiredVars reference av := by
    cases reference <;> simp [requiredVars]
  simp only [validateErrors, htime, Bool.and_false, Bool.false_eq_true, if_false, List.nil_append,
    rank_eq, contains_names, hav, hexp]
  have hmiss : ∀ v, reference = true → v ∈ ["rho", "volo", "masso", "rhoga"] →
      (!((requiredVars reference av).filter (fun v => !(rankOf d v).isSome)).contains v)
        = (rankOf d v).isSome := by
    intro v hr hv
    have hm : v ∈ requiredVars reference av := by
      unfold requiredVars
      rw [if_pos hr]
      exact List.mem_append_right _ hv
    cases h : rankOf d v with
    | none => simp [h, hm]
    | some k => simp [h]
  have hlen : ∀ l : List String, (if (l.length == 0) = true then [] else [ValErr.missingVars])
      = if l = [] then [] else [ValErr.missingVars] := by
    intro l; cases l <;> simp
  rw [hlen]
  simp only [List.mem_append]
  have e2 : x ∈ (if (requiredVars reference av).filter (fun v => !(rankOf d v).isSome) = [] then []
      else [ValErr.missingVars]) ↔ x = .missingVars ∧ ∃ v ∈ requiredVars reference av, rankOf d v = none := by
    by_cases h : (requiredVars reference av).filter (fun v => !(rankOf d v).isSome) = []
    · rw [if_pos h]
      rw [List.filter_eq_nil_iff] at h
      constructor
      · intro h'; simp at h'
      · rintro ⟨-, v, hv, hr⟩
        have := h v hv
        simp [hr] at this
    · rw [if_neg h, List.mem_singleton]
      obtain ⟨v, hv⟩ := List.exists_mem_of_ne_nil _ h
      rw [List.mem_filter] at hv
      exact ⟨fun hx => ⟨hx, v, hv.1, by simpa using hv.2⟩, fun hx => hx.1⟩
  have e3 : x ∈ (["thetao", "so", "volcello"].filter (fun v => (rankOf d v).isSome &&
      (rankOf d v).getD 0 != if reference = true then 3 else 4)).map ValErr.rank3d ↔
      ∃ v, x = .rank3d v ∧ v ∈ ["thetao", "so", "volcello"] ∧
        ∃ k, rankOf d v = some k ∧ k ≠ (if reference then 3 else 4) := by
    simp only [List.mem_map, List.mem_filter, rank_ne_iff]
    exact ⟨fun ⟨v, h, e⟩ => ⟨v, e.symm, h⟩, fun ⟨v, e, h⟩ => ⟨v, h, e.symm⟩⟩
  have e4 : x ∈ (["areacello", "deptho"].filter (fun v => (rankOf d v).isSome &&
      (rankOf d v).getD 0 != 2)).map ValErr.rank2d ↔
      ∃ v, x = .rank2d v ∧ v ∈ ["areacello", "deptho"] ∧ ∃ k, rankOf d v = some k ∧ k ≠ 2 := by
    simp only [List.mem_map, List.mem_filter, rank_ne_iff]
    exact ⟨fun ⟨v, h, e⟩ => ⟨v, e.symm, h⟩, fun ⟨v, e, h⟩ => ⟨v, h, e.symm⟩⟩
  have e5 : x ∈ areaErrors (d.vars.lookup "areacello") strict ↔ x = .area ∧ strict = true ∧
      ∃ a, d.vars.lookup "areacello" = some a ∧ validateAreacello a = false := by
    unfold areaErrors
    cases h : d.vars.lookup "areacello" with
    | none => simp
    | some a => cases h1 : validateAreacello a <;> cases strict <;> simp [h1]
  have e6 : x ∈ (if (reference &&
      !((requiredVars reference av).filter (fun v => !(rankOf d v).isSome)).contains "rho" &&
      (rankOf d "rho").getD 0 != 3) = true then [ValErr.rhoRank] else []) ↔
      x = .rhoRank ∧ reference = true ∧ ∃ k, rankOf d "rho" = some k ∧ k ≠ 3 := by
    cases hr : reference
    · simp
    · rw [hr] at hmiss
      rw [Bool.true_and, hmiss "rho" rfl (by simp)]
      by_cases h : ((rankOf d "rho").isSome && (rankOf d "rho").getD 0 != 3) = true
      · rw [if_pos h]
        have := (rank_ne_iff _ _).1 h
        simp only [List.mem_singleton, true_and]
        exact ⟨fun hx => ⟨hx, this⟩, fun hx => hx.1⟩
      · rw [if_neg h]
        rw [rank_ne_iff] at h
        constructor
        · intro h'; simp at h'
        · intro h'; exact absurd h'.2.2 h
  have e7 : x ∈ (if reference = true then (["masso", "volo", "rhoga"].filter (fun v =>
      !((requiredVars reference av).filter (fun v => !(rankOf d v).isSome)).contains v &&
      (rankOf d v).getD 0 != 0)).map ValErr.notScalar else []) ↔
      ∃ v, x = .notScalar v ∧ reference = true ∧ v ∈ ["masso", "volo", "rhoga"] ∧
        ∃ k, rankOf d v = some k ∧ k ≠ 0 := by
    cases hr : reference
    · simp
    · rw [hr] at hmiss
      have : ["masso", "volo", "rhoga"].filter (fun v =>
          !((requiredVars true av).filter (fun v => !(rankOf d v).isSome)).contains v &&
          (rankOf d v).getD 0 != 0) = ["masso", "volo", "rhoga"].filter (fun v =>
            (rankOf d v).isSome && (rankOf d v).getD 0 != 0) := by
        refine List.filter_congr (fun v hv => ?_)
        rw [hmiss v rfl ((by decide : ∀ v ∈ ["masso", "volo", "rhoga"],
          v ∈ ["rho", "volo", "masso", "rhoga"]) v hv)]
      rw [if_pos rfl, this]
      simp only [List.mem_map, List.mem_filter, rank_ne_iff]
      exact ⟨fun ⟨v, h, e⟩ => ⟨v, e.symm, trivial, h⟩, fun ⟨v, e, _, h⟩ => ⟨v, h, e.symm⟩⟩
  rw [e2, e3, e4, e5, e6, e7]
  cases x <;> simp [Problem]

/-- `validate_dataset` returns normally exactly on the valid datasets (and otherwise raises
ValueError), for every dataset, both kinds and both strictness settings. -/
theorem C34_iff (d : DS (Fl K)) (reference strict : Bool) (av : VarsArg) :
    (validateDataset d reference strict av = .ok () ↔
      Spec.ValidDataset (rankOf d)
        (∃ a, d.vars.lookup "areacello" = some a ∧ validateAreacello a = true) reference strict
        (extraVars av)) ∧
    (validateDataset d reference strict av = .ok () ∨
      validateDataset d reference strict av = .error .valueError) := by
  constructor
  · have h0 : validateDataset d reference strict av = .ok () ↔
        ∀ x, ¬ Problem d reference strict av x := by
      unfold validateDataset
      simp only [← C34_reports_all]
      by_cases h : validateErrors d reference strict av = []
      · simp [h]
      · simp only [List.length_pos_iff.2 h, if_true, reduceCtorEq, false_iff]
        obtain ⟨x, hx⟩ := List.exists_mem_of_ne_nil _ h
        exact fun hc => hc x hx
    rw [h0]
    have hsome : ∀ v, rankOf d v ≠ none → ∀ n, ¬ (∃ k, rankOf d v = some k ∧ k ≠ n) →
        rankOf d v = some n := by
      intro v hv n h
      obtain ⟨k, hk⟩ := Option.ne_none_iff_exists'.1 hv
      by_cases hkn : k = n
      · rw [hk, hkn]
      · exact absurd ⟨k, hk, hkn⟩ h
    constructor
    · intro h
      have hm : ∀ v ∈ requiredVars reference av, rankOf d v ≠ none :=
        fun v hv hr => h .missingVars ⟨v, hv, hr⟩
      refine ⟨fun v hv => ?_, ?_, ?_, ?_, ?_, ?_⟩
      · refine hsome v (hm v ?_) _ (fun hk => h (.rank3d v) ⟨hv, hk⟩)
        exact List.mem_append_left _ (List.mem_append_left _
          ((by decide : ∀ v ∈ ["thetao", "so", "volcello"],
            v ∈ ["thetao", "so", "volcello", "areacello"]) v hv))
      · exact hsome _ (hm _ (by simp [requiredVars])) _ (fun hk => h (.rank2d _) ⟨by simp, hk⟩)
      · intro r hr
        by_contra hne
        exact h (.rank2d "deptho") ⟨by simp, r, hr, hne⟩
      · exact fun v hv => hm v (by simp [requiredVars, hv])
      · intro hs
        have h1 := hm "areacello" (by simp [requiredVars])
        unfold rankOf at h1
        cases ha : d.vars.lookup "areacello" with
        | none => rw [ha] at h1; exact absurd rfl h1
        | some a =>
          refine ⟨a, rfl, ?_⟩
          by_contra hb
          exact h .area ⟨hs, a, ha, by simpa using hb⟩
      · intro hr
        refine ⟨hsome _ (hm _ (by simp [requiredVars, hr])) _ (fun hk => h .rhoRank ⟨hr, hk⟩),
          fun v hv => hsome _ (hm _ ?_) _ (fun hk => h (.notScalar v) ⟨hr, hv, hk⟩)⟩
        rw [requiredVars, if_pos hr]
        exact List.mem_append_right _ ((by decide : ∀ v ∈ ["masso", "volo", "rhoga"],
          v ∈ ["rho", "volo", "masso", "rhoga"]) v hv)
    · rintro ⟨h1, h2, h3, h4, h5, h6⟩ x
      cases x with
      | timeCoord => exact id
      | missingVars =>
        rintro ⟨v, hv, hr⟩
        simp only [requiredVars, List.mem_append] at hv
        rcases hv with (hv | hv) | hv
        · simp only [List.mem_cons, List.not_mem_nil, or_false] at hv
          rcases hv with rfl | rfl | rfl | rfl
          · rw [h1 _ (by simp)] at hr; cases hr
          · rw [h1 _ (by simp)] at hr; cases hr
          · rw [h1 _ (by simp)] at hr; cases hr
          · rw [h2] at hr; cases hr
        · exact h4 v hv hr
        · by_cases href : reference = true
          · rw [if_pos href] at hv
            simp only [List.mem_cons, List.not_mem_nil, or_false] at hv
            rcases hv with rfl | rfl | rfl | rfl
            · rw [(h6 href).1] at hr; cases hr
            · rw [(h6 href).2 _ (by simp)] at hr; cases hr
            · rw [(h6 href).2 _ (by simp)] at hr; cases hr
            · rw [(h6 href).2 _ (by simp)] at hr; cases hr
          · rw [if_neg href] at hv; simp at hv
      | rank3d v =>
        rintro ⟨hv, k, hk, hne⟩
        rw [h1 v hv] at hk
        exact hne (Option.some.inj hk).symm
      | rank2d v =>
        rintro ⟨hv, k, hk, hne⟩
        simp only [List.mem_cons, List.not_mem_nil, or_false] at hv
        rcases hv with rfl | rfl
        · rw [h2] at hk; exact hne (Option.some.inj hk).symm
        · exact hne (h3 k hk)
      | area =>
        rintro ⟨hs, a, ha, hb⟩
        obtain ⟨a', ha', hb'⟩ := h5 hs
        rw [ha] at ha'
        cases ha'
        rw [hb] at hb'
        cases hb'
      | rhoRank =>
        rintro ⟨hr, k, hk, hne⟩
        rw [(h6 hr).1] at hk
        exact hne (Option.some.inj hk).symm
      | notScalar v =>
        rintro ⟨hr, hv, k, hk, hne⟩
        rw [(h6 hr).2 v hv] at hk
        exact hne (Option.some.inj hk).symm
  · unfold validateDataset
    split <;> simp

/-- The documented defaults: an input (not reference) dataset, strict, nothing additional. -/
theorem C34_defaults (d : DS (Fl K)) : validateDataset d = validateDataset d false true .none := rfl

/-- "Reference dataset cannot contain a time coordinate" is never enforced: the verdict does not
depend on the coordinates at all. -/
theorem C34_time_coordinate_undetected (vars : List (String × DA (Fl K))) (c c' : List String)
    (reference strict : Bool) (av : VarsArg) :
    validateDataset ⟨vars, c⟩ reference strict av = validateDataset ⟨vars, c'⟩ reference strict av := by
  classical
  have h : ∀ c, validateDataset (⟨vars, c⟩ : DS (Fl K)) reference strict av
      = if Spec.ValidDataset (rankOf (⟨vars, []⟩ : DS (Fl K)))
        (∃ a, vars.lookup "areacello" = some a ∧ validateAreacello a = true) reference strict
        (extraVars av) then .ok () else .error .valueError := by
    intro c
    obtain ⟨h1, h2⟩ := C34_iff (⟨vars, c⟩ : DS (Fl K)) reference strict av
    split
    · rename_i hv; exact h1.2 hv
    · rename_i hv
      rcases h2 with h2 | h2
      · exact absurd (h1.1 h2) hv
      · exact h2
  rw [h c, h c']

/-- A reference dataset with a time coordinate that passes: the documented check fails. -/
def refWithTime : DS (Fl ℚ) where
  vars := [("thetao", ⟨[("z_l", 2), ("yh", 2), ("xh", 2)], fun _ => fin 10⟩),
    ("so", ⟨[("z_l", 2), ("yh", 2), ("xh", 2)], fun _ => fin 35⟩),
    ("volcello", ⟨[("z_l", 2), ("yh", 2), ("xh", 2)], fun _ => fin 1⟩),
    ("areacello", ⟨[("yh", 1), ("xh", 1)], fun _ => fin 361110920000000⟩),
    ("rho", ⟨[("z_l", 2), ("yh", 2), ("xh", 2)], fun _ => fin 1000⟩),
    ("volo", DA.scalar (fin 8)), ("masso", DA.scalar (fin 8000)), ("rhoga", DA.scalar (fin 1000)),
    ("time", DA.scalar (fin 0))]
  coords := ["time"]

theorem C34_time_coordinate_counterexample :
    "time" ∈ refWithTime.coords ∧ validateDataset refWithTime true = .ok () := by
  refine ⟨by simp [refWithTime], ?_⟩
  decide +kernel

/-! ## C35 -/

/-- `validate_areacello` is True exactly when the total area (missing cells counting as zero) lies
strictly within `tolerance * reference` of the positive reference. -/
theorem C35_iff {a : DA (Fl K)} (hn : a.dimNames.Nodup) (hw : a.WF)
    (hf : ∀ e, a.InBounds e → FN (a.get e)) {ref tol : K} (href : 0 < ref) :
    validateAreacello a (fin ref) (fin tol) = true ↔
      |Spec.sumOver a.dims (fun e => val0 (a.get e)) (fun _ => 0) - ref| < tol * ref := by
  unfold validateAreacello
  simp only
  rw [DA.get_sumAll hn hw hf, fin_sub, fin_div_of_ne _ href.ne', abs_fin, lt_fin, decide_eq_true_iff,
    abs_div, abs_of_pos href, div_lt_iff₀ href]

/-- Default reference 3.6111092e14 m² and tolerance 2 %. -/
theorem C35_defaults (a : DA (Fl K)) :
    validateAreacello a = validateAreacello a (fin 361110920000000) (fin (1 / 50)) := by
  have h1 : (3.6111092e14 : Fl K) = fin 361110920000000 := by rw [ofSci]; norm_num
  have h2 : (0.02 : Fl K) = fin (1 / 50) := by rw [ofSci]; norm_num
  rw [← h1, ← h2]

/-- Only the total matters (permuting or splitting cells changes nothing). -/
theorem C35_total_only {a b : DA (Fl K)} (hn : a.dimNames.Nodup) (hw : a.WF)
    (hf : ∀ e, a.InBounds e → FN (a.get e)) (hn' : b.dimNames.Nodup) (hw' : b.WF)
    (hf' : ∀ e, b.InBounds e → FN (b.get e))
    (h : Spec.sumOver a.dims (fun e => val0 (a.get e)) (fun _ => 0)
      = Spec.sumOver b.dims (fun e => val0 (b.get e)) (fun _ => 0)) (ref tol : Fl K) :
    validateAreacello a ref tol = validateAreacello b ref tol := by
  unfold validateAreacello
  simp only
  rw [DA.get_sumAll hn hw hf, DA.get_sumAll hn' hw' hf', h]

/-- Missing cells count as zero area. -/
theorem C35_missing (a : DA (Fl K)) (ref tol : Fl K) :
    validateAreacello (a.map (fillna (fin 0))) ref tol = validateAreacello a ref tol := by
  unfold validateAreacello DA.sumAll nansum
  simp only
  congr 4
  unfold DA.vals
  rw [List.map_map, List.map_map]
  congr 1
  refine List.map_congr_left (fun e _ => ?_)
  simp only [Function.comp, DA.get_map]
  cases a.get e <;> rfl

/-- 2x2 field with one missing cell and a total 1 % below the reference passes. -/
example : ∃ a : DA (Fl ℚ), a.get (fun _ => 0) = nan ∧ validateAreacello a = true := by
  refine ⟨⟨[("yh", 2), ("xh", 2)],
    fun e => if e "yh" = 0 ∧ e "xh" = 0 then nan else fin 120370000000000⟩, by simp, ?_⟩
  decide +kernel

/-! ## C36 -/

/-- An acceptable coordinate argument for an array whose coordinates are `c`. -/
def GoodCoord (c : List String) : TgArg → Prop
  | .str s => s ∈ c
  | .dataArray _ => True
  | _ => False

/-- The decision of `validate_tidegauge_data`, for every kind of argument. -/
theorem C36_iff (arr xcoord ycoord mask : TgArg) :
    (validateTidegaugeData arr xcoord ycoord mask = .ok () ↔
      ∃ c, arr = .dataArray c ∧ GoodCoord c xcoord ∧ GoodCoord c ycoord ∧
        (mask = .none ∨ ∃ m, mask = .dataArray m)) ∧
    (validateTidegaugeData arr xcoord ycoord mask = .ok () ∨
      validateTidegaugeData arr xcoord ycoord mask = .error .assertionError) := by
  have hc : ∀ c x, (checkTgCoord c x = .ok () ∧ GoodCoord c x) ∨
      (checkTgCoord c x = .error .assertionError ∧ ¬ GoodCoord c x) := by
    intro c x
    cases x with
    | none => right; exact ⟨rfl, id⟩
    | other => right; exact ⟨rfl, id⟩
    | dataArray l => left; exact ⟨rfl, trivial⟩
    | str s =>
      by_cases h : s ∈ c
      · left; simp [checkTgCoord, GoodCoord, h]
      · right; simp [checkTgCoord, GoodCoord, h]
  cases arr with
  | none => simp [validateTidegaugeData, TgArg.isDataArray]
  | other => simp [validateTidegaugeData, TgArg.isDataArray]
  | str s => simp [validateTidegaugeData, TgArg.isDataArray]
  | dataArray c =>
    simp only [validateTidegaugeData, TgArg.isDataArray, pyAssert_true, ok_bind]
    rcases hc c xcoord with ⟨h1, g1⟩ | ⟨h1, g1⟩
    · rcases hc c ycoord with ⟨h2, g2⟩ | ⟨h2, g2⟩
      · rw [h1, h2]
        cases mask <;> simp [g1, g2, pure, Except.pure]
      · rw [h1, h2]; simp [g2]
    · rw [h1]; simp [g1]

example : validateTidegaugeData (.dataArray ["geolon", "geolat"]) (.str "geolon") (.dataArray [])
    .none = .ok () := by
  rw [(C36_iff _ _ _ _).1]
  exact ⟨_, rfl, by simp [GoodCoord], trivial, Or.inl rfl⟩

/-! ## C37 -/

/-- Each name is looked up on its own key, with the MOM6 default when the key is absent. -/
theorem C37_lookup (d : List (String × String)) :
    ∃ t z b, defaultCoords (.dict d) = .ok (t, z, b) ∧
      (∀ x, d.lookup "t" = some x → t = x) ∧ (d.lookup "t" = none → t = "time") ∧
      (∀ x, d.lookup "z" = some x → z = x) ∧ (d.lookup "z" = none → z = "z_l") ∧
      (∀ x, d.lookup "zbounds" = some x → b = x) ∧ (d.lookup "zbounds" = none → b = "z_i") := by
  refine ⟨_, _, _, rfl, ?_, ?_, ?_, ?_, ?_, ?_⟩ <;> intros <;> rename_i h <;> rw [h] <;> rfl

/-- Keys other than `t`, `z`, `zbounds` are irrelevant. -/
theorem C37_other_keys (d d' : List (String × String)) (ht : d.lookup "t" = d'.lookup "t")
    (hz : d.lookup "z" = d'.lookup "z") (hb : d.lookup "zbounds" = d'.lookup "zbounds") :
    defaultCoords (.dict d) = defaultCoords (.dict d') := by
  simp only [defaultCoords, ht, hz, hb]

/-- No dictionary: the MOM6 defaults.  Anything that is not a dictionary is rejected. -/
theorem C37_none : defaultCoords = .ok ("time", "z_l", "z_i") ∧ defaultCoords (.dict []) = defaultCoords ∧
    defaultCoords .other = .error .assertionError := ⟨rfl, rfl, rfl⟩

example : defaultCoords (.dict [("x", "lon"), ("z", "lev"), ("t", "t")]) = .ok ("t", "lev", "z_i") := rfl

/-- `C34_reports_all` and `C34_iff` on a dataset of one variable of one dimension: the missing ones and the rank are
both reported, and the dataset is refused; declaring a time coordinate changes nothing. -/
example : ValErr.missingVars ∈ validateErrors (⟨[("thetao", ⟨[("z_l", 2)], fun _ => fin 1⟩)], []⟩ : DS (Fl ℚ)) false true .none ∧
    ValErr.rank3d "thetao" ∈ validateErrors (⟨[("thetao", ⟨[("z_l", 2)], fun _ => fin 1⟩)], []⟩ : DS (Fl ℚ)) false true .none := by
  constructor <;> decide +kernel

example : validateDataset (⟨[("thetao", ⟨[("z_l", 2)], fun _ => fin 1⟩)], []⟩ : DS (Fl ℚ)) = .error .valueError ∧
    validateDataset (⟨[("thetao", ⟨[("z_l", 2)], fun _ => fin 1⟩)], ["time"]⟩ : DS (Fl ℚ)) = .error .valueError := by
  constructor <;> decide +kernel

/-- `C35_iff` on a field of two cells, one of them missing. -/
example : validateAreacello (⟨[("xh", 2)], fun e => if e "xh" = 0 then nan else fin 99⟩ : DA (Fl ℚ)) (fin 100)
    (fin (1 / 50)) = true ∧
    validateAreacello (⟨[("xh", 2)], fun e => if e "xh" = 0 then nan else fin 98⟩ : DA (Fl ℚ)) (fin 100)
    (fin (1 / 50)) = false := by
  constructor <;> decide +kernel

end Momlevel.Props
