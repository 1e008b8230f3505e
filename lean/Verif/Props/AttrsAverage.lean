import Verif.Model.AttrsAverage
import Verif.Props.Attrs

/-! # C153: attributes of monthly averages and climatologies -/

set_option linter.unusedSectionVars false

namespace Momlevel.Props

/-- What becomes of a Dataset's metadata when its attributes are not put back. -/
structure Carried (keep : Bool) (dims : List String → List String) (tc : String) (numeric : String → Bool)
    (x r : DSMeta) : Prop where
  /-- no global attributes -/
  glob : r.attrs = []
  /-- exactly the numeric variables, each with its own attributes if xarray keeps them -/
  vars : ∀ n m', (n, m') ∈ r.data ↔ numeric n = true ∧ ∃ m, (n, m) ∈ x.data ∧ m'.dims = dims m.dims ∧
    m'.attrs = (if keep = true then m.attrs else []) ∧ m'.encoding = []
  /-- there is a time coordinate, without attributes -/
  time : (∃ m', (tc, m') ∈ r.coords) ∧ ∀ m', (tc, m') ∈ r.coords → m'.dims = [tc] ∧ m'.attrs = []
  /-- the other coordinates are those that do not lie along time and come with a numeric variable; they
  are unchanged -/
  other : ∀ n m, n ≠ tc → ((n, m) ∈ r.coords ↔ (n, m) ∈ x.coords ∧ tc ∉ m.dims ∧
    ∃ v w, (v, w) ∈ x.data ∧ numeric v = true ∧ ∀ d ∈ m.dims, d ∈ w.dims)

theorem mem_dictSet_iff {α : Type} {l : List (String × α)} {k n : String} {v w : α} (hn : n ≠ k) :
    (n, w) ∈ dictSet l k v ↔ (n, w) ∈ l := by
  constructor
  · intro h
    rcases mem_dictSet h with ⟨h1, -⟩ | ⟨-, h1⟩
    · exact absurd h1 hn
    · exact h1
  · intro h
    unfold dictSet
    split_ifs with hc
    · exact List.mem_map.2 ⟨(n, w), h, by simp [hn]⟩
    · exact List.mem_append_left _ h

theorem groupMeta_carried (keep : Bool) (dims : List String → List String) (x : DSMeta) (numeric : String → Bool)
    (tc : String) : Carried keep dims tc numeric x (groupMeta keep dims (numericMeta x numeric) tc) := by
  refine ⟨rfl, fun n m' => ?_, ⟨⟨_, self_mem_dictSet _ _ _⟩, fun m' hm => ?_⟩, fun n m hn => ?_⟩
  · simp only [groupMeta, numericMeta, List.mem_map, List.mem_filter, Prod.mk.injEq, Prod.exists]
    constructor
    · rintro ⟨a, m, ⟨hm, hnum⟩, rfl, rfl⟩
      exact ⟨hnum, m, hm, rfl, rfl, rfl⟩
    · rintro ⟨hnum, m, hm, h1, h2, h3⟩
      refine ⟨n, m, ⟨hm, hnum⟩, rfl, ?_⟩
      cases m'
      simp only at h1 h2 h3
      simp [h1, h2, h3]
  · rcases mem_dictSet hm with ⟨-, rfl⟩ | ⟨h1, -⟩
    · exact ⟨rfl, rfl⟩
    · exact absurd rfl h1
  · simp only [groupMeta, numericMeta]
    rw [mem_dictSet_iff hn]
    simp only [List.mem_filter, List.any_eq_true, List.all_eq_true, List.contains_eq_mem, decide_eq_true_eq,
      Bool.not_eq_true', decide_eq_false_iff_not, Prod.exists]
    constructor
    · rintro ⟨⟨h1, v, w, ⟨h2, h3⟩, h4⟩, h5⟩
      exact ⟨h1, h5, v, w, h2, h3, h4⟩
    · rintro ⟨h1, h5, v, w, h2, h3, h4⟩
      exact ⟨⟨h1, v, w, ⟨h2, h3⟩, h4⟩, h5⟩

/-- C153 (monthly): `monthly_average` loses the global attributes and those of the time coordinate; variables keep
theirs if xarray's reductions do; time comes first. -/
theorem C153_monthly (keep : Bool) (x : DSMeta) (numeric : String → Bool) (tc : String) :
    Carried keep (fun ds => tc :: ds.filter (fun d => decide (d ≠ tc))) tc numeric x
      (monthlyMeta keep x numeric tc) := by
  have := groupMeta_carried keep (fun ds => tc :: ds.filter (· != tc)) x numeric tc
  have e : (fun ds : List String => tc :: ds.filter (fun d => decide (d ≠ tc)))
      = fun ds => tc :: ds.filter (· != tc) := by
    funext ds; congr 2; funext d; by_cases h : d = tc <;> simp [h]
  rw [e]; exact this

/-- C153 (climatology): the same for `annual_cycle`; dimensions stay in place. -/
theorem C153_cycle (keep : Bool) (x : DSMeta) (numeric : String → Bool) (tc : String) :
    Carried keep (fun ds => ds) tc numeric x (cycleMeta keep x numeric tc) :=
  groupMeta_carried keep id x numeric tc

/-- C153 (unlike annual averages): of a Dataset with global attributes, `annual_average` keeps them and
`monthly_average` and `annual_cycle` do not; annual averages of monthly averages have none either. -/
theorem C153_global (keep : Bool) (x : DSMeta) (numeric : String → Bool) (tc : String) :
    (annualMeta x numeric tc).attrs = x.attrs ∧ (monthlyMeta keep x numeric tc).attrs = [] ∧
    (cycleMeta keep x numeric tc).attrs = [] ∧ (annualMeta (monthlyMeta keep x numeric tc) numeric tc).attrs = [] :=
  ⟨rfl, rfl, rfl, rfl⟩

/-- C153 (time): the time coordinate of the annual averages of a Dataset has its attributes, but that of the annual
averages of its monthly averages has none. -/
theorem C153_time (keep : Bool) (x : DSMeta) (numeric : String → Bool) (m m' m'' : VarMeta)
    (hn : ((x.data ++ x.coords).map Prod.fst).Nodup) (h : ("time", m) ∈ x.coords) (hd : "time" ∈ m.dims)
    (h' : ("time", m') ∈ (annualMeta x numeric "time").coords)
    (h'' : ("time", m'') ∈ (annualMeta (monthlyMeta keep x numeric "time") numeric "time").coords) :
    m'.attrs = m.attrs ∧ m''.attrs = [] := by
  refine ⟨C88_partial x numeric m m' hn h hd h', ?_⟩
  set y := monthlyMeta keep x numeric "time" with hy
  have c := C153_monthly keep x numeric "time"
  have key : ∀ v : VarMeta, ("time", v) ∈ y.coords → v.attrs = [] := fun v hv => (c.time.2 v hv).2
  obtain ⟨v, hv, ha⟩ := annual_coords y numeric "time" "time" m'' h''
  have e0 : attrsOr y.coordAttrs "time" = [] := by
    unfold attrsOr
    cases hf : y.coordAttrs.lookup "time" with
    | none => rfl
    | some a =>
      have hm := lookup_mem hf
      simp only [DSMeta.coordAttrs, List.mem_map, Prod.mk.injEq, Prod.exists] at hm
      obtain ⟨n, w, h1, rfl, rfl⟩ := hm
      exact key w h1
  rw [ha, e0]
  simp

example : ((((exMeta "time").data ++ (exMeta "time").coords).map Prod.fst).Nodup) ∧ (exMeta "time").attrs ≠ [] ∧
    (monthlyMeta true (exMeta "time")).data = [("thetao", ⟨["time", "x"], [("units", "degC")], []⟩)] ∧
    (monthlyMeta false (exMeta "time")).data = [("thetao", ⟨["time", "x"], [], []⟩)] := by
  refine ⟨by simp [exMeta], by simp [exMeta], by simp [exMeta, monthlyMeta, groupMeta, numericMeta],
    by simp [exMeta, monthlyMeta, groupMeta, numericMeta]⟩

end Momlevel.Props
