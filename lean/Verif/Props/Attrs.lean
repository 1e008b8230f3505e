import Verif.Model.Attrs
import Verif.Spec.Attrs
import Verif.Lemmas.Trend
import Verif.Props.Vorticity
import Verif.Props.StericAnnual
import Verif.Props.StericSuccess
import Mathlib.Tactic.FinCases

/-! # C84–C89: attributes and encodings of results -/

set_option linter.unusedSectionVars false

namespace Momlevel.Props
open Momlevel Momlevel.Fl

/-! ## Dictionaries -/

theorem mergeGo_lookup {α : Type} (a b : Dict α) (k : String)
    (hb : (b.map Prod.fst).Nodup) :
    (dictMerge a b).lookup k = ((b.lookup k).or (a.lookup k)) := by
  induction b generalizing a with
  | nil => rfl
  | cons p b ih =>
    obtain ⟨k', v⟩ := p
    simp only [List.map_cons, List.nodup_cons] at hb
    have := ih (dictSet a k' v) hb.2
    simp only [dictMerge, List.foldl_cons] at this ⊢
    rw [this]
    by_cases hk : k = k'
    · subst hk
      have hn : b.lookup k = none := by
        rw [List.lookup_eq_none_iff]
        intro q hq
        have : k ≠ q.1 := fun h => hb.1 (h ▸ List.mem_map_of_mem hq)
        simpa using this
      rw [hn, lookup_dictSet_self]
      simp
    · rw [lookup_dictSet_ne _ _ hk, List.lookup_cons]
      have : (k == k') = false := by simpa using hk
      rw [this]

/-! ## C84: long_name and units -/

/-- Every function states units; every function except the Rossby radius and the wave speed gives a
`long_name`. -/
theorem C84_exact (c : Calc) :
    ((calcAttrs c).lookup "units").isSome ∧
    (Spec.Labelled (calcAttrs c) ↔ c ≠ .rossbyRd ∧ c ≠ .waveSpeed) := by
  cases c <;> simp [calcAttrs, Spec.Labelled, List.lookup]

/-- The full claim, that the result of every function has a `long_name` and `units`, is false: the
Rossby radius and the wave speed spell the key "long name". -/
theorem C84_counterexample : ¬ ∀ c, Spec.Labelled (calcAttrs c) := by
  intro h
  exact ((C84_exact .waveSpeed).2.1 (h _)).2 rfl

theorem C84_misspelt : ((calcAttrs .rossbyRd).lookup "long name").isSome ∧
    ((calcAttrs .waveSpeed).lookup "long name").isSome ∧
    ∀ c, c ≠ .rossbyRd → c ≠ .waveSpeed → (calcAttrs c).lookup "long name" = none := by
  refine ⟨by simp [calcAttrs], by simp [calcAttrs], fun c h1 h2 => ?_⟩
  cases c <;> simp_all [calcAttrs, List.lookup]

/-- Full statement: every result has a `long_name` and `units`; missing for the Rossby radius and the
wave speed. -/
theorem C84_partial (c : Calc) (h1 : c ≠ .rossbyRd) (h2 : c ≠ .waveSpeed) :
    Spec.Labelled (calcAttrs c) := (C84_exact c).2.2 ⟨h1, h2⟩

example : (Calc.pdens "2000.0" "Wright") ≠ .rossbyRd ∧ (Calc.pdens "2000.0" "Wright") ≠ .waveSpeed := by
  simp

/-- Which equation of state was used is written into the comment, spelled as passed. -/
theorem C84_eos (eos level : String) :
    (calcAttrs (.alpha eos)).lookup "comment"
      = some ("calculated with the " ++ eos ++ " equation of state") ∧
    (calcAttrs (.beta eos)).lookup "comment"
      = some ("calculated with the " ++ eos ++ " equation of state") ∧
    (calcAttrs (.rho eos)).lookup "comment"
      = some ("calculated with the " ++ eos ++ " equation of state") ∧
    (calcAttrs (.pdens level eos)).lookup "comment"
      = some ("calculated with the " ++ eos ++ " equation of state") :=
  ⟨rfl, rfl, rfl, rfl⟩

/-- The reference level is written into the name of the potential density. -/
theorem C84_level (eos level : String) :
    (calcAttrs (.pdens level eos)).lookup "long_name"
      = some ("Sea water potential density referenced to " ++ level ++ " m") := rfl

/-- Fields of the same kind carry the same units: `α` and `β` inverse degrees and inverse salinity,
the two densities and the mean density kg m⁻³, mass kg and volume m³ (so that mass over volume has the
units of the mean density), lengths m. -/
theorem C84_units (eos level : String) :
    (calcAttrs (.rho eos)).lookup "units" = some "kg m-3" ∧
    (calcAttrs (.pdens level eos)).lookup "units" = some "kg m-3" ∧
    (calcAttrs .rhoga).lookup "units" = some "kg m-3" ∧
    (calcAttrs .masso).lookup "units" = some "kg" ∧ (calcAttrs .volo).lookup "units" = some "m3" ∧
    (calcAttrs .rossbyRd).lookup "units" = some "m" ∧
    (calcAttrs .waveSpeed).lookup "units" = some "m s-1" ∧
    (calcAttrs .coriolis).lookup "units" = some "s-1" ∧
    (calcAttrs .relVort).lookup "units" = some "s-1" ∧
    (calcAttrs .n2).lookup "units" = some "s-2" ∧
    (calcAttrs .inverseBarometer).lookup "units" = some "m" ∧
    (calcAttrs .cellArea).lookup "units" = some "m2" ∧
    (calcAttrs (.alpha eos)).lookup "units" = some "degC-1" ∧
    (calcAttrs (.beta eos)).lookup "units" = some "PSU-1" := by
  simp [calcAttrs, List.lookup]

/-! ## C85: the unit string of potential vorticity -/

section PV
variable {K : Type} [Field K] [LinearOrder K] [IsStrictOrderedRing K]

/-- The numbers of `units="cm"` times the unit they are labelled with are `10²⁸` times the absolute
value of the potential vorticity in `m⁻¹ s⁻¹`: the data are multiplied by `10¹⁴`, and the unit string
multiplies once more instead of dividing. -/
theorem C85_cm (zeta f n2 : DA (Fl K)) (g : Fl K) (cd : Option (List (String × String)))
    (s i : Bool) {r c : DA (Fl K)} (hr : calcPv zeta f n2 g cd s "m" i = .ok r)
    (hc : calcPv zeta f n2 g cd s "cm" i = .ok c) {e : Env} {x : K} (hx : r.get e = fin x) :
    ∃ y u, c.get e = fin y ∧ ((calcAttrs (.pv true)).lookup "units").bind Spec.perMetreSecond = some u ∧
      y * (u : K) = 10 ^ 28 * |x| := by
  obtain ⟨c', h1, -, h2⟩ := (C17_cm zeta f n2 g cd s i).2 r hr
  rw [hc] at h1
  cases h1
  refine ⟨_, _, (h2 e).2 x hx, by simp [calcAttrs, List.lookup, Spec.perMetreSecond]; rfl, ?_⟩
  push_cast
  ring

/-- Full statement: for both choices of units the numbers, in the unit they are labelled with, are the
potential vorticity `(ζ + f) N² / g` (or its absolute value) in `m⁻¹ s⁻¹`.  Missing: `units="cm"`, see
`C85_cm`; here without interpolation, see C17 for the other case. -/
theorem C85_partial (zeta f n2 : DA (Fl K)) (g : K) (hg : g ≠ 0) (cd : Option (List (String × String)))
    (s : Bool) : ∃ r u, calcPv zeta f n2 (fin g) cd s "m" false = .ok r ∧
      ((calcAttrs (.pv false)).lookup "units").bind Spec.perMetreSecond = some u ∧
      ∀ e a b c, zeta.get e = fin a → f.get e = fin b → n2.get e = fin c →
        ∃ y, r.get e = fin y ∧ y * (u : K) = (a + b) * c / g := by
  obtain ⟨r, h1, -, h2⟩ := C17_no_interp zeta f n2 g hg cd s
  refine ⟨r, 1, h1, by simp [calcAttrs, List.lookup, Spec.perMetreSecond], fun e a b c ha hb hc => ?_⟩
  exact ⟨_, h2 e a b c ha hb hc, by simp⟩

end PV

/-- One point, `(ζ + f) N² / g = 1`. -/
def exOne : DA (Fl ℚ) := DA.scalar (fin 1)
def exZero : DA (Fl ℚ) := DA.scalar (fin 0)

theorem exPv : ∃ r, calcPv exOne exZero exOne (fin 1) none false "m" false = .ok r ∧
    r.get (fun _ => 0) = fin 1 := by
  obtain ⟨r, h1, -, h2⟩ := C17_no_interp exOne exZero exOne (1 : ℚ) one_ne_zero none false
  exact ⟨r, h1, by rw [h2 _ 1 0 1 rfl rfl rfl]; norm_num⟩

theorem C85_counterexample : ¬ ∀ (zeta f n2 : DA (Fl ℚ)) (g : Fl ℚ)
    (cd : Option (List (String × String))) (s i : Bool) (r c : DA (Fl ℚ)) (e : Env) (x y u : ℚ),
    calcPv zeta f n2 g cd s "m" i = .ok r → calcPv zeta f n2 g cd s "cm" i = .ok c →
    r.get e = fin x → c.get e = fin y →
    ((calcAttrs (.pv true)).lookup "units").bind Spec.perMetreSecond = some u → y * u = |x| := by
  intro h
  obtain ⟨r, hr, hx⟩ := exPv
  obtain ⟨c, hc, -, -⟩ := (C17_cm _ _ _ _ _ _ _).2 r hr
  obtain ⟨y, u, hy, hu, hyu⟩ := C85_cm _ _ _ _ _ _ _ hr hc hx
  have := h _ _ _ _ _ _ _ r c _ 1 y u hr hc hx hy hu
  simp only [Rat.cast_id, abs_one, mul_one] at hyu this
  rw [this] at hyu
  norm_num at hyu

/-! ## C86: attributes of `adjust_negative_n2` -/

/-- The comment says that an adjustment was made; every other attribute is kept; a comment that was
there before is lost; doing it twice is the same as once. -/
theorem C86_attrs (attrs : Dict String) :
    (adjustN2Attrs attrs).lookup "comment" = some "adjustment applied for negative values" ∧
    (∀ k, k ≠ "comment" → (adjustN2Attrs attrs).lookup k = attrs.lookup k) ∧
    ∀ k, (adjustN2Attrs (adjustN2Attrs attrs)).lookup k = (adjustN2Attrs attrs).lookup k := by
  have key : ∀ a k, (adjustN2Attrs a).lookup k
      = if k = "comment" then some "adjustment applied for negative values" else a.lookup k := by
    intro a k
    rw [adjustN2Attrs, mergeGo_lookup _ _ _ (by simp)]
    by_cases hk : k = "comment"
    · subst hk; simp [List.lookup]
    · have : (k == "comment") = false := by simpa using hk
      simp [List.lookup, this, hk]
  refine ⟨by simp [key], fun k hk => by simp [key, hk], fun k => ?_⟩
  rw [key, key attrs]
  split_ifs <;> rfl

/-- `calc_n2` labels its result in both cases, and says when it was adjusted. -/
theorem C86_n2 (adj : Bool) : Spec.Labelled (calcN2Attrs adj) ∧
    ((calcN2Attrs adj).lookup "comment" = some "adjustment applied for negative values" ↔ adj = true) := by
  cases adj
  · simp [calcN2Attrs, calcAttrs, Spec.Labelled, List.lookup]
  · obtain ⟨h1, h2, -⟩ := C86_attrs (calcAttrs .n2)
    simp only [calcN2Attrs, if_true, Spec.Labelled, h1, h2 "long_name" (by simp),
      h2 "units" (by simp)]
    simp [calcAttrs, List.lookup]

example : (adjustN2Attrs [("units", "s-2"), ("comment", "from the model")]).lookup "units" = some "s-2" :=
  ((C86_attrs _).2.1 _ (by simp)).trans rfl

/-! ## C88: attributes after `annual_average` -/

theorem lookup_of_mem_nodup {α : Type} {l : List (String × α)} {k : String} {v : α}
    (hn : (l.map Prod.fst).Nodup) (h : (k, v) ∈ l) : l.lookup k = some v := by
  induction l with
  | nil => cases h
  | cons p l ih =>
    simp only [List.map_cons, List.nodup_cons] at hn
    rcases List.mem_cons.1 h with rfl | h
    · simp
    · have : (k == p.1) = false := by
        simpa using fun (e : k = p.1) => hn.1 (e ▸ List.mem_map_of_mem h)
      rw [List.lookup_cons, this]
      exact ih hn.2 h

theorem attrsOr_of_mem {l : List (String × VarMeta)} {k : String} {m : VarMeta}
    (hn : (l.map Prod.fst).Nodup) (h : (k, m) ∈ l) :
    attrsOr (l.map (fun p => (p.1, p.2.attrs))) k = m.attrs := by
  have : (l.map (fun p => (p.1, p.2.attrs))).lookup k = some m.attrs :=
    lookup_of_mem_nodup (by rw [List.map_map]; exact hn) (List.mem_map.2 ⟨(k, m), h, rfl⟩)
  rw [attrsOr, this]; rfl

theorem mem_dictSet {α : Type} {l : List (String × α)} {k k' : String} {v w : α}
    (h : (k', w) ∈ dictSet l k v) : (k' = k ∧ w = v) ∨ (k' ≠ k ∧ (k', w) ∈ l) := by
  unfold dictSet at h
  split_ifs at h with hc
  · obtain ⟨p, hp, hpe⟩ := List.mem_map.1 h
    split_ifs at hpe with hk
    · exact Or.inl ⟨(congrArg Prod.fst hpe).symm, (congrArg Prod.snd hpe).symm⟩
    · subst hpe; exact Or.inr ⟨hk, hp⟩
  · rcases List.mem_append.1 h with h' | h
    · refine Or.inr ⟨?_, h'⟩
      rintro rfl
      exact hc (by simpa using ⟨w, h'⟩)
    · simp only [List.mem_singleton, Prod.mk.injEq] at h
      exact Or.inl h

theorem self_mem_dictSet {α : Type} (l : List (String × α)) (k : String) (v : α) :
    (k, v) ∈ dictSet l k v := by
  unfold dictSet
  split_ifs with hc
  · simp only [List.contains_eq_mem, List.mem_map, Prod.exists, exists_and_right, exists_eq_right,
      decide_eq_true_eq] at hc
    obtain ⟨w, hw⟩ := hc
    exact List.mem_map.2 ⟨(k, w), hw, by simp⟩
  · simp

/-- The averaged variables keep their attributes, have the dimension "time" instead of the averaged
one and lose their encoding; the global attributes are kept. -/
theorem C88_variables (x : DSMeta) (numeric : String → Bool) (tc : String)
    (hn : ((x.data ++ x.coords).map Prod.fst).Nodup) :
    (annualMeta x numeric tc).attrs = x.attrs ∧
    ∀ n m', (n, m') ∈ (annualMeta x numeric tc).data ↔
      numeric n = true ∧ ∃ m, (n, m) ∈ x.data ∧
        m' = ⟨"time" :: m.dims.filter (· != tc), m.attrs, []⟩ := by
  refine ⟨rfl, fun n m' => ?_⟩
  simp only [annualMeta, restoreAttrs, annualReduceMeta, setAttrs, if_true, List.map_map,
    List.mem_map, List.mem_filter, Function.comp_apply, Prod.mk.injEq, Prod.exists]
  constructor
  · rintro ⟨a, m, ⟨hm, hnum⟩, rfl, rfl⟩
    refine ⟨hnum, m, hm, ?_⟩
    rw [DSMeta.varAttrs, attrsOr_of_mem hn (List.mem_append_left _ hm)]
  · rintro ⟨hnum, m, hm, rfl⟩
    refine ⟨n, m, ⟨hm, hnum⟩, rfl, ?_⟩
    rw [DSMeta.varAttrs, attrsOr_of_mem hn (List.mem_append_left _ hm)]

theorem annual_coords (x : DSMeta) (numeric : String → Bool) (tc : String) (n : String) (m' : VarMeta)
    (h : (n, m') ∈ (annualMeta x numeric tc).coords) :
    ∃ m, (n, m) ∈ (annualReduceMeta x numeric tc).coords ∧
      m'.attrs = if (annualReduceMeta x numeric tc).dimNames.contains n then
          (if x.dimNames.contains n then attrsOr x.coordAttrs n else []) else attrsOr x.coordAttrs n := by
  simp only [annualMeta, restoreAttrs, setAttrs, if_true, List.map_map, List.mem_map,
    Function.comp_apply, Prod.exists] at h
  obtain ⟨a, m, hm, he⟩ := h
  by_cases hc : (annualReduceMeta x numeric tc).dimNames.contains a = true
  · rw [if_pos hc, Prod.mk.injEq] at he
    obtain ⟨rfl, rfl⟩ := he
    exact ⟨m, hm, by rw [if_pos hc]⟩
  · rw [if_neg hc, Prod.mk.injEq] at he
    obtain ⟨rfl, rfl⟩ := he
    exact ⟨m, hm, by rw [if_neg hc]⟩

/-- Every coordinate of the result other than "time" is a coordinate of the input that does not lie
along the averaged dimension, with its attributes. -/
theorem C88_coords (x : DSMeta) (numeric : String → Bool) (tc : String)
    (hn : ((x.data ++ x.coords).map Prod.fst).Nodup) (n : String) (m' : VarMeta)
    (h : (n, m') ∈ (annualMeta x numeric tc).coords) (ht : n ≠ "time") :
    ∃ m, (n, m) ∈ x.coords ∧ tc ∉ m.dims ∧ m'.attrs = m.attrs := by
  obtain ⟨m, hm, ha⟩ := annual_coords x numeric tc n m' h
  rcases mem_dictSet hm with ⟨h1, -⟩ | ⟨-, h1⟩
  · exact absurd h1 ht
  · obtain ⟨h2, h3⟩ := List.mem_filter.1 h1
    simp only [Bool.and_eq_true, Bool.not_eq_true', List.contains_eq_mem,
      decide_eq_false_iff_not] at h3
    refine ⟨m, h2, h3.1, ?_⟩
    have hc : attrsOr x.coordAttrs n = m.attrs :=
      attrsOr_of_mem (by rw [List.map_append] at hn; exact hn.of_append_right) h2
    rw [ha, hc]
    split_ifs with k1 k2
    · rfl
    · exfalso
      apply k2
      simp only [List.contains_eq_mem, decide_eq_true_eq, DSMeta.dimNames, annualReduceMeta,
        List.mem_flatMap, List.mem_append, Prod.exists] at k1 ⊢
      obtain ⟨a, v, hv | hv, hd⟩ := k1
      · obtain ⟨q, hq, he⟩ := List.mem_map.1 hv
        simp only [Prod.mk.injEq] at he
        obtain ⟨rfl, rfl⟩ := he
        simp only [List.mem_cons, ht, false_or, List.mem_filter] at hd
        exact ⟨q.1, q.2, Or.inl (List.mem_filter.1 hq).1, hd.1⟩
      · rcases mem_dictSet hv with ⟨-, rfl⟩ | ⟨-, hv⟩
        · simp only [List.mem_singleton] at hd
          exact absurd hd ht
        · exact ⟨a, v, Or.inr (List.mem_filter.1 hv).1, hd⟩
    · rfl

/-- The result has a coordinate "time".  Its attributes are those of the input's coordinate "time",
provided "time" is also a dimension of the input, and none otherwise. -/
theorem C88_time (x : DSMeta) (numeric : String → Bool) (tc : String)
    (hn : ((x.data ++ x.coords).map Prod.fst).Nodup) :
    (∃ m', ("time", m') ∈ (annualMeta x numeric tc).coords) ∧
    ∀ m', ("time", m') ∈ (annualMeta x numeric tc).coords →
      (∀ m d v, ("time", m) ∈ x.coords → (d, v) ∈ x.data ++ x.coords → "time" ∈ v.dims →
        m'.attrs = m.attrs) ∧
      ((∀ p ∈ x.data ++ x.coords, "time" ∉ p.2.dims) → m'.attrs = []) := by
  have hdim : (annualReduceMeta x numeric tc).dimNames.contains "time" = true := by
    simp only [List.contains_eq_mem, decide_eq_true_eq, DSMeta.dimNames, List.mem_flatMap,
      List.mem_append]
    exact ⟨("time", ⟨["time"], [], []⟩), Or.inr (self_mem_dictSet _ _ _), by simp⟩
  constructor
  · simp only [annualMeta, restoreAttrs, setAttrs, if_true, List.map_map, List.mem_map,
      Function.comp_apply]
    refine ⟨⟨["time"], if x.dimNames.contains "time" then attrsOr x.coordAttrs "time" else [], []⟩,
      ("time", ⟨["time"], [], []⟩), self_mem_dictSet _ _ _, ?_⟩
    rw [if_pos hdim]
  · intro m' hm'
    obtain ⟨m, hm, ha⟩ := annual_coords x numeric tc "time" m' hm'
    rw [if_pos hdim] at ha
    constructor
    · intro m d v h1 h2 h3
      have hx : x.dimNames.contains "time" = true := by
        simp only [List.contains_eq_mem, decide_eq_true_eq, DSMeta.dimNames, List.mem_flatMap]
        exact ⟨(d, v), h2, h3⟩
      rw [ha, if_pos hx]
      exact attrsOr_of_mem (by rw [List.map_append] at hn; exact hn.of_append_right) h1
    · intro h
      rw [ha, if_neg]
      simp only [List.contains_eq_mem, decide_eq_true_eq, DSMeta.dimNames, List.mem_flatMap]
      rintro ⟨p, hp, hd⟩
      exact h p hp hd

/-- A series along a time dimension called `t`. -/
def exMeta (t : String) : DSMeta :=
  ⟨[("thetao", ⟨[t, "x"], [("units", "degC")], [("dtype", "float32")]⟩)],
    [(t, ⟨[t], [("long_name", "time")], []⟩), ("x", ⟨["x"], [("units", "degrees_east")], []⟩)],
    [("title", "run")]⟩

/-- The full claim, that the time coordinate of the result keeps the attributes of the averaged
coordinate, is false for `tcoord="t"`. -/
theorem C88_counterexample : ¬ ∀ (x : DSMeta) (numeric : String → Bool) (tc : String) (m m' : VarMeta),
    ((x.data ++ x.coords).map Prod.fst).Nodup → (tc, m) ∈ x.coords → tc ∈ m.dims →
    ("time", m') ∈ (annualMeta x numeric tc).coords → m'.attrs = m.attrs := by
  intro h
  have hn : (((exMeta "t").data ++ (exMeta "t").coords).map Prod.fst).Nodup := by
    simp [exMeta]
  obtain ⟨⟨m', hm'⟩, h2⟩ := C88_time (exMeta "t") (fun _ => true) "t" hn
  have e1 := (h2 m' hm').2 (by
    intro p hp
    simp only [exMeta, List.cons_append, List.nil_append, List.mem_cons, List.not_mem_nil,
      or_false] at hp
    rcases hp with rfl | rfl | rfl <;> simp)
  have e2 := h (exMeta "t") (fun _ => true) "t" ⟨["t"], [("long_name", "time")], []⟩ m' hn
    (by simp [exMeta]) (by simp) hm'
  rw [e1] at e2
  simp at e2

/-- Full statement: the time coordinate of the result has the attributes of the averaged coordinate.
Missing: `tcoord` other than "time", see `C88_counterexample`. -/
theorem C88_partial (x : DSMeta) (numeric : String → Bool) (m m' : VarMeta)
    (hn : ((x.data ++ x.coords).map Prod.fst).Nodup) (h : ("time", m) ∈ x.coords)
    (hd : "time" ∈ m.dims) (h' : ("time", m') ∈ (annualMeta x numeric "time").coords) :
    m'.attrs = m.attrs :=
  ((C88_time x numeric "time" hn).2 m' h').1 m "time" m h (List.mem_append_right _ h) hd

example : (((exMeta "time").data ++ (exMeta "time").coords).map Prod.fst).Nodup ∧
    ("time", (⟨["time"], [("long_name", "time")], []⟩ : VarMeta)) ∈ (exMeta "time").coords := by
  simp [exMeta]

/-! ## C87: metadata of steric sea level -/

/-- The result variables of every successful run are those described by the metadata below. -/
theorem C87_names {d0 : DS (Fl ℝ)} {reference : RefArg ℝ} {cn : DictArg}
    {vm : Option (List (String × String))} {rhozero : Fl ℝ} {patm : DA (Fl ℝ)}
    {eos variant domain : String} {strict : Bool} {r ref : DS (Fl ℝ)}
    (h : steric d0 reference cn vm rhozero patm eos variant domain strict = .ok (r, ref))
    (dset : List (String × Dict String)) (coords : List (String × VarMeta))
    (dims : String → List String) (dtype : String) :
    (stericMeta dset coords dims variant domain dtype false).data.map Prod.fst
      = r.vars.map Prod.fst := by
  obtain ⟨d, tc, zc, zb, pres, th, so, rho, -, -, -, -, -, -, -, -, h9⟩ := steric_ok_iff.1 h
  unfold stericResult at h9
  by_cases hg : domain = "global"
  · rw [if_pos hg] at h9
    simp only [stericGlobal, bind_ok, pure_ok] at h9
    obtain ⟨_, -, _, -, _, -, _, -, rfl⟩ := h9
    simp [stericMeta, stericVars, hg]
  · rw [if_neg hg] at h9
    simp only [stericLocal, bind_ok, pure_ok] at h9
    obtain ⟨_, -, _, -, _, -, _, -, _, -, _, -, _, -, _, -, _, -, _, -, _, -, _, -, rfl⟩ := h9
    simp [stericMeta, stericVars, hg]

theorem steric_variant {d0 : DS (Fl ℝ)} {reference : RefArg ℝ} {cn : DictArg}
    {vm : Option (List (String × String))} {rhozero : Fl ℝ} {patm : DA (Fl ℝ)}
    {eos variant domain : String} {strict : Bool} {r ref : DS (Fl ℝ)}
    (h : steric d0 reference cn vm rhozero patm eos variant domain strict = .ok (r, ref)) :
    variant = "steric" ∨ variant = "thermosteric" ∨ variant = "halosteric" := by
  obtain ⟨d, tc, zc, zb, pres, th, so, rho, -, -, -, -, -, -, h7, -, -⟩ := steric_ok_iff.1 h
  unfold stericFields at h7
  by_cases h1 : variant = "thermosteric"
  · exact Or.inr (Or.inl h1)
  by_cases h2 : variant = "halosteric"
  · exact Or.inr (Or.inr h2)
  by_cases h3 : variant = "steric"
  · exact Or.inl h3
  simp [h1, h2, h3] at h7

/-- The metadata of the height and of the second variable: names and units are
those of the requested kind of change. -/
theorem C87_labels {d0 : DS (Fl ℝ)} {reference : RefArg ℝ} {cn : DictArg}
    {vm : Option (List (String × String))} {rhozero : Fl ℝ} {patm : DA (Fl ℝ)}
    {eos variant domain : String} {strict : Bool} {r ref : DS (Fl ℝ)}
    (h : steric d0 reference cn vm rhozero patm eos variant domain strict = .ok (r, ref))
    (dset : List (String × Dict String)) (coords : List (String × VarMeta))
    (dims : String → List String) (dtype : String) :
    (∀ n m, (n, m) ∈ (stericMeta dset coords dims variant domain dtype false).data →
      Spec.Labelled m.attrs ∧ m.encoding = [("dtype", dtype)] ∧
      m.attrs.lookup "units" = some (if n = "delta_rho" then "kg m-3" else "m")) ∧
    ∃ m, (variant, m) ∈ (stericMeta dset coords dims variant domain dtype false).data ∧
      m.attrs.lookup "long_name" = some
        (if variant = "steric" then "Steric height adjustment"
        else if variant = "thermosteric" then "Thermosteric height adjustment"
        else "Halosteric height adjustment") := by
  have hv := steric_variant h
  have c1 : pyCapitalize "steric" = "Steric" := by decide
  have c2 : pyCapitalize "thermosteric" = "Thermosteric" := by decide
  have c3 : pyCapitalize "halosteric" = "Halosteric" := by decide
  constructor
  · intro n m hm
    simp only [stericMeta, stericVars, Bool.false_eq_true, if_false, List.mem_cons,
      List.not_mem_nil, or_false] at hm
    rcases hm with hm | hm
    · split_ifs at hm <;>
      · simp only [Prod.mk.injEq] at hm
        obtain ⟨rfl, rfl⟩ := hm
        simp [Spec.Labelled, List.lookup]
    · simp only [Prod.mk.injEq] at hm
      obtain ⟨rfl, rfl⟩ := hm
      rcases hv with rfl | rfl | rfl <;> simp [Spec.Labelled, List.lookup]
  · refine ⟨_, List.mem_cons_of_mem _ (List.mem_singleton.2 rfl), ?_⟩
    rcases hv with rfl | rfl | rfl
    · rw [c1]; simp [List.lookup]
    · rw [c2]; simp [List.lookup]
    · rw [c3]; simp [List.lookup]

/-- A coordinate of the result that is a variable of the input has the input's attributes. -/
theorem C87_coords (dset : List (String × Dict String)) (coords : List (String × VarMeta))
    (dims : String → List String) (variant domain dtype : String) (n : String) (m : VarMeta)
    (h : (n, m) ∈ (stericMeta dset coords dims variant domain dtype false).coords) (a : Dict String)
    (ha : dset.lookup n = some a) : m.attrs = a := by
  simp only [stericMeta, Bool.false_eq_true, if_false, setAttrs, List.mem_map] at h
  obtain ⟨p, -, hp⟩ := h
  have hin : ∀ k, dset.lookup k = some a → (dset.map Prod.fst).contains k = true := by
    intro k hk
    by_contra hc
    have : dset.lookup k = none := by
      rw [List.lookup_eq_none_iff]
      intro q hq
      have : k ≠ q.1 := by
        rintro rfl
        exact hc (by simpa using ⟨q.2, hq⟩)
      simpa using this
    rw [this] at hk; cases hk
  split_ifs at hp with hc
  · simp only [Prod.mk.injEq] at hp
    obtain ⟨h1, rfl⟩ := hp
    simp [attrsOr, h1, ha]
  · subst hp
    exact absurd (hin _ ha) hc

/-- `annual=True`: the same labels, but the requested `dtype` is no longer in the encoding of any
variable.  (`names`: the coordinates are not called like the variables.) -/
theorem C87_annual (dset : List (String × Dict String)) (coords : List (String × VarMeta))
    (dims : String → List String) (variant domain dtype : String)
    (names : (((stericVars dims variant domain dtype) ++ coords).map Prod.fst).Nodup) (n : String)
    (m' : VarMeta) :
    (n, m') ∈ (stericMeta dset coords dims variant domain dtype true).data ↔
      ∃ m, (n, m) ∈ (stericMeta dset coords dims variant domain dtype false).data ∧
        m' = ⟨"time" :: m.dims.filter (· != "time"), m.attrs, []⟩ := by
  have e : ∀ (sel : String → Bool) f (l : List (String × VarMeta)),
      (setAttrs sel f l).map Prod.fst = l.map Prod.fst := by
    intro sel f l
    simp only [setAttrs, List.map_map]
    refine List.map_congr_left (fun p _ => ?_)
    simp only [Function.comp_apply]
    split_ifs <;> rfl
  have := (C88_variables ⟨stericVars dims variant domain dtype,
    setAttrs (fun v => (dset.map Prod.fst).contains v) (attrsOr dset) coords, []⟩ (fun _ => true) "time"
    (by rw [List.map_append, e, ← List.map_append]; exact names)).2 n m'
  simpa only [stericMeta, if_true, Bool.false_eq_true, if_false, true_and] using this

/-- The full claim, that every result variable is marked to be written as `dtype`, is false for
`annual=True`. -/
theorem C87_counterexample : ¬ ∀ (dset : List (String × Dict String)) (coords : List (String × VarMeta))
    (dims : String → List String) (variant domain dtype : String) (annual : Bool) (n : String)
    (m : VarMeta), (((stericVars dims variant domain dtype) ++ coords).map Prod.fst).Nodup →
    (n, m) ∈ (stericMeta dset coords dims variant domain dtype annual).data →
    m.encoding.lookup "dtype" = some dtype := by
  intro h
  have hn : (((stericVars (fun _ => ["time"]) "steric" "local" "float32")
      ++ [("time", (⟨["time"], [], []⟩ : VarMeta))]).map Prod.fst).Nodup := by
    simp [stericVars]
  have hm := (C87_annual [] [("time", ⟨["time"], [], []⟩)] (fun _ => ["time"]) "steric" "local"
    "float32" hn "steric" _).2 ⟨_, List.mem_cons_of_mem _ (List.mem_singleton.2 rfl), rfl⟩
  have := h _ _ _ _ _ _ _ _ _ hn hm
  simp at this

/-- Full statement: every result variable is marked to be written as `dtype`.  Missing: `annual=True`,
see `C87_annual`. -/
theorem C87_partial {d0 : DS (Fl ℝ)} {reference : RefArg ℝ} {cn : DictArg}
    {vm : Option (List (String × String))} {rhozero : Fl ℝ} {patm : DA (Fl ℝ)}
    {eos variant domain : String} {strict : Bool} {r ref : DS (Fl ℝ)}
    (h : steric d0 reference cn vm rhozero patm eos variant domain strict = .ok (r, ref))
    (dset : List (String × Dict String)) (coords : List (String × VarMeta))
    (dims : String → List String) (dtype : String) (n : String) (hn : n ∈ r.vars.map Prod.fst) :
    ∃ m, (n, m) ∈ (stericMeta dset coords dims variant domain dtype false).data ∧
      m.encoding.lookup "dtype" = some dtype := by
  rw [← C87_names h dset coords dims dtype] at hn
  obtain ⟨⟨n', m⟩, hm, rfl⟩ := List.mem_map.1 hn
  exact ⟨m, hm, by rw [((C87_labels h dset coords dims dtype).1 n' m hm).2.1]; simp⟩

/-- The example of C24 is labelled as a thermosteric height. -/
example : ∃ r ref, steric exD .none .none none (fin 1035) (DA.scalar (fin 101325)) "Wright"
    "thermosteric" "local" true = .ok (r, ref) ∧ "thermosteric" ∈ r.vars.map Prod.fst := by
  obtain ⟨⟨r, ref⟩, h⟩ := exRun "thermosteric" "local" "Wright" (by simp) (Or.inl wright_case)
  refine ⟨r, ref, h, ?_⟩
  rw [← C87_names h [] [] (fun _ => []) "float32"]
  simp [stericMeta, stericVars]

/-! ## C89: attributes of the series of a gauge -/

/-- Every column of the gauge's row is an attribute of its series, with the row's value; every
attribute of the array whose name is not a column is kept; nothing else is added. -/
theorem C89_attrs {α : Type} (arr row : Dict α) (h : (row.map Prod.fst).Nodup) :
    (∀ k v, row.lookup k = some v → (pointAttrs arr row).lookup k = some v) ∧
    (∀ k, row.lookup k = none → (pointAttrs arr row).lookup k = arr.lookup k) := by
  constructor
  · intro k v hv
    rw [pointAttrs, mergeGo_lookup _ _ _ h, hv]; rfl
  · intro k hk
    rw [pointAttrs, mergeGo_lookup _ _ _ h, hk]; rfl

/-- The full claim, that the attributes of the array survive, is false: `units` of the array is lost if
the table of gauges has a column of that name. -/
theorem C89_counterexample : ¬ ∀ (arr row : Dict String) (k v : String),
    (row.map Prod.fst).Nodup → arr.lookup k = some v → (pointAttrs arr row).lookup k = some v := by
  intro h
  have h1 := h [("units", "m")] [("name", "BOSTON"), ("units", "mm")] "units" "m" (by simp)
    (by simp [List.lookup])
  have h2 := (C89_attrs [("units", "m")] [("name", "BOSTON"), ("units", "mm")] (by simp)).1 "units" "mm"
    (by simp [List.lookup])
  rw [h1] at h2
  simp at h2

/-- Full statement: every attribute of the array is an attribute of each series.  Missing: names that
are columns of the table of gauges as well, see `C89_counterexample`. -/
theorem C89_partial {α : Type} (arr row : Dict α) (h : (row.map Prod.fst).Nodup) (k : String) (v : α)
    (hk : k ∉ row.map Prod.fst) (hv : arr.lookup k = some v) :
    (pointAttrs arr row).lookup k = some v := by
  rw [(C89_attrs arr row h).2 k, hv]
  rw [List.lookup_eq_none_iff]
  intro q hq
  have : k ≠ q.1 := fun h => hk (h ▸ List.mem_map_of_mem hq)
  simpa using this

example : (([("name", "BOSTON"), ("lat", "42.4")] : Dict String).map Prod.fst).Nodup
    ∧ "units" ∉ ([("name", "BOSTON"), ("lat", "42.4")] : Dict String).map Prod.fst := by simp

/-- `C84_exact`: density is labelled, the Rossby radius is not. -/
example : Spec.Labelled (calcAttrs (.rho "Wright")) ∧ ¬ Spec.Labelled (calcAttrs .rossbyRd) :=
  ⟨(C84_exact _).2.2 ⟨by simp, by simp⟩, fun h => ((C84_exact _).2.1 h).1 rfl⟩

/-- `C84_eos`, `C84_level`, `C84_units`. -/
example : (calcAttrs (.pdens "2000.0" "linear")).lookup "comment"
      = some "calculated with the linear equation of state" ∧
    (calcAttrs (.pdens "2000.0" "linear")).lookup "long_name"
      = some "Sea water potential density referenced to 2000.0 m" ∧
    (calcAttrs (.pdens "2000.0" "linear")).lookup "units" = some "kg m-3" :=
  ⟨(C84_eos "linear" "2000.0").2.2.2, C84_level _ _, (C84_units "linear" "2000.0").2.1⟩

/-- `C85_cm`: potential vorticity 1 in metres is stored as 1e12 in the documented centimetre unit, 1e28 times too
large when read with the unit written beside it. -/
example : ∃ (c : DA (Fl ℚ)) (y u : ℚ), calcPv exOne exZero exOne (fin 1) none false "cm" false = .ok c ∧
    c.get (fun _ => 0) = fin y ∧ ((calcAttrs (.pv true)).lookup "units").bind Spec.perMetreSecond = some u ∧
    y * u = 10 ^ 28 := by
  obtain ⟨r, hr, hx⟩ := exPv
  obtain ⟨c, hc, -, -⟩ := (C17_cm _ _ _ _ _ _ _).2 r hr
  obtain ⟨y, u, hy, hu, h⟩ := C85_cm _ _ _ _ _ _ _ hr hc hx
  exact ⟨c, y, u, hc, hy, hu, by simpa using h⟩

/-- `C85_partial` with gravity 1. -/
example : ∃ r u, calcPv exOne exZero exOne (fin (1 : ℚ)) none false "m" false = .ok r ∧
    ((calcAttrs (.pv false)).lookup "units").bind Spec.perMetreSecond = some u ∧
    ∃ y, r.get (fun _ => 0) = fin y ∧ y * (u : ℚ) = 1 := by
  obtain ⟨r, u, h1, h2, h3⟩ := C85_partial exOne exZero exOne (1 : ℚ) one_ne_zero none false
  obtain ⟨y, hy, e⟩ := h3 (fun _ => 0) 1 0 1 rfl rfl rfl
  exact ⟨r, u, h1, h2, y, hy, by simpa using e⟩

theorem exMeta_names (tc : String) (h : tc = "time" ∨ tc = "t") :
    (((exMeta tc).data ++ (exMeta tc).coords).map Prod.fst).Nodup := by
  rcases h with rfl | rfl <;> simp [exMeta]

/-- `C88_variables`, `C88_coords`, `C88_time`: the dataset above. -/
example : (annualMeta (exMeta "time")).attrs = [("title", "run")] ∧
    (∃ m', ("time", m') ∈ (annualMeta (exMeta "time")).coords) ∧
    ∀ n m', (n, m') ∈ (annualMeta (exMeta "time")).coords → n ≠ "time" →
      ∃ m, (n, m) ∈ (exMeta "time").coords ∧ "time" ∉ m.dims ∧ m'.attrs = m.attrs := by
  have hn := exMeta_names "time" (Or.inl rfl)
  exact ⟨(C88_variables _ (fun _ => true) "time" hn).1, (C88_time _ (fun _ => true) "time" hn).1,
    fun n m' h ht => C88_coords _ _ _ hn n m' h ht⟩

/-- `C87_labels` on the run of C24. -/
example : ∃ m, ("thermosteric", m) ∈ (stericMeta [] [] (fun _ => ["time"]) "thermosteric" "local" "float32" false).data ∧
    m.attrs.lookup "long_name" = some "Thermosteric height adjustment" := by
  obtain ⟨⟨r, ref⟩, h⟩ := exRun "thermosteric" "local" "Wright" (by simp) (Or.inl wright_case)
  simpa using (C87_labels h [] [] (fun _ => ["time"]) "float32").2

/-- `C87_coords`: the attributes of the input's time coordinate are on the result's. -/
example : ("time", (⟨["time"], [("axis", "T")], []⟩ : VarMeta)) ∈
      (stericMeta [("time", [("axis", "T")])] [("time", ⟨["time"], [], []⟩)] (fun _ => ["time"]) "steric" "local"
        "float32" false).coords ∧
    ([("time", [("axis", "T")])] : List (String × Dict String)).lookup "time" = some [("axis", "T")] := by
  constructor <;> simp [stericMeta, setAttrs, attrsOr]

/-- `C87_annual`. -/
example : (((stericVars (fun _ => ["time"]) "steric" "local" "float32")
      ++ [("time", (⟨["time"], [], []⟩ : VarMeta))]).map Prod.fst).Nodup ∧
    ("steric", (⟨["time"], [("long_name", "Steric height adjustment"), ("units", "m")], []⟩ : VarMeta)) ∈
      (stericMeta [] [("time", ⟨["time"], [], []⟩)] (fun _ => ["time"]) "steric" "local" "float32" true).data := by
  have hn : (((stericVars (fun _ => ["time"]) "steric" "local" "float32")
      ++ [("time", (⟨["time"], [], []⟩ : VarMeta))]).map Prod.fst).Nodup := by
    simp [stericVars]
  refine ⟨hn, (C87_annual [] _ _ _ _ _ hn _ _).2 ⟨_, List.mem_cons_of_mem _ (List.mem_singleton.2 rfl), ?_⟩⟩
  simp [pyCapitalize]

/-- `C89_attrs`: the row's entries win, the array's others stay. -/
example : (pointAttrs [("units", "m"), ("name", "model")] [("name", "GAUGE"), ("lat", "10")]).lookup "name" = some "GAUGE" ∧
    (pointAttrs [("units", "m"), ("name", "model")] [("name", "GAUGE"), ("lat", "10")]).lookup "units" = some "m" :=
  ⟨(C89_attrs _ _ (by decide)).1 _ _ rfl, ((C89_attrs _ _ (by decide)).2 _ rfl).trans rfl⟩

end Momlevel.Props
