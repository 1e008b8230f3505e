import Verif.Props.StericVariants
import Verif.Spec.Pressure

/-! # C29–C33: global steric, requests, reference state, reference density -/

set_option linter.unusedSectionVars false

namespace Momlevel.Props
open Momlevel Momlevel.Fl Momlevel.Eos

variable {d r ref : DS (Fl ℝ)} {reference : RefArg ℝ} {cn : DictArg}
  {vm : Option (List (String × String))} {rhozero : Fl ℝ} {patm : DA (Fl ℝ)}
  {eos variant domain : String} {strict : Bool} {tc zc zb : String}

/-! ## C29 -/

/-- Global steric height is `(V/A) log(ρ̄ V / m)`: `V` the reference volume, `A` the total reference
area, `ρ̄` the reference mean density, `m` the mass of the reference volume at that time.  It is
positive, zero, negative as `m` is below, equal to, above `ρ̄ V`. -/
theorem C29_formula
    (h : steric d reference cn none rhozero patm eos variant "global" strict = .ok (r, ref))
    (hc : defaultCoords cn = .ok (tc, zc, zb)) :
    ∃ a height rhoga volo area vol th so pres rho, r.getVar variant = .ok a ∧
      r.getVar "reference_height" = .ok height ∧ ref.getVar "rhoga" = .ok rhoga ∧
      ref.getVar "volo" = .ok volo ∧ ref.getVar "areacello" = .ok area ∧
      ref.getVar "volcello" = .ok vol ∧
      (variant = "thermosteric" ∧ d.getVar "thetao" = .ok th ∧ ref.getVar "so" = .ok so ∨
       variant = "halosteric" ∧ ref.getVar "thetao" = .ok th ∧ d.getVar "so" = .ok so ∨
       variant = "steric" ∧ d.getVar "thetao" = .ok th ∧ d.getVar "so" = .ok so) ∧
      Spec.IsPressure d zc patm pres ∧ calcRho th so pres eos = .ok rho ∧
      ∀ e, ∀ V A g m : ℝ, volo.get e = fin V → area.sumAll.get e = fin A → rhoga.get e = fin g →
        (calcMasso rho vol tc).get e = fin m → 0 < V → 0 < A → 0 < g → 0 < m →
        height.get e = fin (V / A) ∧ ∃ v, a.get e = fin v ∧ v = V / A * Real.log (g * V / m) ∧
          (0 < v ↔ m < g * V) ∧ (v = 0 ↔ m = g * V) ∧ (v < 0 ↔ g * V < m) := by
  obtain ⟨dd, tc', zc', zb', pres, th, so, rho, h1, h2, h3, h4, h5, h6, h7, h8, h9⟩ := steric_ok_iff.1 h
  rw [hc] at h2
  cases h2
  have h1 : d = dd := Except.ok.inj h1
  subst h1
  simp only [stericResult, if_true] at h9
  obtain ⟨L⟩ := globalRun_of h9
  have hv := variant_mem h7
  have hne : variant ≠ "reference_height" := by
    rintro rfl; simp at hv
  refine ⟨L.res, L.height, L.rhoga, L.volo, L.area, L.rvol, th, so, pres, rho, getVar_lookup.2 (L.hres hne),
    getVar_lookup.2 L.hheight, L.hrhoga, L.hvolo, L.harea, L.hrvol, stericFields_ok h7, isPressure_of h4, h8,
    fun e V A g m hV hA hg hm pV pA pg pm => ?_⟩
  have hh : L.height.get e = fin (V / A) := by
    rw [L.height_get, hV, hA, fin_div_of_ne _ pA.ne']
  have hmV : m / V ≠ 0 := (div_pos pm pV).ne'
  have hx : 0 < g / (m / V) := div_pos pg (div_pos pm pV)
  have hval : L.res.get e = fin (V / A * Real.log (g * V / m)) := by
    rw [L.res_get, hh, hm, hV, hg, fin_div_of_ne _ pV.ne', fin_div_of_ne _ hmV]
    show fin _ * (if 0 < g / (m / V) then fin (Real.log (g / (m / V))) else _) = _
    rw [if_pos hx, fin_mul, div_div_eq_mul_div]
  have hVA : 0 < V / A := div_pos pV pA
  have pgV : 0 < g * V / m := div_pos (mul_pos pg pV) pm
  have t1 : 0 < V / A * Real.log (g * V / m) ↔ m < g * V := by
    rw [mul_pos_iff_of_pos_left hVA, Real.log_pos_iff pgV.le, lt_div_iff₀ pm, one_mul]
  have t2 : V / A * Real.log (g * V / m) < 0 ↔ g * V < m := by
    rw [← neg_pos, ← mul_neg, mul_pos_iff_of_pos_left hVA, neg_pos, Real.log_neg_iff pgV,
      div_lt_iff₀ pm, one_mul]
  refine ⟨hh, _, hval, rfl, t1, ?_, t2⟩
  constructor
  · intro h0
    rcases lt_trichotomy m (g * V) with h | h | h
    · exact absurd h0 (t1.2 h).ne'
    · exact h
    · exact absurd h0 (t2.2 h).ne
  · intro h0
    rw [← h0, div_self pm.ne', Real.log_one, mul_zero]

/-- With the first time level as reference the comparison is with the reference mass. -/
theorem C29_own_reference
    (h : steric d .none cn none rhozero patm eos variant domain strict = .ok (r, ref)) :
    ∃ rhoga volo masso, ref.getVar "rhoga" = .ok rhoga ∧ ref.getVar "volo" = .ok volo ∧
      ref.getVar "masso" = .ok masso ∧ ∀ e, ∀ V g M : ℝ, volo.get e = fin V → rhoga.get e = fin g →
        masso.get e = fin M → V ≠ 0 → g * V = M := by
  obtain ⟨dd, tc', zc', zb', pres, th, so, rho, h1, h2, h3, h4, h5, h6, h7, h8, h9⟩ := steric_ok_iff.1 h
  obtain ⟨f, hf, ⟨D⟩⟩ := refData_of h2 h3 h4 h5 h6
  refine ⟨_, _, _, D.rhrhoga, D.rhvolo, D.rhmasso, fun e V g M hV hg hM h0 => ?_⟩
  rw [DA.get_div, hV, hM, fin_div_of_ne _ h0] at hg
  have := fin.inj hg
  field_simp at this
  linarith

/-! ## C30 -/

/-- Invalid input (missing variable, wrong rank, cell area out of range under `strict`) is a
ValueError. -/
theorem C30_invalid (reference : RefArg ℝ) (rhozero : Fl ℝ) (patm : DA (Fl ℝ)) (eos variant : String)
    (hc : defaultCoords cn = .ok (tc, zc, zb))
    (h : ¬ Spec.ValidDataset (rankOf d)
      (∃ a, d.vars.lookup "areacello" = some a ∧ validateAreacello a = true) false strict
      (if domain = "global" then [] else [zb, "deptho"])) :
    steric d reference cn none rhozero patm eos variant domain strict = .error .valueError := by
  have hv : validateDataset d false strict (if domain = "global" then .none else .list [zb, "deptho"])
      = .error .valueError := by
    obtain ⟨h1, h2⟩ := C34_iff d false strict (if domain = "global" then .none else .list [zb, "deptho"])
    refine h2.resolve_left (fun h3 => h ?_)
    have := h1.1 h3
    split at this <;> rename_i hd
    · rw [if_pos hd]; exact this
    · rw [if_neg hd]; exact this
  simp only [steric, DS.rename, ok_bind, hc, hv]
  rfl

/-- A supplied reference that is not a valid reference dataset is a ValueError. -/
theorem C30_invalid_reference (rhozero : Fl ℝ) (patm : DA (Fl ℝ)) (eos variant : String)
    (h : ¬ Spec.ValidDataset (rankOf ref)
      (∃ a, ref.vars.lookup "areacello" = some a ∧ validateAreacello a = true) true strict []) :
    ∃ err, steric d (.dataset ref) cn none rhozero patm eos variant domain strict = .error err := by
  cases hs : steric d (.dataset ref) cn none rhozero patm eos variant domain strict with
  | error e => exact ⟨e, rfl⟩
  | ok x =>
    obtain ⟨r, ref'⟩ := x
    obtain ⟨dd, tc', zc', zb', pres, th, so, rho, h1, h2, h3, h4, h5, h6, h7, h8, h9⟩ := steric_ok_iff.1 hs
    have : ref' = ref := (Except.ok.inj h5).symm
    subst this
    exact absurd ((C34_iff ref' true strict .none).1.1 h6) h

/-- An unknown variant never succeeds; on inputs that work for `"steric"` it is a ValueError. -/
theorem C30_variant (h : variant ∉ ["thermosteric", "halosteric", "steric"]) :
    (∃ err, steric d reference cn vm rhozero patm eos variant domain strict = .error err) ∧
    (∀ x, steric d reference cn vm rhozero patm eos "steric" domain strict = .ok x →
      steric d reference cn vm rhozero patm eos variant domain strict = .error .valueError) := by
  constructor
  · cases hs : steric d reference cn vm rhozero patm eos variant domain strict with
    | error e => exact ⟨e, rfl⟩
    | ok x =>
      obtain ⟨r, ref⟩ := x
      obtain ⟨dd, tc', zc', zb', pres, th, so, rho, h1, h2, h3, h4, h5, h6, h7, h8, h9⟩ := steric_ok_iff.1 hs
      exact absurd (variant_mem h7) h
  · rintro ⟨r, ref⟩ hs
    obtain ⟨dd, tc', zc', zb', pres, th, so, rho, h1, h2, h3, h4, h5, h6, h7, h8, h9⟩ := steric_ok_iff.1 hs
    simp only [List.mem_cons, List.not_mem_nil, or_false, not_or] at h
    have hf : stericFields dd ref variant = .error .valueError := by
      simp only [stericFields, if_neg h.1, if_neg h.2.1, if_neg h.2.2]
    simp only [steric, h1, ok_bind, h2, h3, h4, h5, h6, hf]
    rfl

/-- An unknown equation of state never succeeds. -/
theorem C30_eos (hw : ¬ CaseVariant eos "wright") (hl : ¬ CaseVariant eos "linear") :
    ∃ err, steric d reference cn vm rhozero patm eos variant domain strict = .error err := by
  cases hs : steric d reference cn vm rhozero patm eos variant domain strict with
  | error e => exact ⟨e, rfl⟩
  | ok x =>
    obtain ⟨r, ref⟩ := x
    obtain ⟨dd, tc', zc', zb', pres, th, so, rho, h1, h2, h3, h4, h5, h6, h7, h8, h9⟩ := steric_ok_iff.1 hs
    obtain ⟨f, hf, -⟩ := calcRho_ok h8
    obtain ⟨err, he⟩ := C06_other (α := Fl ℝ) eos "density" hw hl
    rw [he] at hf
    cases hf

/-- A reference that is neither None nor a Dataset never succeeds. -/
theorem C30_reference_type :
    ∃ err, steric d .other cn vm rhozero patm eos variant domain strict = .error err := by
  cases hs : steric d .other cn vm rhozero patm eos variant domain strict with
  | error e => exact ⟨e, rfl⟩
  | ok x =>
    obtain ⟨r, ref⟩ := x
    obtain ⟨dd, tc', zc', zb', pres, th, so, rho, h1, h2, h3, h4, h5, h6, h7, h8, h9⟩ := steric_ok_iff.1 hs
    cases h5

/-- Any `domain` other than exactly `"global"` silently means local. -/
theorem C30_domain (d : DS (Fl ℝ)) (reference : RefArg ℝ) (cn : DictArg)
    (vm : Option (List (String × String))) (rhozero : Fl ℝ) (patm : DA (Fl ℝ))
    (eos variant domain : String) (strict : Bool) (h : domain ≠ "global") :
    steric d reference cn vm rhozero patm eos variant domain strict
      = steric d reference cn vm rhozero patm eos variant "local" strict := by
  simp only [steric, stericResult, if_neg h, if_neg (by decide : ¬ "local" = "global")]

example : (steric d (domain := "Global")) = steric d := C30_domain _ _ _ _ _ _ _ _ _ _ (by decide)

/-- `varname_map` is applied first; the rest sees only the renamed dataset. -/
theorem C30_rename (d : DS (Fl ℝ)) (reference : RefArg ℝ) (cn : DictArg)
    (vm : Option (List (String × String))) (rhozero : Fl ℝ) (patm : DA (Fl ℝ))
    (eos variant domain : String) (strict : Bool) :
    steric d reference cn vm rhozero patm eos variant domain strict
      = (d.rename vm).bind
        (fun d' => steric d' reference cn none rhozero patm eos variant domain strict) := by
  unfold steric
  cases d.rename vm <;> rfl

/-- A name in `varname_map` that is neither a variable nor a dimension is a ValueError, whatever the
other arguments. -/
theorem C30_rename_unknown (d : DS (Fl ℝ)) (reference : RefArg ℝ) (cn : DictArg)
    (m : List (String × String)) (rhozero : Fl ℝ) (patm : DA (Fl ℝ))
    (eos variant domain : String) (strict : Bool) {old new : String} (hm : (old, new) ∈ m)
    (h1 : ∀ p ∈ d.vars, p.1 ≠ old) (h2 : ∀ p ∈ d.vars, ∀ q ∈ p.2.dims, q.1 ≠ old) :
    steric d reference cn (some m) rhozero patm eos variant domain strict = .error .valueError := by
  have h : m.any (fun p => !(d.names.contains p.1 || d.dimNames.contains p.1)) = true := by
    rw [List.any_eq_true]
    refine ⟨_, hm, ?_⟩
    simp only [Bool.not_eq_true', Bool.or_eq_false_iff]
    refine ⟨?_, ?_⟩
    · rw [← Bool.not_eq_true, List.contains_iff_mem]
      intro h
      obtain ⟨p, hp, e⟩ := List.mem_map.1 h
      exact h1 p hp e
    · rw [← Bool.not_eq_true, List.contains_iff_mem]
      intro h
      obtain ⟨p, hp, hq⟩ := List.mem_flatMap.1 h
      obtain ⟨q, hq, e⟩ := List.mem_map.1 hq
      exact h2 p hp q hq e
  rw [C30_rename]
  simp only [DS.rename, if_pos h]
  rfl

/-- What the calculation sees after a renaming: every variable under its new name, with its
dimensions renamed and its values unchanged. -/
theorem C30_rename_values {d d' : DS (Fl ℝ)} {m : List (String × String)}
    (h : d.rename (some m) = .ok d') {s : String} {a : DA (Fl ℝ)} (ha : d.getVar s = .ok a)
    (ren : String → String) (hren : ∀ x, ren x = match m.lookup x with | some y => y | none => x) :
    ∃ a', d'.getVar (ren s) = .ok a' ∧ a'.dims = a.dims.map (fun q => (ren q.1, q.2)) ∧
      ∀ e, a'.get e = a.get (fun x => e (ren x)) := by
  have e1 : ∀ x, (m.lookup x).getD x = ren x := by
    intro x; rw [hren]; cases m.lookup x <;> rfl
  simp only [DS.rename] at h
  split_ifs at h with h1 h2
  simp only [e1] at h h2
  have hl : ∀ l : List (String × DA (Fl ℝ)), l.lookup s = some a →
      (l.map (fun p => ren p.1)).Nodup →
      (l.map (fun p => (ren p.1,
        (⟨p.2.dims.map (fun q => (ren q.1, q.2)), fun e => p.2.get (fun x => e (ren x))⟩
          : DA (Fl ℝ))))).lookup (ren s)
        = some ⟨a.dims.map (fun q => (ren q.1, q.2)), fun e => a.get (fun x => e (ren x))⟩ := by
    intro l
    induction l with
    | nil => intro h; cases h
    | cons p l ih =>
      obtain ⟨k, v⟩ := p
      intro hk hn
      simp only [List.map_cons, List.nodup_cons] at hn
      rw [List.lookup_cons] at hk
      rw [List.map_cons, List.lookup_cons]
      by_cases hs : s = k
      · subst hs
        simp only [beq_self_eq_true] at hk
        cases hk
        simp
      · rw [beq_eq_false_iff_ne.2 hs] at hk
        have hmem : ∃ v, (s, v) ∈ l := by
          clear hn ih
          induction l with
          | nil => cases hk
          | cons q l ih' =>
            rw [List.lookup_cons] at hk
            by_cases hq : s = q.1
            · exact ⟨q.2, by rw [hq]; exact List.mem_cons_self⟩
            · rw [beq_eq_false_iff_ne.2 hq] at hk
              obtain ⟨v, hv⟩ := ih' hk
              exact ⟨v, List.mem_cons_of_mem _ hv⟩
        obtain ⟨v', hv'⟩ := hmem
        have hne : ren s ≠ ren k := fun e => hn.1 (e ▸ List.mem_map.2 ⟨_, hv', rfl⟩)
        rw [beq_eq_false_iff_ne.2 hne]
        exact ih hk hn.2
  have h3 := hl d.vars (getVar_lookup.1 ha) (by
    rw [List.map_map] at h2; exact h2)
  refine ⟨⟨a.dims.map (fun q => (ren q.1, q.2)), fun e => a.get (fun x => e (ren x))⟩, ?_, rfl,
    fun _ => rfl⟩
  rw [← Except.ok.inj h]
  exact getVar_lookup.2 h3

/-- A renaming of a variable together with its dimension. -/
example : ∃ d d' : DS (Fl ℝ), d.rename (some [("temp", "thetao"), ("t", "time")]) = .ok d' ∧
    ∃ a, d.getVar "temp" = .ok a :=
  ⟨⟨[("temp", ⟨[("t", 2)], fun e => fin (e "t")⟩)], []⟩, _, rfl, _, rfl⟩

/-- The defaults of `steric`, and the two wrappers. -/
theorem C30_defaults (d : DS (Fl ℝ)) :
    steric d = steric d .none (.dict []) none (fin 1035) (DA.scalar (fin 101325)) "wright" "steric"
      "local" true ∧
    thermosteric d = steric d (variant := "thermosteric") ∧
    halosteric d = steric d (variant := "halosteric") := by
  have e1 : (1035.0 : Fl ℝ) = fin 1035 := by rw [ofSci]; norm_num
  have e2 : (101325.0 : Fl ℝ) = fin 101325 := by rw [ofSci]; norm_num
  refine ⟨?_, rfl, rfl⟩
  rw [← e1, ← e2]
  rfl

/-! ## C31 -/

theorem pyIndex_ok {n j : Nat} {i : Int} (h : pyIndex n i = .ok j) :
    j < n ∧ (j : ℤ) = if 0 ≤ i then i else n + i := by
  unfold pyIndex at h
  split at h
  · rename_i hi
    split at h
    · rename_i hn
      cases h
      rw [if_pos hi]
      exact ⟨hn, Int.toNat_of_nonneg hi⟩
    · cases h
  · rename_i hi
    split at h
    · rename_i hn
      cases h
      rw [if_neg hi]
      omega
    · cases h

theorem refSlice_values {K : Type} [Field K] [LinearOrder K] {d : DS (Fl K)} {name tc : String} {i : Int}
    {b : DA (Fl K)} (h : refSlice d name tc i = .ok b) :
    ∃ a j, d.getVar name = .ok a ∧ tc ∈ a.dimNames ∧ j < a.size tc ∧
      (j : ℤ) = (if 0 ≤ i then i else a.size tc + i) ∧
      b.dims = (a.dims.filter (fun p => p.1 != tc)).filter (fun p => p.2 != 1) ∧
      ∀ e, (∀ p ∈ a.dims, p.1 ≠ tc → e p.1 < p.2) → b.get e = a.get (Function.update e tc j) := by
  simp only [refSlice, bind_ok, pure_ok, DA.iselE] at h
  obtain ⟨a, h1, c, h2, rfl⟩ := h
  split at h2
  · rename_i htc
    simp only [bind_ok, pure_ok] at h2
    obtain ⟨j, h3, rfl⟩ := h2
    obtain ⟨h4, h5⟩ := pyIndex_ok h3
    refine ⟨a, j, h1, htc, h4, h5, rfl, fun e he => ?_⟩
    show a.get (Function.update _ tc j) = _
    congr 2
    funext x
    split
    · rename_i hx
      obtain ⟨hx1, hx2⟩ := List.mem_filter.1 (show (x, 1) ∈ a.dims.filter (fun p => p.1 != tc) from hx)
      have := he _ hx1 (by simpa using hx2)
      simp only at this
      omega
    · rfl
  · cases h2

/-- The reference state is the requested time slice (a negative index counts from the end), its
density is that of the slice, volume, mass and mean density are those of the slice, and the area is
copied. -/
theorem C31_slice {i : Int} (h : setupReferenceState d patm eos cn i = .ok ref)
    (hc : defaultCoords cn = .ok (tc, zc, zb)) :
    (∀ name ∈ ["thetao", "so", "volcello"], ∃ a b j, d.getVar name = .ok a ∧
      ref.getVar name = .ok b ∧ tc ∈ a.dimNames ∧ j < a.size tc ∧
      (j : ℤ) = (if 0 ≤ i then i else a.size tc + i) ∧
      ∀ e, (∀ p ∈ a.dims, p.1 ≠ tc → e p.1 < p.2) → b.get e = a.get (Function.update e tc j)) ∧
    (∃ area, d.getVar "areacello" = .ok area ∧ ref.getVar "areacello" = .ok area) ∧
    (∃ th so vol rho volo masso rhoga pres, ref.getVar "thetao" = .ok th ∧ ref.getVar "so" = .ok so ∧
      ref.getVar "volcello" = .ok vol ∧ ref.getVar "rho" = .ok rho ∧ ref.getVar "volo" = .ok volo ∧
      ref.getVar "masso" = .ok masso ∧ ref.getVar "rhoga" = .ok rhoga ∧
      Spec.IsPressure d zc patm pres ∧ calcRho th so pres eos = .ok rho ∧
      calcVolo vol = .ok volo ∧ masso = calcMasso rho vol tc ∧
      (∀ e, ∀ V M : ℝ, volo.get e = fin V → masso.get e = fin M → V ≠ 0 → rhoga.get e = fin (M / V))) ∧
    ref.names = ["thetao", "so", "volcello", "rho", "volo", "masso", "rhoga", "areacello"] := by
  simp only [setupReferenceState, hc, ok_bind, bind_ok, pure_ok] at h
  obtain ⟨pres, hp, rth, h1, rso, h2, rvol, h3, rrho, h4, volo, h5, area', h6, rfl⟩ := h
  obtain ⟨a1, j1, p1, q1, r1, s1, -, t1⟩ := refSlice_values h1
  obtain ⟨a2, j2, p2, q2, r2, s2, -, t2⟩ := refSlice_values h2
  obtain ⟨a3, j3, p3, q3, r3, s3, -, t3⟩ := refSlice_values h3
  refine ⟨?_, ⟨area', ?_, rfl⟩, ⟨rth, rso, rvol, rrho, volo, _, _, pres, rfl, rfl, rfl, rfl, rfl, rfl, rfl,
    isPressure_of hp, h4, h5, rfl, fun e V M hV hM h0 => ?_⟩, rfl⟩
  · intro name hn
    simp only [List.mem_cons, List.not_mem_nil, or_false] at hn
    rcases hn with rfl | rfl | rfl
    · exact ⟨a1, rth, j1, p1, rfl, q1, r1, s1, t1⟩
    · exact ⟨a2, rso, j2, p2, rfl, q2, r2, s2, t2⟩
    · exact ⟨a3, rvol, j3, p3, rfl, q3, r3, s3, t3⟩
  · unfold DS.getAttr at h6
    rw [getVar_lookup]
    cases hl : d.vars.lookup "areacello" with
    | none => rw [hl] at h6; cases h6
    | some b => rw [hl] at h6; cases h6; rfl
  · simp only [calcRhoga, DA.get_div]
    rw [hV, hM, fin_div_of_ne _ h0]

/-- The density of the reference state, point by point: the equation of state at the temperature and salinity of the
slice and the pressure of the depth. -/
theorem C31_density {i : Int} (h : setupReferenceState d patm eos cn i = .ok ref)
    (hc : defaultCoords cn = .ok (tc, zc, zb)) :
    ∃ th so rho z f, ref.getVar "thetao" = .ok th ∧ ref.getVar "so" = .ok so ∧ ref.getVar "rho" = .ok rho ∧
      Spec.IsDepth d zc z ∧ eosFuncFromStr eos "density" = .ok f ∧
      ∀ e, rho.get e = f (th.get e) (so.get e) (z.get e * fin 10000 + patm.get e) := by
  obtain ⟨-, -, ⟨th, so, vol, rho, volo, masso, rhoga, pres, h1, h2, -, h4, -, -, -, ⟨z, h8, rfl⟩, h9, -⟩, -⟩ :=
    C31_slice h hc
  obtain ⟨f, hf, rfl⟩ := calcRho_ok h9
  exact ⟨th, so, _, z, f, h1, h2, h4, h8, hf, fun e => rfl⟩

/-- Without `areacello` the function raises an AttributeError, whatever else would have succeeded. -/
theorem C31_no_area {i : Int} (h : setupReferenceState d patm eos cn i = .ok ref)
    (hc : defaultCoords cn = .ok (tc, zc, zb)) {z : DA (Fl ℝ)} (hz : d.getVar zc = .ok z) (hzc : zc ≠ "areacello") :
    setupReferenceState ⟨d.vars.filter (fun p => p.1 != "areacello"), d.coords⟩ patm eos cn i
      = .error .attributeError := by
  have hl : ∀ n, n ≠ "areacello" →
      (d.vars.filter (fun p => p.1 != "areacello")).lookup n = d.vars.lookup n := by
    intro n hn
    generalize d.vars = l
    induction l with
    | nil => rfl
    | cons p l ih =>
      obtain ⟨a, b⟩ := p
      by_cases ha : a = "areacello"
      · subst ha
        rw [List.filter_cons_of_neg (by simp), ih, List.lookup_cons, show (n == "areacello") = false by simpa using hn]
      · rw [List.filter_cons_of_pos (by simpa using ha), List.lookup_cons, List.lookup_cons, ih]
  have hlz : d.vars.lookup zc = some z := getVar_lookup.1 hz
  have hp : ∀ q : DA (Fl ℝ), pressureField ⟨d.vars.filter (fun p => p.1 != "areacello"), d.coords⟩ zc q
      = pressureField d zc q := by
    intro q
    unfold pressureField DS.getItem
    simp only [hl zc hzc, hlz]
  have hs : ∀ n, n ≠ "areacello" → refSlice ⟨d.vars.filter (fun p => p.1 != "areacello"), d.coords⟩ n tc i
      = refSlice d n tc i := by
    intro n hn
    unfold refSlice DS.getVar
    simp only [hl n hn]
  simp only [setupReferenceState, hc, ok_bind, bind_ok, pure_ok] at h
  obtain ⟨pres, hp', rth, h1, rso, h2, rvol, h3, rrho, h4, volo, h5, area', h6, rfl⟩ := h
  have hno : (d.vars.filter (fun p => p.1 != "areacello")).lookup "areacello" = none := by
    generalize d.vars = l
    induction l with
    | nil => rfl
    | cons p l ih =>
      obtain ⟨a, b⟩ := p
      by_cases ha : a = "areacello"
      · subst ha
        rw [List.filter_cons_of_neg (by simp), ih]
      · rw [List.filter_cons_of_pos (by simpa using ha), List.lookup_cons,
          show ("areacello" == a) = false by simpa using fun h => ha h.symm, ih]
  simp only [setupReferenceState, hc, ok_bind, hp, hp', hs "thetao" (by decide), hs "so" (by decide),
    hs "volcello" (by decide), h1, h2, h3, h4, h5, DS.getAttr, hno, error_bind]

/-- Defaults: first time level, Wright, standard atmosphere. -/
theorem C31_defaults (d : DS (Fl ℝ)) :
    setupReferenceState d = setupReferenceState d (DA.scalar (fin 101325)) "wright" (.dict []) 0 := by
  have e2 : (101325.0 : Fl ℝ) = fin 101325 := by rw [ofSci]; norm_num
  rw [← e2]
  rfl

/-- A time index outside the range never succeeds. -/
theorem C31_index {i : Int} (hc : defaultCoords cn = .ok (tc, zc, zb)) {a : DA (Fl ℝ)}
    (ha : d.getVar "thetao" = .ok a) (hi : (a.size tc : ℤ) ≤ i ∨ i < -(a.size tc : ℤ)) :
    ∃ err, setupReferenceState d patm eos cn i = .error err := by
  cases hs : setupReferenceState d patm eos cn i with
  | error e => exact ⟨e, rfl⟩
  | ok ref =>
    obtain ⟨a', b, j, h1, -, -, h3, h4, -⟩ := (C31_slice hs hc).1 "thetao" (by simp)
    have : a' = a := Except.ok.inj (h1.symm.trans ha)
    subst this
    split at h4 <;> omega

/-- A spatial dimension of size one makes `setup_reference_state` fail: `squeeze` drops it and
`calc_volo` then refuses the two-dimensional volume. -/
theorem C31_singleton {i : Int} (hc : defaultCoords cn = .ok (tc, zc, zb)) {vol : DA (Fl ℝ)}
    (hv : d.getVar "volcello" = .ok vol) (h4 : vol.dims.length = 4) {x : String} (hx : (x, 1) ∈ vol.dims)
    (hxt : x ≠ tc) : ∃ err, setupReferenceState d patm eos cn i = .error err := by
  cases hs : setupReferenceState d patm eos cn i with
  | error e => exact ⟨e, rfl⟩
  | ok ref =>
    exfalso
    simp only [setupReferenceState, hc, ok_bind, bind_ok, pure_ok] at hs
    obtain ⟨pres, hp, rth, h1, rso, h2, rvol, h3, rrho, h4', volo, h5, area', h6, rfl⟩ := hs
    obtain ⟨a, j, p, q, -, -, t, -⟩ := refSlice_values h3
    have : a = vol := Except.ok.inj (p.symm.trans hv)
    subst this
    have l1 := filter_ne_length q
    have l2 : ((a.dims.filter (fun p => p.1 != tc)).filter (fun p => p.2 != 1)).length
        < (a.dims.filter (fun p => p.1 != tc)).length := by
      rw [List.length_filter_lt_length_iff_exists]
      exact ⟨(x, 1), List.mem_filter.2 ⟨hx, by simpa using hxt⟩, by simp⟩
    have l3 : rvol.dims.length = 3 := by
      simp only [calcVolo, bind_ok] at h5
      obtain ⟨_, h6, -⟩ := h5
      unfold pyAssert at h6
      split at h6
      · rename_i h; simpa [DA.ndim] using h
      · cases h6
    rw [t] at l3
    omega

/-! ## C32 -/

/-- Feeding the returned reference back in reproduces the result. -/
theorem C32_feedback (h : steric d reference cn vm rhozero patm eos variant domain strict = .ok (r, ref)) :
    steric d (.dataset ref) cn vm rhozero patm eos variant domain strict = .ok (r, ref) := by
  rw [steric_ok_iff] at h ⊢
  obtain ⟨dd, tc', zc', zb', pres, th, so, rho, h1, h2, h3, h4, h5, h6, h7, h8, h9⟩ := h
  exact ⟨dd, tc', zc', zb', pres, th, so, rho, h1, h2, h3, h4, rfl, h6, h7, h8, h9⟩

/-! ## C33 -/

theorem infOfSign_ne_fin (c v : ℝ) : (infOfSign c : Fl ℝ) ≠ fin v := by
  unfold infOfSign; split
  · simp
  · split <;> simp

theorem infOfSign_eq_nan (c : ℝ) : (infOfSign c : Fl ℝ) = nan ↔ c = 0 := by
  unfold infOfSign
  rcases lt_trichotomy c 0 with h | h | h
  · rw [if_neg h.not_gt, if_pos h]; simp [h.ne]
  · subst h; simp
  · rw [if_pos h]; simp [h.ne']

/-- `rhozero * height` and the density change do not depend on `rhozero`. -/
theorem C33_scaling {x y : ℝ} {r' ref' : DS (Fl ℝ)}
    (h : steric d reference cn vm (fin x) patm eos variant domain strict = .ok (r, ref))
    (h' : steric d reference cn vm (fin y) patm eos variant domain strict = .ok (r', ref'))
    (hd : domain ≠ "global") :
    ref = ref' ∧ x ≠ 0 ∧ y ≠ 0 ∧ r.getVar "delta_rho" = r'.getVar "delta_rho" ∧
    ∃ a b, r.getVar variant = .ok a ∧ r'.getVar variant = .ok b ∧
      ∀ e, (∀ v, a.get e = fin v → b.get e = fin (x * v / y)) ∧ (a.get e = nan ↔ b.get e = nan) := by
  obtain ⟨dd, tc, zc, zb, pres, th, so, rho, h1, h2, h3, h4, h5, h6, h7, h8, h9⟩ := steric_ok_iff.1 h
  obtain ⟨dd', tc', zc', zb', pres', th', so', rho', h1', h2', h3', h4', h5', h6', h7', h8', h9'⟩ :=
    steric_ok_iff.1 h'
  cases h1.symm.trans h1'
  cases h2.symm.trans h2'
  cases h4.symm.trans h4'
  cases h5.symm.trans h5'
  cases h7.symm.trans h7'
  cases h8.symm.trans h8'
  simp only [stericResult, if_neg hd] at h9 h9'
  simp only [stericLocal, bind_ok, pure_ok] at h9 h9'
  obtain ⟨rvol, a1, rrho, a2, dr, a3, z, a4, zi, a5, depth, a6, dz, a7, _, a7', coef, a8, tot, a9, sl, a10,
    top, a11, rfl⟩ := h9
  obtain ⟨rvol', b1, rrho', b2, dr', b3, z', b4, zi', b5, depth', b6, dz', b7, _, b7', coef', b8, tot', b9, sl', b10,
    top', b11, rfl⟩ := h9'
  cases a1.symm.trans b1
  cases a2.symm.trans b2
  cases a3.symm.trans b3
  cases a4.symm.trans b4
  cases a5.symm.trans b5
  cases a6.symm.trans b6
  cases a7.symm.trans b7
  cases a9.symm.trans b9
  cases a11.symm.trans b11
  obtain ⟨hx, rfl⟩ := (coef_fin a8).1 x rfl
  obtain ⟨hy, rfl⟩ := (coef_fin b8).1 y rfl
  have hv := variant_mem h7
  have hne : (variant == "delta_rho") = false := by
    rw [beq_eq_false_iff_ne]
    rintro rfl; simp at hv
  refine ⟨rfl, hx, hy, rfl, DA.zip (fun s v => Fl.sel (Fl.notnull v) s .nan) sl top,
    DA.zip (fun s v => Fl.sel (Fl.notnull v) s .nan) sl' top,
    by rw [getVar_lookup]; simp [List.lookup_cons, hne],
    by rw [getVar_lookup]; simp [List.lookup_cons, hne], fun e => ?_⟩
  obtain ⟨-, s1, -⟩ := transposeE_ok a10
  obtain ⟨-, s2, -⟩ := transposeE_ok b10
  simp only [DA.get_zip, s1, s2, DA.get_map]
  cases notnull (top.get e) with
  | false => simp
  | true =>
    simp only [sel_true]
    have cx : (-1 / x : ℝ) ≠ 0 := div_ne_zero (by norm_num) hx
    have cy : (-1 / y : ℝ) ≠ 0 := div_ne_zero (by norm_num) hy
    cases ht : tot.get e with
    | nan => simp
    | fin w =>
      refine ⟨fun v hv => ?_, by simp⟩
      rw [fin_mul] at hv ⊢
      have := fin.inj hv
      subst this
      congr 1
      field_simp
    | pinf =>
      have e1 : ∀ c : ℝ, (fin c * pinf : Fl ℝ) = infOfSign c := fun _ => rfl
      rw [e1, e1]
      refine ⟨fun v hv => absurd hv (infOfSign_ne_fin _ _), ?_⟩
      rw [infOfSign_eq_nan, infOfSign_eq_nan]
      exact ⟨fun h => absurd h cx, fun h => absurd h cy⟩
    | ninf =>
      have e1 : ∀ c : ℝ, (fin c * ninf : Fl ℝ) = infOfSign (-c) := fun _ => rfl
      rw [e1, e1]
      refine ⟨fun v hv => absurd hv (infOfSign_ne_fin _ _), ?_⟩
      rw [infOfSign_eq_nan, infOfSign_eq_nan, neg_eq_zero, neg_eq_zero]
      exact ⟨fun h => absurd h cx, fun h => absurd h cy⟩

/-- `rhozero = 0` raises ZeroDivisionError where another value would have worked; the global result
does not use `rhozero`. -/
theorem C33_zero {x : ℝ}
    (h : steric d reference cn vm (fin x) patm eos variant domain strict = .ok (r, ref))
    (hd : domain ≠ "global") :
    steric d reference cn vm (fin 0) patm eos variant domain strict = .error .zeroDivisionError := by
  obtain ⟨dd, tc, zc, zb, pres, th, so, rho, h1, h2, h3, h4, h5, h6, h7, h8, h9⟩ := steric_ok_iff.1 h
  simp only [stericResult, if_neg hd] at h9
  simp only [stericLocal, bind_ok, pure_ok] at h9
  obtain ⟨rvol, a1, rrho, a2, dr, a3, z, a4, zi, a5, depth, a6, dz, a7, _, a7', coef, a8, tot, a9, sl, a10,
    top, a11, rfl⟩ := h9
  have hr : stericResult dd ref rho tc zc zb (fin 0) variant domain = .error .zeroDivisionError := by
    simp only [stericResult, if_neg hd, stericLocal, a1, a2, a3, a4, a5, a6, a7, a7', ok_bind, pyFloatDiv,
      if_true]
    rfl
  simp only [steric, h1, ok_bind, h2, h3, h4, h5, h6, h7, h8, hr]
  rfl

theorem C33_global (d : DS (Fl ℝ)) (reference : RefArg ℝ) (cn : DictArg)
    (vm : Option (List (String × String))) (x y : Fl ℝ) (patm : DA (Fl ℝ)) (eos variant : String)
    (strict : Bool) :
    steric d reference cn vm x patm eos variant "global" strict
      = steric d reference cn vm y patm eos variant "global" strict := by
  simp only [steric, stericResult, if_true]

end Momlevel.Props
