import Verif.Model.Steric
import Verif.Lemmas.Sum
import Verif.Props.Validate
import Verif.Props.N2

/-! Inversion of the steric pipeline. -/

set_option linter.unusedSectionVars false

namespace Momlevel
open Fl Eos Props

theorem bind_ok {α β : Type _} {x : Except PyErr α} {f : α → Except PyErr β} {b : β} :
    (x >>= f) = .ok b ↔ ∃ a, x = .ok a ∧ f a = .ok b := by
  cases x with
  | error e => simp
  | ok a => simp

theorem pure_ok {α : Type _} {a b : α} : (pure a : Except PyErr α) = .ok b ↔ a = b := by
  constructor
  · intro h; exact Except.ok.inj h
  · rintro rfl; rfl

variable {K : Type} [Field K] [LinearOrder K]

/-- A successful run, step by step. -/
theorem steric_ok_iff {d0 : DS (Fl ℝ)} {reference : RefArg ℝ} {cn : DictArg}
    {vm : Option (List (String × String))} {rhozero : Fl ℝ} {patm : DA (Fl ℝ)} {eos variant domain : String}
    {strict : Bool} {r ref : DS (Fl ℝ)} :
    steric d0 reference cn vm rhozero patm eos variant domain strict = .ok (r, ref) ↔
    ∃ d tc zc zb pres th so rho, d0.rename vm = .ok d ∧ defaultCoords cn = .ok (tc, zc, zb) ∧
      validateDataset d false strict (if domain = "global" then .none else .list [zb, "deptho"]) = .ok () ∧
      pressureField d zc patm = .ok pres ∧
      chooseReference d reference patm eos cn = .ok ref ∧
      validateDataset ref true strict = .ok () ∧
      stericFields d ref variant = .ok (th, so) ∧ calcRho th so pres eos = .ok rho ∧
      stericResult d ref rho tc zc zb rhozero variant domain = .ok r := by
  constructor
  · intro h
    simp only [steric, bind_ok, pure_ok] at h
    obtain ⟨d, h1, ⟨tc, zc, zb⟩, h2, ⟨⟩, h3, pres, h4, ref', h5, ⟨⟩, h6, ⟨th, so⟩, h7, rho, h8, r', h9, h10⟩ := h
    cases h10
    exact ⟨d, tc, zc, zb, pres, th, so, rho, h1, h2, h3, h4, h5, h6, h7, h8, h9⟩
  · rintro ⟨d, tc, zc, zb, pres, th, so, rho, h1, h2, h3, h4, h5, h6, h7, h8, h9⟩
    simp only [steric, h1, ok_bind, h2, h3, h4, h5, h6, h7, h8, h9]
    rfl

theorem calcRho_ok {th so pres rho : DA (Fl K)} {eos : String} (h : calcRho th so pres eos = .ok rho) :
    ∃ f, eosFuncFromStr eos "density" = .ok f ∧ rho = DA.zip3 f th so pres := by
  simp only [calcRho, applyEos, bind_ok] at h
  obtain ⟨f, h1, h2⟩ := h
  refine ⟨f, h1, ?_⟩
  split at h2
  · cases h2
  · exact (Except.ok.inj h2).symm

theorem pyIndex_zero {n k : Nat} (h : pyIndex n 0 = .ok k) : k = 0 ∧ 0 < n := by
  unfold pyIndex at h
  rw [if_pos le_rfl] at h
  split at h
  · rename_i h0
    exact ⟨(Except.ok.inj h).symm, by simpa using h0⟩
  · cases h

theorem iselE_ok {V : Type} {a b : DA V} {d : String} (h : a.iselE d 0 = .ok b) :
    d ∈ a.dimNames ∧ b = a.isel d 0 := by
  unfold DA.iselE at h
  split at h
  · rename_i hd
    simp only [bind_ok, pure_ok] at h
    obtain ⟨k, h1, h2⟩ := h
    obtain ⟨rfl, -⟩ := pyIndex_zero h1
    exact ⟨hd, h2.symm⟩
  · cases h

theorem filter_ne_length {l : List (String × Nat)} {tc : String} (h : tc ∈ l.map Prod.fst) :
    (l.filter (fun p => p.1 != tc)).length < l.length := by
  rw [List.length_filter_lt_length_iff_exists]
  obtain ⟨p, hp, rfl⟩ := List.mem_map.1 h
  exact ⟨p, hp, by simp⟩

/-- With four dimensions before and three after, `squeeze` removed nothing. -/
theorem refSlice_ok {d : DS (Fl K)} {name tc : String} {a b : DA (Fl K)}
    (ha : d.getVar name = .ok a) (h4 : a.dims.length = 4)
    (hb : refSlice d name tc 0 = .ok b) (h3 : b.dims.length = 3) :
    tc ∈ a.dimNames ∧ b.dims = a.dims.filter (fun p => p.1 != tc) ∧ (∀ p ∈ b.dims, p.2 ≠ 1) ∧
      ∀ e, b.get e = a.get (Function.update e tc 0) := by
  simp only [refSlice, ha, ok_bind, bind_ok, pure_ok] at hb
  obtain ⟨c, h1, h2⟩ := hb
  obtain ⟨htc, rfl⟩ := iselE_ok h1
  subst h2
  have hlt := filter_ne_length htc
  have hd : ((a.isel tc 0).dims.filter (fun p => p.2 != 1)).length = 3 := h3
  have hd2 : (a.isel tc 0).dims.length ≤ 3 := by
    have : (a.isel tc 0).dims = a.dims.filter (fun p => p.1 != tc) := rfl
    rw [this]; omega
  have hall : ∀ p ∈ (a.isel tc 0).dims, (p.2 != 1) = true := by
    rw [← List.length_filter_eq_length_iff]
    exact le_antisymm (List.length_filter_le _ _) (by omega)
  have hdims : (a.isel tc 0).squeeze.dims = (a.isel tc 0).dims := List.filter_eq_self.2 hall
  refine ⟨htc, hdims, ?_, fun e => ?_⟩
  · intro p hp
    rw [hdims] at hp
    simpa using hall p hp
  · show (a.isel tc 0).get (fun x => if (x, 1) ∈ (a.isel tc 0).dims then 0 else e x) = _
    have : ∀ x, ¬ (x, 1) ∈ (a.isel tc 0).dims := fun x hx => by simpa using hall _ hx
    simp only [this, if_false]
    rfl

theorem getVar_lookup {V : Type} {d : DS V} {n : String} {a : DA V} :
    d.getVar n = .ok a ↔ d.vars.lookup n = some a := by
  unfold DS.getVar
  cases d.vars.lookup n <;> simp

theorem rankOf_getVar {d : DS (Fl K)} {n : String} {k : Nat} (h : rankOf d n = some k) :
    ∃ a, d.getVar n = .ok a ∧ a.dims.length = k := by
  unfold rankOf at h
  cases hl : d.vars.lookup n with
  | none => rw [hl] at h; cases h
  | some a =>
    rw [hl] at h
    exact ⟨a, getVar_lookup.2 hl, by simpa using h⟩

theorem rankOf_of_getVar {d : DS (Fl K)} {n : String} {a : DA (Fl K)} (h : d.getVar n = .ok a) :
    rankOf d n = some a.dims.length := by
  unfold rankOf
  rw [getVar_lookup.1 h]; rfl

/-- The reference built from the first time level. -/
structure RefData (d ref : DS (Fl K)) (tc : String) (pres : DA (Fl K)) (f : EosFn (Fl K)) where
  (th so vol area rth rso rvol rrho volo : DA (Fl K))
  hth : d.getVar "thetao" = .ok th
  hso : d.getVar "so" = .ok so
  hvol : d.getVar "volcello" = .ok vol
  harea : d.getVar "areacello" = .ok area
  rhth : ref.getVar "thetao" = .ok rth
  rhso : ref.getVar "so" = .ok rso
  rhvol : ref.getVar "volcello" = .ok rvol
  rhrho : ref.getVar "rho" = .ok rrho
  rharea : ref.getVar "areacello" = .ok area
  rhvolo : ref.getVar "volo" = .ok volo
  rhmasso : ref.getVar "masso" = .ok (calcMasso rrho rvol tc)
  rhrhoga : ref.getVar "rhoga" = .ok (calcMasso rrho rvol tc / volo)
  hvolo : calcVolo rvol = .ok volo
  rho_eq : rrho = DA.zip3 f rth rso pres
  th_t : tc ∈ th.dimNames
  so_t : tc ∈ so.dimNames
  vol_t : tc ∈ vol.dimNames
  th_dims : rth.dims = th.dims.filter (fun p => p.1 != tc)
  so_dims : rso.dims = so.dims.filter (fun p => p.1 != tc)
  vol_dims : rvol.dims = vol.dims.filter (fun p => p.1 != tc)
  th_get : ∀ e, rth.get e = th.get (Function.update e tc 0)
  so_get : ∀ e, rso.get e = so.get (Function.update e tc 0)
  vol_get : ∀ e, rvol.get e = vol.get (Function.update e tc 0)
  vars_eq : ref.vars = [("thetao", rth), ("so", rso), ("volcello", rvol), ("rho", rrho),
    ("volo", volo), ("masso", calcMasso rrho rvol tc), ("rhoga", calcMasso rrho rvol tc / volo),
    ("areacello", area)]

theorem refData_of {d ref : DS (Fl ℝ)} {patm pres : DA (Fl ℝ)} {eos : String} {cn : DictArg}
    {tc zc zb : String} {strict : Bool} {av : VarsArg}
    (hc : defaultCoords cn = .ok (tc, zc, zb))
    (hv : validateDataset d false strict av = .ok ())
    (hp : pressureField d zc patm = .ok pres)
    (hr : setupReferenceState d patm eos cn = .ok ref)
    (hvr : validateDataset ref true strict = .ok ()) :
    ∃ f, eosFuncFromStr eos "density" = .ok f ∧ Nonempty (RefData d ref tc pres f) := by
  have v1 := (C34_iff d false strict av).1.1 hv
  have v2 := (C34_iff ref true strict .none).1.1 hvr
  obtain ⟨a3, a2, -, -, -, -⟩ := v1
  obtain ⟨b3, -, -, -, -, b6⟩ := v2
  obtain ⟨th, hth, th4⟩ := rankOf_getVar (a3 "thetao" (by simp))
  obtain ⟨so, hso, so4⟩ := rankOf_getVar (a3 "so" (by simp))
  obtain ⟨vol, hvol, vol4⟩ := rankOf_getVar (a3 "volcello" (by simp))
  obtain ⟨area, harea, -⟩ := rankOf_getVar a2
  simp only [setupReferenceState, hc, ok_bind, hp, bind_ok, pure_ok] at hr
  obtain ⟨rth, h1, rso, h2, rvol, h3, rrho, h4, volo, h5, area', h6, h7⟩ := hr
  obtain ⟨f, hf, hrho⟩ := calcRho_ok h4
  subst h7
  have h6' : area' = area := by
    have := getVar_lookup.1 harea
    unfold DS.getAttr at h6
    rw [this] at h6
    exact (Except.ok.inj h6).symm
  have r1 := b3 "thetao" (by simp)
  have r2 := b3 "so" (by simp)
  have r3 := b3 "volcello" (by simp)
  have k1 := refSlice_ok hth th4 h1 (by simpa [rankOf] using r1)
  have k2 := refSlice_ok hso so4 h2 (by simpa [rankOf, List.lookup_cons] using r2)
  have k3 := refSlice_ok hvol vol4 h3 (by simpa [rankOf, List.lookup_cons] using r3)
  exact ⟨f, hf, ⟨{
    th := th, so := so, vol := vol, area := area, rth := rth, rso := rso, rvol := rvol, rrho := rrho,
    volo := volo, hth := hth, hso := hso, hvol := hvol, harea := harea, rhth := rfl, rhso := rfl,
    rhvol := rfl, rhrho := rfl, rharea := by rw [h6']; rfl, rhvolo := rfl, rhmasso := rfl, rhrhoga := rfl,
    hvolo := h5, rho_eq := hrho, th_t := k1.1, so_t := k2.1, vol_t := k3.1, th_dims := k1.2.1,
    so_dims := k2.2.1, vol_dims := k3.2.1, th_get := k1.2.2.2, so_get := k2.2.2.2,
    vol_get := k3.2.2.2, vars_eq := by rw [h6']; rfl }⟩⟩

/-- The fields used by each variant. -/
theorem stericFields_ok {d ref : DS (Fl K)} {variant : String} {th so : DA (Fl K)}
    (h : stericFields d ref variant = .ok (th, so)) :
    (variant = "thermosteric" ∧ d.getVar "thetao" = .ok th ∧ ref.getVar "so" = .ok so) ∨
    (variant = "halosteric" ∧ ref.getVar "thetao" = .ok th ∧ d.getVar "so" = .ok so) ∨
    (variant = "steric" ∧ d.getVar "thetao" = .ok th ∧ d.getVar "so" = .ok so) := by
  unfold stericFields at h
  split at h
  · rename_i hv
    simp only [bind_ok, pure_ok] at h
    obtain ⟨a, h1, b, h2, h3⟩ := h
    cases h3
    exact Or.inl ⟨hv, h1, h2⟩
  · split at h
    · rename_i hv
      simp only [bind_ok, pure_ok] at h
      obtain ⟨a, h1, b, h2, h3⟩ := h
      cases h3
      exact Or.inr (Or.inl ⟨hv, h1, h2⟩)
    · split at h
      · rename_i hv
        simp only [bind_ok, pure_ok] at h
        obtain ⟨a, h1, b, h2, h3⟩ := h
        cases h3
        exact Or.inr (Or.inr ⟨hv, h1, h2⟩)
      · cases h

theorem variant_mem {d ref : DS (Fl K)} {variant : String} {th so : DA (Fl K)}
    (h : stericFields d ref variant = .ok (th, so)) :
    variant ∈ ["thermosteric", "halosteric", "steric"] := by
  rcases stericFields_ok h with ⟨h, -⟩ | ⟨h, -⟩ | ⟨h, -⟩ <;> simp [h]

theorem transposeE_ok {V : Type} {a b : DA V} {d : String} (h : a.transposeE d = .ok b) :
    d ∈ a.dimNames ∧ b.get = a.get ∧ b = a.transposeFirst d := by
  unfold DA.transposeE at h
  split at h
  · rename_i hd
    cases h
    exact ⟨hd, rfl, rfl⟩
  · cases h

theorem sumDimE_ok {a b : DA (Fl K)} {d : String} (h : a.sumDimE d = .ok b) :
    d ∈ a.dimNames ∧ b = a.sumDim d := by
  unfold DA.sumDimE at h
  split at h
  · rename_i hd
    exact ⟨hd, (Except.ok.inj h).symm⟩
  · cases h

theorem levelsAlone_ok {V : Type} {d : DS V} {zc : String} : levelsAlone d zc = .ok () ↔
    ∀ p ∈ d.vars, p.1 ∈ d.coords → p.1 ≠ zc → ∃ x ∈ p.2.dimNames, x ≠ zc := by
  unfold levelsAlone
  split
  · rename_i h
    simp only [reduceCtorEq, false_iff]
    intro hn
    obtain ⟨p, hp, h2⟩ := List.any_eq_true.1 h
    simp only [Bool.and_eq_true, bne_iff_ne, List.contains_iff_mem, List.all_eq_true, beq_iff_eq] at h2
    obtain ⟨x, hx, hne⟩ := hn p hp h2.1.2 h2.1.1
    exact hne (h2.2 x hx)
  · rename_i h
    simp only [true_iff]
    intro p hp hc hz
    by_contra hx
    push Not at hx
    refine h (List.any_eq_true.2 ⟨p, hp, ?_⟩)
    simp only [Bool.and_eq_true, bne_iff_ne, List.contains_iff_mem, List.all_eq_true, beq_iff_eq]
    exact ⟨⟨hz, hc⟩, hx⟩

theorem levelsAlone_error {V : Type} {d : DS V} {zc : String} {e : PyErr} (h : levelsAlone d zc = .error e) :
    e = .valueError := by
  unfold levelsAlone at h
  split at h <;> cases h
  rfl

/-- The local result, pointwise. -/
structure LocalRun (d ref r : DS (Fl K)) (rho : DA (Fl K)) (tc zc zb variant : String)
    (rhozero : Fl K) where
  (rvol rrho dr z zi depth dz res : DA (Fl K))
  (n : Nat)
  (coef : Fl K)
  hrvol : ref.getVar "volcello" = .ok rvol
  hrrho : ref.getVar "rho" = .ok rrho
  hz : d.getItem zc = .ok z
  hzi : d.getItem zb = .ok zi
  hdepth : d.getVar "deptho" = .ok depth
  hdz : calcDz z zi depth = .ok dz
  halone : levelsAlone d zc = .ok ()
  hcoef : pyFloatDiv (-1.0 : Fl K) rhozero = .ok coef
  hdr : r.vars.lookup "delta_rho" = some dr
  hres : variant ≠ "delta_rho" → r.vars.lookup variant = some res
  hn : n = (dz * dr).size zc
  hzn : zc ∈ (dz * dr).dimNames
  dr_get : ∀ e, dr.get e = Fl.sel (Fl.notnull (rvol.get e)) (rho.get e - rrho.get e) .nan
  res_get : ∀ e, res.get e = Fl.sel (Fl.notnull (rvol.get (Function.update e zc 0)))
    (coef * nansumN n (fun k => dz.get (Function.update e zc k) * dr.get (Function.update e zc k))) .nan
  dr_dims : dr.dims = ((DA.bdims rvol.dims (DA.bdims rho.dims rrho.dims)).filter (fun p => p.1 == tc)) ++
    ((DA.bdims rvol.dims (DA.bdims rho.dims rrho.dims)).filter (fun p => p.1 != tc))
  htc : tc ∈ dr.dimNames

theorem localRun_of {d ref r : DS (Fl K)} {rho : DA (Fl K)} {tc zc zb variant : String} {rhozero : Fl K}
    (h : stericLocal d ref rho tc zc zb rhozero variant = .ok r) :
    Nonempty (LocalRun d ref r rho tc zc zb variant rhozero) := by
  simp only [stericLocal, bind_ok, pure_ok] at h
  obtain ⟨rvol, h1, rrho, h2, dr, h3, z, h4, zi, h5, depth, h6, dz, h7, _, halone, coef, h8, tot, h9, sl, h10,
    top, h11, rfl⟩ := h
  obtain ⟨t1, t2, t3⟩ := transposeE_ok h3
  obtain ⟨s1, rfl⟩ := sumDimE_ok h9
  obtain ⟨-, u2, -⟩ := transposeE_ok h10
  obtain ⟨-, rfl⟩ := iselE_ok h11
  refine ⟨{
    rvol := rvol, rrho := rrho, dr := dr, z := z, zi := zi, depth := depth, dz := dz,
    res := DA.zip (fun s v => Fl.sel (Fl.notnull v) s .nan) sl (rvol.isel zc 0),
    n := (dz * dr).size zc, coef := coef, hrvol := h1, hrrho := h2, hz := h4, hzi := h5, hdepth := h6,
    hdz := h7, halone := halone, hcoef := h8, hdr := rfl, hres := fun hv => ?_, hn := rfl, hzn := s1, dr_get := ?_,
    res_get := fun e => ?_, dr_dims := ?_, htc := ?_ }⟩
  · have : (variant == "delta_rho") = false := by simpa using hv
    simp [List.lookup_cons, this]
  · intro e; rw [t2]; rfl
  · show Fl.sel _ (sl.get e) .nan = _
    rw [u2]; rfl
  · rw [t3]; rfl
  · rw [t3]
    unfold DA.dimNames DA.transposeFirst
    rw [List.map_append, List.mem_append]
    left
    obtain ⟨p, hp, hpt⟩ := List.mem_map.1 t1
    exact List.mem_map.2 ⟨p, List.mem_filter.2 ⟨hp, by simpa using hpt⟩, hpt⟩

/-- The global result, pointwise. -/
structure GlobalRun (ref r : DS (Fl ℝ)) (rho : DA (Fl ℝ)) (tc variant : String) where
  (rvol rhoga volo area height res : DA (Fl ℝ))
  hrvol : ref.getVar "volcello" = .ok rvol
  hrhoga : ref.getVar "rhoga" = .ok rhoga
  hvolo : ref.getVar "volo" = .ok volo
  harea : ref.getVar "areacello" = .ok area
  hheight : r.vars.lookup "reference_height" = some height
  hres : variant ≠ "reference_height" → r.vars.lookup variant = some res
  height_get : ∀ e, height.get e = volo.get e / area.sumAll.get e
  res_get : ∀ e, res.get e = height.get e *
    npLog (rhoga.get e / ((calcMasso rho rvol tc).get e / volo.get e))

theorem globalRun_of {ref r : DS (Fl ℝ)} {rho : DA (Fl ℝ)} {tc variant : String}
    (h : stericGlobal ref rho tc variant = .ok r) : Nonempty (GlobalRun ref r rho tc variant) := by
  simp only [stericGlobal, bind_ok, pure_ok] at h
  obtain ⟨rvol, h1, rhoga, h2, volo, h3, area, h4, rfl⟩ := h
  refine ⟨{
    rvol := rvol, rhoga := rhoga, volo := volo, area := area, height := _,
    res := (volo / area.sumAll) * (rhoga / (calcMasso rho rvol tc / volo)).map npLog,
    hrvol := h1, hrhoga := h2, hvolo := h3, harea := h4, hheight := rfl, hres := fun hv => ?_,
    height_get := fun e => rfl, res_get := ?_ }⟩
  · have : (variant == "reference_height") = false := by simpa using hv
    simp [List.lookup_cons, this]
  · intro e; rfl

theorem sub_self_cases (x : Fl K) : x - x = fin 0 ∨ x - x = nan := by
  cases x with
  | nan => right; rfl
  | fin a => left; simp
  | pinf => right; rfl
  | ninf => right; rfl

theorem mul_zero_cases (x : Fl K) : x * fin 0 = fin 0 ∨ x * fin 0 = nan := by
  cases x with
  | nan => right; rfl
  | fin a => left; simp
  | pinf => right; show infOfSign 0 = nan; simp [infOfSign]
  | ninf => right; show infOfSign (-0) = nan; simp [infOfSign]

theorem nansumN_zero {n : Nat} {f : Nat → Fl K} (h : ∀ k, f k = fin 0 ∨ f k = nan) :
    nansumN n f = fin 0 := by
  rw [nansumN_eq]
  · congr 1
    refine Finset.sum_eq_zero (fun i _ => ?_)
    rcases h i with h | h <;> rw [h] <;> rfl
  · intro i _
    rcases h i with h | h <;> rw [h] <;> simp

theorem coef_fin [IsStrictOrderedRing K] {rhozero c : Fl K} (h : pyFloatDiv (-1.0 : Fl K) rhozero = .ok c) :
    (∀ x, rhozero = fin x → x ≠ 0 ∧ c = fin (-1 / x)) ∧ (rhozero ≠ nan → ∃ y, c = fin y) := by
  have e1 : (-1.0 : Fl K) = fin (-1) := by rw [ofSci, fin_neg]; norm_num
  rw [e1] at h
  unfold pyFloatDiv at h
  split at h
  · cases h
  · rename_i hne
    have h := (Except.ok.inj h).symm
    subst h
    cases rhozero with
    | nan => simp
    | pinf => exact ⟨fun x hx => (nomatch hx), fun _ => ⟨0, rfl⟩⟩
    | ninf => exact ⟨fun x hx => (nomatch hx), fun _ => ⟨0, rfl⟩⟩
    | fin x =>
      have hx : x ≠ 0 := fun h => hne (by rw [h])
      refine ⟨fun y hy => ?_, fun _ => ⟨_, fin_div_of_ne _ hx⟩⟩
      cases hy
      exact ⟨hx, fin_div_of_ne _ hx⟩

theorem filter_bdims (a b : List (String × Nat)) (tc : String) :
    (DA.bdims a b).filter (fun p => p.1 != tc)
      = DA.bdims (a.filter (fun p => p.1 != tc)) (b.filter (fun p => p.1 != tc)) := by
  unfold DA.bdims
  rw [List.filter_append, List.filter_filter, List.filter_filter]
  congr 1
  refine List.filter_congr (fun p _ => ?_)
  by_cases h : p.1 = tc
  · simp [h]
  · have : ((a.filter (fun p => p.1 != tc)).map Prod.fst).contains p.1 = (a.map Prod.fst).contains p.1 := by
      rw [Bool.eq_iff_iff]
      simp only [List.contains_iff_mem, List.mem_map, List.mem_filter]
      constructor
      · rintro ⟨q, ⟨hq, _⟩, e⟩; exact ⟨q, hq, e⟩
      · rintro ⟨q, hq, e⟩; exact ⟨q, ⟨hq, by simpa [e] using h⟩, e⟩
    rw [this, Bool.and_comm]

/-- Mass at a time level only depends on the density at that level. -/
theorem calcMasso_congr {rho rho' vol : DA (Fl K)} {tc : String} {e : Env}
    (hd : (rho * vol).dims.filter (fun p => p.1 != tc) = (rho' * vol).dims.filter (fun p => p.1 != tc))
    (hg : ∀ m : Env, m tc = e tc → rho.get m = rho'.get m) :
    (calcMasso rho vol tc).get e = (calcMasso rho' vol tc).get e := by
  have key : ∀ r : DA (Fl K), (calcMasso r vol tc).get e = Fl.nansum
      ((DA.envs ((r * vol).dims.filter (fun p => p.1 != tc))).map (fun e' => (r * vol).get
        (fun d => if (((r * vol).dims.filter (fun p => p.1 != tc)).map Prod.fst).contains d then e' d
          else e d))) := by
    intro r
    have hf : (r * vol).dims.filter (fun p => ((r * vol).dimNames.filter (fun x => x != tc)).contains p.1)
        = (r * vol).dims.filter (fun p => p.1 != tc) := by
      refine List.filter_congr (fun p hp => ?_)
      have hm : p.1 ∈ (r * vol).dimNames := List.mem_map_of_mem hp
      by_cases h : p.1 = tc <;> simp [h, hm]
    have hn : (r * vol).dimNames.filter (fun x => x != tc)
        = ((r * vol).dims.filter (fun p => p.1 != tc)).map Prod.fst := by
      unfold DA.dimNames
      rw [List.filter_map]; rfl
    show Fl.nansum _ = _
    rw [hf, hn]
  rw [key rho, key rho', hd]
  congr 2
  funext e'
  simp only [DA.get_mul]
  rw [hg]
  have : (((rho' * vol).dims.filter (fun p => p.1 != tc)).map Prod.fst).contains tc = false := by
    rw [Bool.eq_false_iff]
    intro h
    simp at h
  simp only [this, Bool.false_eq_true, if_false]

end Momlevel
