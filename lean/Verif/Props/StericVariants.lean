import Verif.Props.Steric

/-! # C26–C28: the steric variants -/

set_option linter.unusedSectionVars false

namespace Momlevel.Props
open Momlevel Momlevel.Fl Momlevel.Eos

variable {d r ref : DS (Fl ℝ)} {reference : RefArg ℝ} {cn : DictArg}
  {vm : Option (List (String × String))} {rhozero : Fl ℝ} {patm : DA (Fl ℝ)}
  {eos variant domain : String} {strict : Bool} {tc zc zb : String}

/-! ## C26 -/

/-- Two datasets that differ only in the values of variable `v`, which keeps its dimensions; `v`
agrees at the first time level unless a reference is supplied. -/
structure DiffersOnlyIn (v tc : String) (supplied : Prop) (d d' : DS (Fl ℝ)) : Prop where
  coords : d.coords = d'.coords
  vars : List.Forall₂ (fun p q : String × DA (Fl ℝ) => p.1 = q.1 ∧ p.2.dims = q.2.dims ∧
    (p.1 ≠ v → p.2 = q.2) ∧ (¬ supplied → ∀ e, e tc = 0 → p.2.get e = q.2.get e)) d.vars d'.vars

section
variable {v : String} {supplied : Prop} {d' : DS (Fl ℝ)}

theorem DiffersOnlyIn.names (h : DiffersOnlyIn v tc supplied d d') : d.names = d'.names := by
  unfold DS.names
  have := h.vars
  generalize d.vars = l, d'.vars = l' at this
  induction this with
  | nil => rfl
  | cons h _ ih => rw [List.map_cons, List.map_cons, h.1, ih]

theorem DiffersOnlyIn.alone (h : DiffersOnlyIn v tc supplied d d') (zc : String) :
    levelsAlone d zc = levelsAlone d' zc := by
  unfold levelsAlone
  rw [h.coords]
  have := h.vars
  have e : d.vars.any (fun p => p.1 != zc && d'.coords.contains p.1 && p.2.dimNames.all (fun x => x == zc))
      = d'.vars.any (fun p => p.1 != zc && d'.coords.contains p.1 && p.2.dimNames.all (fun x => x == zc)) := by
    generalize d.vars = l, d'.vars = l' at this
    induction this with
    | nil => rfl
    | @cons p q l m h _ ih =>
      have e : p.2.dimNames = q.2.dimNames := by simp only [DA.dimNames, h.2.1]
      rw [List.any_cons, List.any_cons, ih, h.1, e]
  rw [e]

theorem DiffersOnlyIn.alldims (h : DiffersOnlyIn v tc supplied d d') :
    d.vars.flatMap (fun p => p.2.dims) = d'.vars.flatMap (fun p => p.2.dims) := by
  have := h.vars
  generalize d.vars = l, d'.vars = l' at this
  induction this with
  | nil => rfl
  | cons h _ ih => rw [List.flatMap_cons, List.flatMap_cons, h.2.1, ih]

theorem DiffersOnlyIn.lookup (h : DiffersOnlyIn v tc supplied d d') (n : String) :
    (d.vars.lookup n = none ∧ d'.vars.lookup n = none) ∨
    ∃ a b, d.vars.lookup n = some a ∧ d'.vars.lookup n = some b ∧ a.dims = b.dims ∧
      (n ≠ v → a = b) ∧ (¬ supplied → ∀ e, e tc = 0 → a.get e = b.get e) := by
  have := h.vars
  generalize d.vars = l, d'.vars = l' at this
  induction this with
  | nil => left; exact ⟨rfl, rfl⟩
  | @cons p q _ _ h _ ih =>
    obtain ⟨p1, p2⟩ := p
    obtain ⟨q1, q2⟩ := q
    obtain ⟨h1, h2, h3, h4⟩ := h
    simp only at h1 h2 h3 h4
    subst h1
    simp only [List.lookup_cons]
    by_cases hn : n = p1
    · subst hn
      right
      exact ⟨p2, q2, by simp, by simp, h2, h3, h4⟩
    · have : (n == p1) = false := by simpa using hn
      rw [this]
      exact ih

theorem DiffersOnlyIn.getVar (h : DiffersOnlyIn v tc supplied d d') {n : String} (hn : n ≠ v) :
    d.getVar n = d'.getVar n := by
  unfold DS.getVar
  rcases h.lookup n with ⟨h1, h2⟩ | ⟨a, b, h1, h2, -, h3, -⟩
  · rw [h1, h2]
  · rw [h1, h2, h3 hn]

theorem DiffersOnlyIn.getAttr (h : DiffersOnlyIn v tc supplied d d') {n : String} (hn : n ≠ v) :
    d.getAttr n = d'.getAttr n := by
  unfold DS.getAttr
  rcases h.lookup n with ⟨h1, h2⟩ | ⟨a, b, h1, h2, -, h3, -⟩
  · rw [h1, h2]
  · rw [h1, h2, h3 hn]

theorem DiffersOnlyIn.getItem (h : DiffersOnlyIn v tc supplied d d') {n : String} (hn : n ≠ v) :
    d.getItem n = d'.getItem n := by
  unfold DS.getItem
  rw [h.alldims]
  rcases h.lookup n with ⟨h1, h2⟩ | ⟨a, b, h1, h2, -, h3, -⟩
  · rw [h1, h2]
  · rw [h1, h2, h3 hn]

theorem DiffersOnlyIn.validate (h : DiffersOnlyIn v tc supplied d d') (hv : v ≠ "areacello")
    (reference strict : Bool) (av : VarsArg) :
    validateDataset d reference strict av = validateDataset d' reference strict av := by
  have hr : ∀ n, ((d.vars.lookup n).map DA.ndim) = ((d'.vars.lookup n).map DA.ndim) := by
    intro n
    rcases h.lookup n with ⟨h1, h2⟩ | ⟨a, b, h1, h2, h3, -, -⟩
    · rw [h1, h2]
    · rw [h1, h2]; simp [DA.ndim, h3]
  have ha : d.vars.lookup "areacello" = d'.vars.lookup "areacello" := by
    rcases h.lookup "areacello" with ⟨h1, h2⟩ | ⟨a, b, h1, h2, -, h3, -⟩
    · rw [h1, h2]
    · rw [h1, h2, h3 hv.symm]
  unfold validateDataset validateErrors
  rw [h.names, h.coords, ha]
  simp only [hr]

theorem DiffersOnlyIn.refSlice (h : DiffersOnlyIn v tc False d d') (n : String) :
    Momlevel.refSlice d n tc 0 = Momlevel.refSlice d' n tc 0 := by
  unfold Momlevel.refSlice DS.getVar
  rcases h.lookup n with ⟨h1, h2⟩ | ⟨a, b, h1, h2, h3, -, h4⟩
  · rw [h1, h2]
  · rw [h1, h2]
    have e1 : a.iselE tc 0 = b.iselE tc 0 := by
      unfold DA.iselE DA.dimNames DA.size DA.isel
      rw [h3]
      split
      · unfold pyIndex
        rw [if_pos le_rfl]
        split
        · show Except.ok _ = Except.ok _
          congr 2
          funext e
          exact h4 id _ (Function.update_self _ _ _)
        · rfl
      · rfl
    simp only [ok_bind, e1]

theorem DiffersOnlyIn.chooseReference
    (h : DiffersOnlyIn v tc (∃ x, reference = .dataset x) d d')
    (hc : defaultCoords cn = .ok (tc, zc, zb)) (hz : zc ≠ v) (hv : v ≠ "areacello") :
    Momlevel.chooseReference d reference patm eos cn
      = Momlevel.chooseReference d' reference patm eos cn := by
  cases reference with
  | dataset x => rfl
  | other => rfl
  | none =>
    have h' : DiffersOnlyIn v tc False d d' := ⟨h.coords, by simpa using h.vars⟩
    simp only [Momlevel.chooseReference, setupReferenceState, hc, ok_bind, pressureField,
      h'.getItem hz, h'.refSlice, h'.getAttr hv.symm]

/-- What the two theorems below share. -/
theorem steric_only (h : DiffersOnlyIn v tc (∃ x, reference = .dataset x) d d')
    (hc : defaultCoords cn = .ok (tc, zc, zb)) (hz : zc ≠ v) (hzb : zb ≠ v) (hv : v ≠ "areacello")
    (hd : v ≠ "deptho")
    (hf : ∀ ref, stericFields d ref variant = stericFields d' ref variant) :
    steric d reference cn none rhozero patm eos variant domain strict
      = steric d' reference cn none rhozero patm eos variant domain strict := by
  have hr : ∀ ref rho, stericResult d ref rho tc zc zb rhozero variant domain
      = stericResult d' ref rho tc zc zb rhozero variant domain := by
    intro ref rho
    simp only [stericResult, stericLocal, h.getItem hz, h.getItem hzb, h.getVar hd.symm, h.alone]
  simp only [steric, DS.rename, ok_bind, hc, h.validate hv, pressureField, h.getItem hz,
    h.chooseReference hc hz hv, hf, hr]

end

/-- Thermosteric output (or its failure) is the same for any two datasets differing only in
salinity after the first time level; with a supplied reference, in salinity at any time. -/
theorem C26_thermosteric {d' : DS (Fl ℝ)}
    (h : DiffersOnlyIn "so" tc (∃ x, reference = .dataset x) d d')
    (hc : defaultCoords cn = .ok (tc, zc, zb)) (hz : zc ≠ "so") (hzb : zb ≠ "so") :
    thermosteric d reference cn none rhozero patm eos domain strict
      = thermosteric d' reference cn none rhozero patm eos domain strict := by
  refine steric_only h hc hz hzb (by decide) (by decide) (fun ref => ?_)
  simp only [stericFields, h.getVar (n := "thetao") (by decide), if_true]

/-- Halosteric output likewise ignores temperature change. -/
theorem C26_halosteric {d' : DS (Fl ℝ)}
    (h : DiffersOnlyIn "thetao" tc (∃ x, reference = .dataset x) d d')
    (hc : defaultCoords cn = .ok (tc, zc, zb)) (hz : zc ≠ "thetao") (hzb : zb ≠ "thetao") :
    halosteric d reference cn none rhozero patm eos domain strict
      = halosteric d' reference cn none rhozero patm eos domain strict := by
  refine steric_only h hc hz hzb (by decide) (by decide) (fun ref => ?_)
  simp only [stericFields, h.getVar (n := "so") (by decide), if_true]
  rfl

/-- Salinity that changes after the first time level. -/
example : ∃ d d' : DS (Fl ℝ), DiffersOnlyIn "so" "time" (∃ x, RefArg.none = RefArg.dataset (K := ℝ) x) d d'
    ∧ d ≠ d' := by
  refine ⟨⟨[("thetao", ⟨[("time", 2)], fun _ => fin 10⟩), ("so", ⟨[("time", 2)], fun _ => fin 35⟩)], []⟩,
    ⟨[("thetao", ⟨[("time", 2)], fun _ => fin 10⟩),
      ("so", ⟨[("time", 2)], fun e => fin (35 + e "time")⟩)], []⟩, ⟨rfl, ?_⟩, fun h => ?_⟩
  · refine .cons ⟨rfl, rfl, fun _ => rfl, fun _ _ _ => rfl⟩ (.cons ⟨rfl, rfl, fun h => absurd rfl h, ?_⟩ .nil)
    intro _ e he
    simp [he]
  · simp only [DS.mk.injEq, List.cons.injEq, Prod.mk.injEq, DA.mk.injEq, true_and, and_true] at h
    have := congrFun h (fun _ => 1)
    simp at this

/-! ## Local results from the input fields -/

/-- The cell `k` of the column at `e`. -/
abbrev cell (zc : String) (e : Env) (k : Nat) : Env := Function.update e zc k
/-- The same cell at the first time level. -/
abbrev cell0 (tc zc : String) (e : Env) (k : Nat) : Env := Function.update (cell zc e k) tc 0

/-- With the first time level as reference: the local result from densities `x k` (as used by the
variant) and `x0 k` (reference) of the cells that have a reference volume. -/
theorem local_value
    (h : steric d .none cn none rhozero patm eos variant domain strict = .ok (r, ref))
    (hd : domain ≠ "global") (hc : defaultCoords cn = .ok (tc, zc, zb))
    {zid : String} {n : Nat} {lev ifc : Nat → ℝ} {depth : DA (Fl ℝ)}
    (G : OceanGrid d zc zb zid n lev ifc depth) {ρ0 : ℝ} (hρ : rhozero = fin ρ0)
    {th so vol : DA (Fl ℝ)} (hth : d.getVar "thetao" = .ok th) (hso : d.getVar "so" = .ok so)
    (hvol : d.getVar "volcello" = .ok vol) {f : EosFn (Fl ℝ)}
    (hf : eosFuncFromStr eos "density" = .ok f)
    (P : Env → Nat → Fl ℝ) (hP : ∀ e, ∀ k < n, P e k = fin (lev k * 10 ^ 4) + patm.get (cell zc e k)) :
    ∃ a, r.getVar variant = .ok a ∧ ρ0 ≠ 0 ∧
      ∀ e, depth.InBounds e → ∀ x x0 : Nat → ℝ,
        (∀ k < n, vol.get (cell0 tc zc e k) ≠ nan →
          f (th.get (if variant = "halosteric" then cell0 tc zc e k else cell zc e k))
            (so.get (if variant = "thermosteric" then cell0 tc zc e k else cell zc e k)) (P e k)
            = fin (x k)) →
        (∀ k < n, vol.get (cell0 tc zc e k) ≠ nan →
          f (th.get (cell0 tc zc e k)) (so.get (cell0 tc zc e k)) (P e k) = fin (x0 k)) →
        a.get e = if vol.get (cell0 tc zc e 0) = nan then nan else
          fin (-(1 / ρ0) * ∑ k ∈ Finset.range n, if vol.get (cell0 tc zc e k) = nan then 0 else
            thickness ifc (val0 (depth.get e)) k * (x k - x0 k)) := by
  obtain ⟨a, dr, vol', k1, k2, k3, k4, k5⟩ := C25_formula h hd hc G hρ
  refine ⟨a, k1, k4, fun e he x x0 hx hx0 => ?_⟩
  obtain ⟨dd, tc', zc', zb', pres, th', so', rho, h1, h2, h3, h4, h5, h6, h7, h8, h9⟩ := steric_ok_iff.1 h
  rw [hc] at h2
  cases h2
  have h1 : d = dd := Except.ok.inj h1
  subst h1
  obtain ⟨f0, hf0, ⟨D⟩⟩ := refData_of hc h3 h4 h5 h6
  have : f0 = f := Except.ok.inj (hf0.symm.trans hf)
  subst this
  obtain ⟨f', hf', hrho⟩ := calcRho_ok h8
  rw [hf] at hf'
  cases hf'
  simp only [stericResult, if_neg hd] at h9
  obtain ⟨L⟩ := localRun_of h9
  have t1 : D.th = th := Except.ok.inj (D.hth.symm.trans hth)
  have t2 : D.so = so := Except.ok.inj (D.hso.symm.trans hso)
  have t3 : D.vol = vol := Except.ok.inj (D.hvol.symm.trans hvol)
  have t4 : vol' = D.rvol := Except.ok.inj (k3.symm.trans D.rhvol)
  have t5 : L.rvol = D.rvol := Except.ok.inj (L.hrvol.symm.trans D.rhvol)
  have t6 : L.rrho = D.rrho := Except.ok.inj (L.hrrho.symm.trans D.rhrho)
  have t7 : dr = L.dr := Except.ok.inj (k2.symm.trans (getVar_lookup.2 L.hdr))
  obtain ⟨z, zi, g1, g2, g3⟩ := G.grid
  have hpres : ∀ k < n, pres.get (cell zc e k) = P e k := by
    intro k hk
    simp only [pressureField, g1, ok_bind, pure_ok] at h4
    rw [← h4, hP e k hk]
    simp only [DA.get_add, DA.get_mul, DA.get_scalar, g3.lget, Function.update_self]
    rw [ofSci, fin_mul]
    norm_num
  have hv : ∀ k, vol'.get (cell zc e k) = vol.get (cell0 tc zc e k) := by
    intro k; rw [t4, D.vol_get, t3]
  have hrr : ∀ k < n, D.rrho.get (cell zc e k)
      = f0 (th.get (cell0 tc zc e k)) (so.get (cell0 tc zc e k)) (P e k) := by
    intro k hk
    rw [D.rho_eq]
    simp only [DA.get_zip3, D.th_get, D.so_get, t1, t2, hpres k hk]
  have hrn : ∀ k < n, rho.get (cell zc e k)
      = f0 (th.get (if variant = "halosteric" then cell0 tc zc e k else cell zc e k))
            (so.get (if variant = "thermosteric" then cell0 tc zc e k else cell zc e k)) (P e k) := by
    intro k hk
    rw [hrho]
    simp only [DA.get_zip3, hpres k hk]
    rcases stericFields_ok h7 with ⟨hvar, p, q⟩ | ⟨hvar, p, q⟩ | ⟨hvar, p, q⟩
    · rw [hth] at p; rw [D.rhso] at q
      cases p; cases q
      simp [hvar, D.so_get, t2]
    · rw [hso] at q; rw [D.rhth] at p
      cases p; cases q
      simp [hvar, D.th_get, t1]
    · rw [hso] at q; rw [hth] at p
      cases p; cases q
      simp [hvar]
  have hdr : ∀ k < n, dr.get (cell zc e k) = if vol.get (cell0 tc zc e k) = nan then nan
      else fin (x k - x0 k) := by
    intro k hk
    rw [t7, L.dr_get, t5, t6, hrr k hk, hrn k hk, ← t4, hv]
    by_cases hx' : vol.get (cell0 tc zc e k) = nan
    · rw [hx']; rfl
    · rw [if_neg hx', hx k hk hx', hx0 k hk hx']
      have : notnull (vol.get (cell0 tc zc e k)) = true := by
        unfold notnull; rw [(isnull_false_iff _).2 hx']; rfl
      rw [this]; simp
  rw [k5 e he, hv]
  · refine if_congr Iff.rfl rfl ?_
    congr 2
    refine Finset.sum_congr rfl (fun k hk => ?_)
    rw [hdr k (Finset.mem_range.1 hk)]
    split
    · simp
    · simp
  · intro k hk
    rw [hdr k hk]
    split
    · left; rfl
    · right; exact ⟨_, rfl⟩

/-! ## C27 -/

theorem linear_float (T S : ℝ) (p : Fl ℝ) : Linear.density (fin T) (fin S) p = fin (linRho T S) := by
  unfold Linear.density Linear.RHO_T0_S0 Linear.DRHO_DT Linear.DRHO_DS
  simp only [ofSci, fin_neg, fin_mul, fin_add, linRho]
  congr 1
  norm_num
  ring

theorem linear_eos (heos : CaseVariant eos "linear") :
    eosFuncFromStr eos "density" = .ok (fun T S p : Fl ℝ => Linear.density T S p) :=
  (C06_linear eos heos).1

/-- A value present at a cell. -/
abbrev Present (a : DA (Fl ℝ)) (e : Env) : Prop := ∃ x, a.get e = fin x

/-- With the linear equation of state the local steric height is the sum of the thermosteric and
halosteric heights at every point and time (all three missing together), provided temperature and
salinity are present where the reference volume is. -/
theorem C27_linear {r1 r2 ref1 ref2 : DS (Fl ℝ)}
    (hs : steric d .none cn none rhozero patm eos "steric" domain strict = .ok (r, ref))
    (ht : thermosteric d .none cn none rhozero patm eos domain strict = .ok (r1, ref1))
    (hh : halosteric d .none cn none rhozero patm eos domain strict = .ok (r2, ref2))
    (heos : CaseVariant eos "linear")
    (hd : domain ≠ "global") (hc : defaultCoords cn = .ok (tc, zc, zb))
    {zid : String} {n : Nat} {lev ifc : Nat → ℝ} {depth : DA (Fl ℝ)}
    (G : OceanGrid d zc zb zid n lev ifc depth) {ρ0 : ℝ} (hρ : rhozero = fin ρ0)
    {th so vol : DA (Fl ℝ)} (hth : d.getVar "thetao" = .ok th) (hso : d.getVar "so" = .ok so)
    (hvol : d.getVar "volcello" = .ok vol) :
    ∃ a b c, r.getVar "steric" = .ok a ∧ r1.getVar "thermosteric" = .ok b ∧
      r2.getVar "halosteric" = .ok c ∧
      ∀ e, depth.InBounds e →
        (∀ k < n, vol.get (cell0 tc zc e k) ≠ nan →
          Present th (cell zc e k) ∧ Present so (cell zc e k) ∧
          Present th (cell0 tc zc e k) ∧ Present so (cell0 tc zc e k)) →
        a.get e = b.get e + c.get e ∧ (a.get e = nan ↔ vol.get (cell0 tc zc e 0) = nan) := by
  have hf := linear_eos heos
  obtain ⟨a, a1, -, a2⟩ := local_value hs hd hc G hρ hth hso hvol hf _ (fun e k _ => rfl)
  obtain ⟨b, b1, -, b2⟩ := local_value ht hd hc G hρ hth hso hvol hf _ (fun e k _ => rfl)
  obtain ⟨c, c1, -, c2⟩ := local_value hh hd hc G hρ hth hso hvol hf _ (fun e k _ => rfl)
  refine ⟨a, b, c, a1, b1, c1, fun e he hp => ?_⟩
  have hT : ∀ k < n, vol.get (cell0 tc zc e k) ≠ nan →
      (th.get (cell zc e k) = fin (val0 (th.get (cell zc e k)))) ∧
      (so.get (cell zc e k) = fin (val0 (so.get (cell zc e k)))) ∧
      (th.get (cell0 tc zc e k) = fin (val0 (th.get (cell0 tc zc e k)))) ∧
      (so.get (cell0 tc zc e k) = fin (val0 (so.get (cell0 tc zc e k)))) := by
    intro k hk hv
    obtain ⟨⟨x1, q1⟩, ⟨x2, q2⟩, ⟨x3, q3⟩, ⟨x4, q4⟩⟩ := hp k hk hv
    rw [q1, q2, q3, q4]
    exact ⟨rfl, rfl, rfl, rfl⟩
  have A := a2 e he
    (fun k => linRho (val0 (th.get (cell zc e k))) (val0 (so.get (cell zc e k))))
    (fun k => linRho (val0 (th.get (cell0 tc zc e k))) (val0 (so.get (cell0 tc zc e k))))
    (fun k hk hv => by
      obtain ⟨q1, q2, q3, q4⟩ := hT k hk hv
      rw [if_neg (by decide), if_neg (by decide), q1, q2]; exact linear_float _ _ _)
    (fun k hk hv => by
      obtain ⟨q1, q2, q3, q4⟩ := hT k hk hv
      rw [q3, q4]; exact linear_float _ _ _)
  have B := b2 e he
    (fun k => linRho (val0 (th.get (cell zc e k))) (val0 (so.get (cell0 tc zc e k))))
    (fun k => linRho (val0 (th.get (cell0 tc zc e k))) (val0 (so.get (cell0 tc zc e k))))
    (fun k hk hv => by
      obtain ⟨q1, q2, q3, q4⟩ := hT k hk hv
      rw [if_neg (by decide), if_pos rfl, q1, q4]; exact linear_float _ _ _)
    (fun k hk hv => by
      obtain ⟨q1, q2, q3, q4⟩ := hT k hk hv
      rw [q3, q4]; exact linear_float _ _ _)
  have C := c2 e he
    (fun k => linRho (val0 (th.get (cell0 tc zc e k))) (val0 (so.get (cell zc e k))))
    (fun k => linRho (val0 (th.get (cell0 tc zc e k))) (val0 (so.get (cell0 tc zc e k))))
    (fun k hk hv => by
      obtain ⟨q1, q2, q3, q4⟩ := hT k hk hv
      rw [if_pos rfl, if_neg (by decide), q3, q2]; exact linear_float _ _ _)
    (fun k hk hv => by
      obtain ⟨q1, q2, q3, q4⟩ := hT k hk hv
      rw [q3, q4]; exact linear_float _ _ _)
  rw [A, B, C]
  by_cases hx : vol.get (cell0 tc zc e 0) = nan
  · simp [hx]
  · rw [if_neg hx, if_neg hx, if_neg hx, fin_add, ← mul_add, ← Finset.sum_add_distrib]
    refine ⟨?_, by simp [hx]⟩
    congr 2
    refine Finset.sum_congr rfl (fun k _ => ?_)
    split
    · simp
    · unfold linRho; ring

/-! ## C28 -/

/-- If density nowhere exceeds the reference in the column, the local sea level change is ≥ 0; if it
is nowhere below, ≤ 0.  Any reference, variant and equation of state. -/
theorem C28_sign (h : steric d reference cn none rhozero patm eos variant domain strict = .ok (r, ref))
    (hd : domain ≠ "global") (hc : defaultCoords cn = .ok (tc, zc, zb))
    {zid : String} {n : Nat} {lev ifc : Nat → ℝ} {depth : DA (Fl ℝ)}
    (G : OceanGrid d zc zb zid n lev ifc depth) {ρ0 : ℝ} (hρ : rhozero = fin ρ0) (h0 : 0 < ρ0) :
    ∃ a dr vol, r.getVar variant = .ok a ∧ r.getVar "delta_rho" = .ok dr ∧
      ref.getVar "volcello" = .ok vol ∧
      ∀ e, depth.InBounds e → vol.get (cell zc e 0) ≠ nan →
        ((∀ k < n, dr.get (cell zc e k) = nan ∨ ∃ x ≤ 0, dr.get (cell zc e k) = fin x) →
          ∃ v, 0 ≤ v ∧ a.get e = fin v) ∧
        ((∀ k < n, dr.get (cell zc e k) = nan ∨ ∃ x, 0 ≤ x ∧ dr.get (cell zc e k) = fin x) →
          ∃ v ≤ 0, a.get e = fin v) := by
  obtain ⟨a, dr, vol, k1, k2, k3, -, k4⟩ := C25_formula h hd hc G hρ
  refine ⟨a, dr, vol, k1, k2, k3, fun e he hv => ⟨fun hx => ?_, fun hx => ?_⟩⟩
  · refine ⟨_, ?_, (k4 e he (fun k hk => (hx k hk).imp id (fun ⟨x, _, h⟩ => ⟨x, h⟩))).trans (if_neg hv)⟩
    refine mul_nonneg_of_nonpos_of_nonpos (neg_nonpos.2 (one_div_pos.2 h0).le) (Finset.sum_nonpos ?_)
    intro k hk
    refine mul_nonpos_of_nonneg_of_nonpos (thickness_nonneg _ _ _) ?_
    rcases hx k (Finset.mem_range.1 hk) with h | ⟨x, h1, h⟩
    · rw [h]; exact le_rfl
    · rw [h]; exact h1
  · refine ⟨_, ?_, (k4 e he (fun k hk => (hx k hk).imp id (fun ⟨x, _, h⟩ => ⟨x, h⟩))).trans (if_neg hv)⟩
    refine mul_nonpos_of_nonpos_of_nonneg (neg_nonpos.2 (one_div_pos.2 h0).le) (Finset.sum_nonneg ?_)
    intro k hk
    refine mul_nonneg (thickness_nonneg _ _ _) ?_
    rcases hx k (Finset.mem_range.1 hk) with h | ⟨x, h1, h⟩
    · rw [h]; exact le_rfl
    · rw [h]; exact h1

/-- A weighted sum of density changes of one sign. -/
theorem column_sum_sign {n : Nat} {t x x0 : Nat → ℝ} {wet : Nat → Prop} [DecidablePred wet] {ρ0 : ℝ}
    (h0 : 0 < ρ0) (ht : ∀ k, 0 ≤ t k) (hx : ∀ k < n, wet k → x k ≤ x0 k) :
    0 ≤ -(1 / ρ0) * ∑ k ∈ Finset.range n, (if wet k then t k * (x k - x0 k) else 0) ∧
    ((∃ k < n, wet k ∧ 0 < t k ∧ x k < x0 k) →
      0 < -(1 / ρ0) * ∑ k ∈ Finset.range n, (if wet k then t k * (x k - x0 k) else 0)) := by
  have hc : -(1 / ρ0) < 0 := neg_neg_of_pos (one_div_pos.2 h0)
  have hle : ∀ k ∈ Finset.range n, (if wet k then t k * (x k - x0 k) else 0) ≤ 0 := by
    intro k hk
    split
    · rename_i hw
      exact mul_nonpos_of_nonneg_of_nonpos (ht k) (sub_nonpos.2 (hx k (Finset.mem_range.1 hk) hw))
    · exact le_rfl
  refine ⟨mul_nonneg_of_nonpos_of_nonpos hc.le (Finset.sum_nonpos hle), ?_⟩
  rintro ⟨k, hk, hw, htk, hxk⟩
  refine mul_pos_of_neg_of_neg hc (Finset.sum_neg' hle ⟨k, Finset.mem_range.2 hk, ?_⟩)
  rw [if_pos hw]
  exact mul_neg_of_pos_of_neg htk (sub_neg.2 hxk)

/-- Linear equation of state: if the column nowhere cools, thermosteric height is ≥ 0, and > 0 if
some layer with positive thickness warms. -/
theorem C28_linear_warming
    (h : thermosteric d .none cn none rhozero patm eos domain strict = .ok (r, ref))
    (heos : CaseVariant eos "linear")
    (hd : domain ≠ "global") (hc : defaultCoords cn = .ok (tc, zc, zb))
    {zid : String} {n : Nat} {lev ifc : Nat → ℝ} {depth : DA (Fl ℝ)}
    (G : OceanGrid d zc zb zid n lev ifc depth) {ρ0 : ℝ} (hρ : rhozero = fin ρ0) (h0 : 0 < ρ0)
    {th so vol : DA (Fl ℝ)} (hth : d.getVar "thetao" = .ok th) (hso : d.getVar "so" = .ok so)
    (hvol : d.getVar "volcello" = .ok vol) :
    ∃ a, r.getVar "thermosteric" = .ok a ∧
      ∀ e, depth.InBounds e → vol.get (cell0 tc zc e 0) ≠ nan → ∀ T T0 S0 : Nat → ℝ,
        (∀ k < n, vol.get (cell0 tc zc e k) ≠ nan →
          th.get (cell zc e k) = fin (T k) ∧ th.get (cell0 tc zc e k) = fin (T0 k) ∧
          so.get (cell0 tc zc e k) = fin (S0 k) ∧ T0 k ≤ T k) →
        ∃ v, a.get e = fin v ∧ 0 ≤ v ∧
          ((∃ k < n, vol.get (cell0 tc zc e k) ≠ nan ∧ 0 < thickness ifc (val0 (depth.get e)) k ∧
            T0 k < T k) → 0 < v) := by
  obtain ⟨a, a1, -, a2⟩ := local_value h hd hc G hρ hth hso hvol (linear_eos heos) _ (fun e k _ => rfl)
  refine ⟨a, a1, fun e he hv T T0 S0 hT => ?_⟩
  have A := a2 e he (fun k => linRho (T k) (S0 k)) (fun k => linRho (T0 k) (S0 k))
    (fun k hk hw => by
      obtain ⟨q1, q2, q3, -⟩ := hT k hk hw
      rw [if_neg (by decide), if_pos rfl, q1, q3]; exact linear_float _ _ _)
    (fun k hk hw => by
      obtain ⟨q1, q2, q3, -⟩ := hT k hk hw
      rw [q2, q3]; exact linear_float _ _ _)
  rw [if_neg hv] at A
  refine ⟨_, A, ?_⟩
  simp only [← ite_not (vol.get _ = nan)]
  have hs := column_sum_sign (n := n) (t := thickness ifc (val0 (depth.get e)))
    (x := fun k => linRho (T k) (S0 k)) (x0 := fun k => linRho (T0 k) (S0 k))
    (wet := fun k => ¬ vol.get (cell0 tc zc e k) = nan) h0 (thickness_nonneg _ _)
    (fun k hk hw => by
      have := (hT k hk hw).2.2.2
      unfold linRho; linarith)
  refine ⟨hs.1, fun ⟨k, hk, hw, ht, hlt⟩ => hs.2 ⟨k, hk, hw, ht, ?_⟩⟩
  unfold linRho; linarith

theorem wright_float {T S p : ℝ} (h : Spec.Wright.Ocean T S p) :
    Wright.density (fin T) (fin S) (fin p) = fin (Spec.Wright.rho T S p) :=
  (C01_float_finite T S p (C03_pos h).1.ne').1

theorem wright_eos (heos : CaseVariant eos "wright") :
    eosFuncFromStr eos "density" = .ok (Wright.density : EosFn (Fl ℝ)) :=
  (C06_wright eos heos).1

/-- Wright's equation of state in the oceanographic range: if the column nowhere freshens,
halosteric height is ≤ 0, and < 0 if some layer with positive thickness becomes saltier. -/
theorem C28_wright_salinification
    (h : halosteric d .none cn none rhozero patm eos domain strict = .ok (r, ref))
    (heos : CaseVariant eos "wright")
    (hd : domain ≠ "global") (hc : defaultCoords cn = .ok (tc, zc, zb))
    {zid : String} {n : Nat} {lev ifc : Nat → ℝ} {depth : DA (Fl ℝ)}
    (G : OceanGrid d zc zb zid n lev ifc depth) {ρ0 pa : ℝ} (hρ : rhozero = fin ρ0) (h0 : 0 < ρ0)
    (hpa : patm = DA.scalar (fin pa))
    {th so vol : DA (Fl ℝ)} (hth : d.getVar "thetao" = .ok th) (hso : d.getVar "so" = .ok so)
    (hvol : d.getVar "volcello" = .ok vol) :
    ∃ a, r.getVar "halosteric" = .ok a ∧
      ∀ e, depth.InBounds e → vol.get (cell0 tc zc e 0) ≠ nan → ∀ S T0 S0 : Nat → ℝ,
        (∀ k < n, vol.get (cell0 tc zc e k) ≠ nan →
          so.get (cell zc e k) = fin (S k) ∧ th.get (cell0 tc zc e k) = fin (T0 k) ∧
          so.get (cell0 tc zc e k) = fin (S0 k) ∧ S0 k ≤ S k ∧
          Spec.Wright.Ocean (T0 k) (S0 k) (lev k * 10 ^ 4 + pa) ∧
          Spec.Wright.Ocean (T0 k) (S k) (lev k * 10 ^ 4 + pa)) →
        ∃ v, a.get e = fin v ∧ v ≤ 0 ∧
          ((∃ k < n, vol.get (cell0 tc zc e k) ≠ nan ∧ 0 < thickness ifc (val0 (depth.get e)) k ∧
            S0 k < S k) → v < 0) := by
  subst hpa
  obtain ⟨a, a1, -, a2⟩ := local_value h hd hc G hρ hth hso hvol (wright_eos heos)
    (fun _ k => fin (lev k * 10 ^ 4 + pa)) (fun e k _ => by simp)
  refine ⟨a, a1, fun e he hv S T0 S0 hT => ?_⟩
  have A := a2 e he (fun k => Spec.Wright.rho (T0 k) (S k) (lev k * 10 ^ 4 + pa))
    (fun k => Spec.Wright.rho (T0 k) (S0 k) (lev k * 10 ^ 4 + pa))
    (fun k hk hw => by
      obtain ⟨q1, q2, q3, -, -, q6⟩ := hT k hk hw
      rw [if_pos rfl, if_neg (by decide), q1, q2]; exact wright_float q6)
    (fun k hk hw => by
      obtain ⟨q1, q2, q3, -, q5, -⟩ := hT k hk hw
      rw [q2, q3]; exact wright_float q5)
  rw [if_neg hv] at A
  refine ⟨_, A, ?_⟩
  simp only [← ite_not (vol.get _ = nan)]
  have hlt : ∀ k < n, vol.get (cell0 tc zc e k) ≠ nan → S0 k < S k →
      Spec.Wright.rho (T0 k) (S0 k) (lev k * 10 ^ 4 + pa) < Spec.Wright.rho (T0 k) (S k) (lev k * 10 ^ 4 + pa) := by
    intro k hk hw hlt
    obtain ⟨-, -, -, -, q5, q6⟩ := hT k hk hw
    have := C03_increasing_salinity q5 q6 hlt
    rwa [C01_density_formula, C01_density_formula] at this
  have hs := column_sum_sign (n := n) (t := thickness ifc (val0 (depth.get e)))
    (x0 := fun k => Spec.Wright.rho (T0 k) (S k) (lev k * 10 ^ 4 + pa))
    (x := fun k => Spec.Wright.rho (T0 k) (S0 k) (lev k * 10 ^ 4 + pa))
    (wet := fun k => ¬ vol.get (cell0 tc zc e k) = nan) h0 (thickness_nonneg _ _)
    (fun k hk hw => by
      rcases (hT k hk hw).2.2.2.1.lt_or_eq with h | h
      · exact (hlt k hk hw h).le
      · rw [h])
  have hneg : ∀ c : ℝ, c * ∑ k ∈ Finset.range n, (if ¬ vol.get (cell0 tc zc e k) = nan then
      thickness ifc (val0 (depth.get e)) k * (Spec.Wright.rho (T0 k) (S k) (lev k * 10 ^ 4 + pa)
        - Spec.Wright.rho (T0 k) (S0 k) (lev k * 10 ^ 4 + pa)) else 0)
      = -(c * ∑ k ∈ Finset.range n, (if ¬ vol.get (cell0 tc zc e k) = nan then
      thickness ifc (val0 (depth.get e)) k * (Spec.Wright.rho (T0 k) (S0 k) (lev k * 10 ^ 4 + pa)
        - Spec.Wright.rho (T0 k) (S k) (lev k * 10 ^ 4 + pa)) else 0)) := by
    intro c
    rw [← mul_neg, ← Finset.sum_neg_distrib]
    congr 1
    refine Finset.sum_congr rfl (fun k _ => ?_)
    split
    · ring
    · simp
  rw [hneg]
  exact ⟨neg_nonpos.2 hs.1, fun ⟨k, hk, hw, ht, hl⟩ => neg_neg_of_pos (hs.2 ⟨k, hk, hw, ht, hlt k hk hw hl⟩)⟩

/-- Wright's equation of state in the oceanographic range and warm enough for thermal expansion: if
the column nowhere cools, thermosteric height is ≥ 0, and > 0 if some layer warms. -/
theorem C28_wright_warming
    (h : thermosteric d .none cn none rhozero patm eos domain strict = .ok (r, ref))
    (heos : CaseVariant eos "wright")
    (hd : domain ≠ "global") (hc : defaultCoords cn = .ok (tc, zc, zb))
    {zid : String} {n : Nat} {lev ifc : Nat → ℝ} {depth : DA (Fl ℝ)}
    (G : OceanGrid d zc zb zid n lev ifc depth) {ρ0 pa : ℝ} (hρ : rhozero = fin ρ0) (h0 : 0 < ρ0)
    (hpa : patm = DA.scalar (fin pa))
    {th so vol : DA (Fl ℝ)} (hth : d.getVar "thetao" = .ok th) (hso : d.getVar "so" = .ok so)
    (hvol : d.getVar "volcello" = .ok vol) :
    ∃ a, r.getVar "thermosteric" = .ok a ∧
      ∀ e, depth.InBounds e → vol.get (cell0 tc zc e 0) ≠ nan → ∀ T T0 S0 : Nat → ℝ,
        (∀ k < n, vol.get (cell0 tc zc e k) ≠ nan →
          th.get (cell zc e k) = fin (T k) ∧ th.get (cell0 tc zc e k) = fin (T0 k) ∧
          so.get (cell0 tc zc e k) = fin (S0 k) ∧ T0 k ≤ T k ∧ 4.5 - 0.23 * S0 k ≤ T0 k ∧
          Spec.Wright.Ocean (T0 k) (S0 k) (lev k * 10 ^ 4 + pa) ∧
          Spec.Wright.Ocean (T k) (S0 k) (lev k * 10 ^ 4 + pa)) →
        ∃ v, a.get e = fin v ∧ 0 ≤ v ∧
          ((∃ k < n, vol.get (cell0 tc zc e k) ≠ nan ∧ 0 < thickness ifc (val0 (depth.get e)) k ∧
            T0 k < T k) → 0 < v) := by
  subst hpa
  obtain ⟨a, a1, -, a2⟩ := local_value h hd hc G hρ hth hso hvol (wright_eos heos)
    (fun _ k => fin (lev k * 10 ^ 4 + pa)) (fun e k _ => by simp)
  refine ⟨a, a1, fun e he hv T T0 S0 hT => ?_⟩
  have A := a2 e he (fun k => Spec.Wright.rho (T k) (S0 k) (lev k * 10 ^ 4 + pa))
    (fun k => Spec.Wright.rho (T0 k) (S0 k) (lev k * 10 ^ 4 + pa))
    (fun k hk hw => by
      obtain ⟨q1, q2, q3, -, -, -, q6⟩ := hT k hk hw
      rw [if_neg (by decide), if_pos rfl, q1, q3]; exact wright_float q6)
    (fun k hk hw => by
      obtain ⟨q1, q2, q3, -, -, q5, -⟩ := hT k hk hw
      rw [q2, q3]; exact wright_float q5)
  rw [if_neg hv] at A
  refine ⟨_, A, ?_⟩
  simp only [← ite_not (vol.get _ = nan)]
  have hlt : ∀ k < n, vol.get (cell0 tc zc e k) ≠ nan → T0 k < T k →
      Spec.Wright.rho (T k) (S0 k) (lev k * 10 ^ 4 + pa) < Spec.Wright.rho (T0 k) (S0 k) (lev k * 10 ^ 4 + pa) := by
    intro k hk hw hlt
    obtain ⟨-, -, -, -, q4, q5, q6⟩ := hT k hk hw
    have := C04_decreasing_temperature q5 q6 q4 hlt
    rwa [C01_density_formula, C01_density_formula] at this
  have hs := column_sum_sign (n := n) (t := thickness ifc (val0 (depth.get e)))
    (x := fun k => Spec.Wright.rho (T k) (S0 k) (lev k * 10 ^ 4 + pa))
    (x0 := fun k => Spec.Wright.rho (T0 k) (S0 k) (lev k * 10 ^ 4 + pa))
    (wet := fun k => ¬ vol.get (cell0 tc zc e k) = nan) h0 (thickness_nonneg _ _)
    (fun k hk hw => by
      rcases (hT k hk hw).2.2.2.1.lt_or_eq with h | h
      · exact (hlt k hk hw h).le
      · rw [h])
  exact ⟨hs.1, fun ⟨k, hk, hw, ht, hl⟩ => hs.2 ⟨k, hk, hw, ht, hlt k hk hw hl⟩⟩

end Momlevel.Props
