import Verif.Props.StericSuccess

/-! # C105: another reference state; C30 with a supplied reference -/

set_option linter.unusedSectionVars false

namespace Momlevel.Props
open Momlevel Momlevel.Fl Momlevel.Eos

/-- A complete reference state on (z, y, x). -/
structure GoodRef (ref : DS (Fl ℝ)) (zc yc xc : String) (n ny nx : Nat)
    (rth rso rvol rrho volo masso rhoga area : DA (Fl ℝ)) : Prop where
  hth : ref.getVar "thetao" = .ok rth
  hso : ref.getVar "so" = .ok rso
  hvol : ref.getVar "volcello" = .ok rvol
  hrho : ref.getVar "rho" = .ok rrho
  hvolo : ref.getVar "volo" = .ok volo
  hmasso : ref.getVar "masso" = .ok masso
  hrhoga : ref.getVar "rhoga" = .ok rhoga
  harea : ref.getVar "areacello" = .ok area
  thd : rth.dims = [(zc, n), (yc, ny), (xc, nx)]
  sod : rso.dims = [(zc, n), (yc, ny), (xc, nx)]
  vold : rvol.dims = [(zc, n), (yc, ny), (xc, nx)]
  rhod : rrho.dims = [(zc, n), (yc, ny), (xc, nx)]
  volod : volo.dims = []
  massod : masso.dims = []
  rhogad : rhoga.dims = []
  aread : area.dims = [(yc, ny), (xc, nx)]
  nodepth : rankOf ref "deptho" = none

section
variable {d : DS (Fl ℝ)} {tc zc zb zid yc xc : String} {nt n ny nx : Nat}
    {lev ifc : Nat → ℝ} {th so vol area depth zi patm : DA (Fl ℝ)} {eos variant domain : String}
    {rhozero : Fl ℝ} {strict : Bool} {cn : DictArg} {f : EosFn (Fl ℝ)}
    {ref : DS (Fl ℝ)} {rth rso rvol rrho volo masso rhoga rarea : DA (Fl ℝ)}

/-- C30 (supplied reference): well-formed data with a complete reference state on the same points: every variant,
domain and equation of state succeeds, and the reference is returned unchanged. -/
theorem C30_supplied (g : GoodData d tc zc zb zid yc xc nt n ny nx lev ifc th so vol area depth zi patm)
    (R : GoodRef ref zc yc xc n ny nx rth rso rvol rrho volo masso rhoga rarea)
    (hc : defaultCoords cn = .ok (tc, zc, zb))
    (hv : variant ∈ ["thermosteric", "halosteric", "steric"])
    (he : CaseVariant eos "wright" ∨ CaseVariant eos "linear") (hr : rhozero ≠ fin 0)
    (ha : strict = true → validateAreacello area = true) (ha' : strict = true → validateAreacello rarea = true) :
    ∃ r, steric d (.dataset ref) cn none rhozero patm eos variant domain strict = .ok (r, ref) := by
  have hf : ∃ f : EosFn (Fl ℝ), eosFuncFromStr eos "density" = .ok f :=
    he.elim (fun h => ⟨_, wright_eos h⟩) (fun h => ⟨_, linear_eos h⟩)
  obtain ⟨f, hf⟩ := hf
  obtain ⟨z, zi', g1, g2, g3⟩ := g.grid.grid
  have hdepth := g.grid.hdepth
  have nd := g.names
  simp only [List.nodup_cons, List.mem_cons, not_or, List.not_mem_nil, or_false] at nd
  obtain ⟨⟨n1, n2, n3⟩, ⟨n4, n5⟩, n6, -⟩ := nd
  have hval : validateDataset d false strict (if domain = "global" then .none else .list [zb, "deptho"])
      = .ok () := by
    rw [(C34_iff d false strict _).1]
    refine ⟨?_, ?_, ?_, ?_, fun hs => ⟨area, getVar_lookup.1 g.harea, ha hs⟩, by simp⟩
    · intro v hv
      simp only [List.mem_cons, List.not_mem_nil, or_false] at hv
      rcases hv with rfl | rfl | rfl
      · rw [rankOf_of_getVar g.hth, g.thd]; rfl
      · rw [rankOf_of_getVar g.hso, g.sod]; rfl
      · rw [rankOf_of_getVar g.hvol, g.vold]; rfl
    · rw [rankOf_of_getVar g.harea, g.aread]; rfl
    · intro r h
      rw [rankOf_of_getVar hdepth, g.depthd] at h
      simpa using h.symm
    · intro v hv
      split at hv
      · simp [extraVars] at hv
      · simp only [extraVars, List.mem_cons, List.not_mem_nil, or_false] at hv
        rcases hv with rfl | rfl
        · rw [rankOf_of_getVar g.hzb]; simp
        · rw [rankOf_of_getVar hdepth]; simp
  obtain ⟨pres, hpres, hpd⟩ : ∃ pres, pressureField d zc patm = .ok pres ∧
      ∀ p ∈ pres.dims, p ∈ [(zc, n), (yc, ny), (xc, nx)] := by
    refine ⟨z * DA.scalar (1.0e4 : Fl ℝ) + patm, by simp only [pressureField, g1, ok_bind]; rfl, ?_⟩
    intro p hp
    rcases DA.mem_bdims hp with hp | hp
    · rcases DA.mem_bdims hp with hp | hp
      · rw [g3.ldims] at hp; simp only [List.mem_singleton] at hp; simp [hp]
      · simp at hp
    · exact g.patmd p hp
  have hsub : ∀ {a : DA (Fl ℝ)}, (∀ p ∈ [(zc, n), (yc, ny), (xc, nx)], p ∈ a.dims) →
      ∀ p ∈ pres.dims, p.1 ∈ a.dimNames := fun h p hp => List.mem_map_of_mem (h p (hpd p hp))
  have r1 := R.hth
  have r2 := R.hso
  have r3 := R.hvol
  have r4 := R.hrho
  have r5 := R.hvolo
  have r6 := R.hmasso
  have r7 := R.hrhoga
  have r8 := R.harea
  have d1 := R.thd
  have d3 := R.vold
  have hval2 : validateDataset ref true strict = .ok () := by
    rw [(C34_iff ref true strict _).1]
    refine ⟨?_, ?_, ?_, by simp [extraVars], fun hs => ⟨rarea, getVar_lookup.1 r8, ha' hs⟩, fun _ => ⟨?_, ?_⟩⟩
    · intro v hv
      simp only [List.mem_cons, List.not_mem_nil, or_false] at hv
      rcases hv with rfl | rfl | rfl
      · rw [rankOf_of_getVar r1, R.thd]; rfl
      · rw [rankOf_of_getVar r2, R.sod]; rfl
      · rw [rankOf_of_getVar r3, R.vold]; rfl
    · rw [rankOf_of_getVar r8, R.aread]; rfl
    · rw [R.nodepth]; simp
    · rw [rankOf_of_getVar r4, R.rhod]; rfl
    · intro v hv
      simp only [List.mem_cons, List.not_mem_nil, or_false] at hv
      rcases hv with rfl | rfl | rfl
      · rw [rankOf_of_getVar r6, R.massod]; rfl
      · rw [rankOf_of_getVar r5, R.volod]; rfl
      · rw [rankOf_of_getVar r7, R.rhogad]; rfl
  have hfields : ∃ t s, stericFields d ref variant = .ok (t, s) ∧
      (∀ p ∈ [(zc, n), (yc, ny), (xc, nx)], p ∈ t.dims) ∧ (tc ∈ t.dimNames ∨ tc ∈ s.dimNames) := by
    simp only [List.mem_cons, List.not_mem_nil, or_false] at hv
    rcases hv with rfl | rfl | rfl
    · refine ⟨th, rso, by simp only [stericFields, if_true, g.hth, r2, ok_bind]; rfl, ?_, Or.inl ?_⟩
      · intro p hp; rw [g.thd]; exact List.mem_cons_of_mem _ hp
      · simp [DA.dimNames, g.thd]
    · refine ⟨rth, so, ?_, ?_, Or.inr ?_⟩
      · simp only [stericFields, if_true, g.hso, r1, ok_bind]; rfl
      · intro p hp; rw [d1]; exact hp
      · simp [DA.dimNames, g.sod]
    · refine ⟨th, so, ?_, ?_, Or.inl ?_⟩
      · simp only [stericFields, if_true, g.hso, g.hth, ok_bind]; rfl
      · intro p hp; rw [g.thd]; exact List.mem_cons_of_mem _ hp
      · simp [DA.dimNames, g.thd]
  obtain ⟨t, s, hfld, htd, hts⟩ := hfields
  have hrho : calcRho t s pres eos = .ok (DA.zip3 f t s pres) := applyEos_ok hf _ _ _ (hsub htd)
  have hrt : tc ∈ (DA.zip3 f t s pres).dimNames := by
    exact memL (hts.elim memL memR)
  have hres : ∃ r, stericResult d ref (DA.zip3 f t s pres) tc zc zb rhozero variant domain = .ok r := by
    by_cases hd : domain = "global"
    · refine ⟨?_, ?_⟩
      rotate_left
      · simp only [stericResult, if_pos hd, stericGlobal, r3, r5, r7, r8, ok_bind]
        rfl
    · obtain ⟨dz, k1, k2, -⟩ := C08_cell g3 g.grid.bathy g.grid.hz
      have hdrt : tc ∈ (DA.zip (fun v d => Fl.sel (Fl.notnull v) d .nan) rvol
          (DA.zip3 f t s pres - rrho)).dimNames := by
        exact memR (memL hrt)
      obtain ⟨dr, hdr, hdrt2⟩ : ∃ dr, (DA.zip (fun v d => Fl.sel (Fl.notnull v) d .nan) rvol
          (DA.zip3 f t s pres - rrho)).transposeE tc = .ok dr ∧ tc ∈ dr.dimNames := by
        refine ⟨_, if_pos hdrt, ?_⟩
        unfold DA.dimNames DA.transposeFirst
        rw [List.map_append, List.mem_append]
        left
        obtain ⟨p, hp, hpt⟩ := List.mem_map.1 hdrt
        exact List.mem_map.2 ⟨p, List.mem_filter.2 ⟨hp, by simpa using hpt⟩, hpt⟩
      have hzin : zc ∈ (dz * dr).dimNames := by
        refine memL ?_
        rw [k2]; simp
      have hcoef : ∃ c, pyFloatDiv (-1.0 : Fl ℝ) rhozero = .ok c := ⟨_, if_neg hr⟩
      obtain ⟨c, hcoef⟩ := hcoef
      have htot : ∃ tot, (dz * dr).sumDimE zc = .ok tot ∧ tc ∈ tot.dimNames := by
        refine ⟨_, if_pos hzin, ?_⟩
        have : tc ∈ (dz * dr).dimNames := by
          exact memR hdrt2
        obtain ⟨p, hp, hpt⟩ := List.mem_map.1 this
        refine List.mem_map.2 ⟨p, List.mem_filter.2 ⟨hp, ?_⟩, hpt⟩
        simpa [hpt] using n1
      obtain ⟨tot, htot, htt⟩ := htot
      have htr : ∃ sl, (tot.map (fun s => c * s)).transposeE tc = .ok sl := ⟨_, if_pos htt⟩
      obtain ⟨sl, htr⟩ := htr
      have htop : ∃ top, rvol.iselE zc 0 = .ok top := by
        have m : zc ∈ rvol.dimNames := by simp [DA.dimNames, d3]
        have sz : rvol.size zc = n := by simp [DA.size, d3]
        refine ⟨rvol.isel zc 0, ?_⟩
        simp only [DA.iselE, if_pos m, sz, pyIndex, le_refl, if_true]
        rw [if_pos (by have := g.hn; simp only [Int.toNat_zero]; omega)]
        rfl
      obtain ⟨top, htop⟩ := htop
      refine ⟨?_, ?_⟩
      rotate_left
      · simp only [stericResult, if_neg hd, stericLocal, r3, r4, ok_bind, hdr, g1, g2, hdepth, k1, levelsAlone_ok.2 g.alone, hcoef,
          htot, htr, htop]
        rfl
  obtain ⟨r, hres⟩ := hres
  exact ⟨r, steric_ok_iff.2 ⟨d, tc, zc, zb, pres, t, s, _, rfl, hc, hval, hpres, rfl, hval2, hfld,
    hrho, hres⟩⟩

/-- The reference state that well-formed data give is complete; its fields do not vary with time. -/
theorem goodRef_of (g : GoodData d tc zc zb zid yc xc nt n ny nx lev ifc th so vol area depth zi patm)
    (wth : th.WF) (wso : so.WF) (wvol : vol.WF)
    (hc : defaultCoords cn = .ok (tc, zc, zb)) (hf : eosFuncFromStr eos "density" = .ok f) :
    ∃ ref rth rso rvol rrho volo masso rhoga, setupReferenceState d patm eos cn = .ok ref ∧
      GoodRef ref zc yc xc n ny nx rth rso rvol rrho volo masso rhoga area ∧
      (∀ e, rth.get e = th.get (Function.update e tc 0)) ∧ (∀ e, rso.get e = so.get (Function.update e tc 0)) ∧
      (∀ e, rvol.get e = vol.get (Function.update e tc 0)) ∧
      (∀ e, rrho.get e = f (rth.get e) (rso.get e) (fin (lev (e zc) * 10 ^ 4) + patm.get e)) := by
  obtain ⟨z, zi', g1, g2, g3⟩ := g.grid.grid
  have nd := g.names
  simp only [List.nodup_cons, List.mem_cons, not_or, List.not_mem_nil, or_false] at nd
  obtain ⟨⟨n1, n2, n3⟩, ⟨n4, n5⟩, n6, -⟩ := nd
  obtain ⟨rth, s1, d1⟩ := good_slice g.hth g.thd g.names g.hnt g.hn g.hny g.hnx
  obtain ⟨rso, s2, d2⟩ := good_slice g.hso g.sod g.names g.hnt g.hn g.hny g.hnx
  obtain ⟨rvol, s3, d3⟩ := good_slice g.hvol g.vold g.names g.hnt g.hn g.hny g.hnx
  have hpd : ∀ p ∈ (z * DA.scalar (1.0e4 : Fl ℝ) + patm).dims, p ∈ [(zc, n), (yc, ny), (xc, nx)] := by
    intro p hp
    rcases DA.mem_bdims hp with hp | hp
    · rcases DA.mem_bdims hp with hp | hp
      · rw [g3.ldims] at hp; simp only [List.mem_singleton] at hp; simp [hp]
      · simp at hp
    · exact g.patmd p hp
  have hpres : pressureField d zc patm = .ok (z * DA.scalar (1.0e4 : Fl ℝ) + patm) := by
    simp only [pressureField, g1, ok_bind]; rfl
  have hrrho : calcRho rth rso (z * DA.scalar (1.0e4 : Fl ℝ) + patm) eos
      = .ok (DA.zip3 f rth rso (z * DA.scalar (1.0e4 : Fl ℝ) + patm)) :=
    applyEos_ok hf _ _ _ (fun p hp => List.mem_map_of_mem (by rw [d1]; exact hpd p hp))
  have rrd : (DA.zip3 f rth rso (z * DA.scalar (1.0e4 : Fl ℝ) + patm)).dims = [(zc, n), (yc, ny), (xc, nx)] := by
    show DA.bdims (DA.bdims rth.dims rso.dims) _ = _
    rw [d1, d2, DA.bdims_eq_left (fun p hp => hp), DA.bdims_eq_left hpd]
  have hvolo : calcVolo rvol = .ok rvol.sumAll := by
    simp only [calcVolo, DA.ndim, d3, List.length_cons, List.length_nil]; rfl
  obtain ⟨rrho, hrrho', rrd'⟩ : ∃ rrho, rrho = DA.zip3 f rth rso (z * DA.scalar (1.0e4 : Fl ℝ) + patm) ∧
    rrho.dims = [(zc, n), (yc, ny), (xc, nx)] := ⟨_, rfl, rrd⟩
  have mdims : (calcMasso rrho rvol tc).dims = [] := by
    have : (rrho * rvol).dims = [(zc, n), (yc, ny), (xc, nx)] := by
      rw [DA.dims_mul, rrd', d3, DA.bdims_eq_left (fun p hp => hp)]
    show (rrho * rvol).dims.filter _ = []
    rw [DA.dimNames, this]
    simp [Ne.symm n1, Ne.symm n2, Ne.symm n3]
  have harea' : d.getAttr "areacello" = .ok area := by
    unfold DS.getAttr; rw [getVar_lookup.1 g.harea]
  have hsl : ∀ {name : String} {a b : DA (Fl ℝ)}, d.getVar name = .ok a → refSlice d name tc 0 = .ok b →
      a.dims = [(tc, nt), (zc, n), (yc, ny), (xc, nx)] → a.WF → ∀ e, b.get e = a.get (Function.update e tc 0) := by
    intro name a b h1 h2 h3 h4 e
    have hmem : tc ∈ a.dimNames := by simp [DA.dimNames, h3]
    have hidx : pyIndex (a.size tc) 0 = .ok 0 := by
      have : a.size tc = nt := by simp [DA.size, h3]
      rw [this]; unfold pyIndex; rw [if_pos le_rfl, if_pos (by simpa using g.hnt)]; rfl
    have e1 : refSlice d name tc 0 = .ok (a.isel tc 0).squeeze := by
      simp only [refSlice, h1, ok_bind, DA.iselE, if_pos hmem, hidx]; rfl
    rw [e1] at h2
    cases h2
    have hn1 : n ≠ 1 := by have := g.hn; omega
    refine h4 _ _ (fun x hx => ?_)
    have hx' : x ∈ [tc, zc, yc, xc] := by unfold DA.dimNames at hx; rw [h3] at hx; exact hx
    by_cases hxt : x = tc
    · subst hxt; simp
    · rw [Function.update_of_ne hxt, Function.update_of_ne hxt]
      show (if _ then _ else _) = _
      split
      · rename_i hs
        exfalso
        have : ∃ p ∈ (a.isel tc 0).dims, p.1 = x ∧ p.2 = 1 := by
          simpa using hs
        obtain ⟨p, hp, -, hp1⟩ := this
        have hp' : p ∈ a.dims.filter (fun p => p.1 != tc) := hp
        rw [h3] at hp'
        have hp2 := (List.mem_filter.1 hp')
        simp only [List.mem_cons, List.not_mem_nil, or_false] at hp2
        obtain ⟨rfl | rfl | rfl | rfl, hne⟩ := hp2
        · simp at hne
        · exact hn1 hp1
        · exact g.hny hp1
        · exact g.hnx hp1
      · rfl
  refine ⟨{ vars := [("thetao", rth), ("so", rso), ("volcello", rvol), ("rho", rrho),
        ("volo", rvol.sumAll), ("masso", calcMasso rrho rvol tc),
        ("rhoga", calcRhoga (calcMasso rrho rvol tc) rvol.sumAll), ("areacello", area)] }, rth, rso, rvol, rrho,
    rvol.sumAll, calcMasso rrho rvol tc, calcRhoga (calcMasso rrho rvol tc) rvol.sumAll, ?_, ?_,
    hsl g.hth s1 g.thd wth, hsl g.hso s2 g.sod wso, hsl g.hvol s3 g.vold wvol, ?_⟩
  · simp only [setupReferenceState, hc, ok_bind, hpres, s1, s2, s3, hrrho, hvolo, harea', hrrho']
    rfl
  · refine ⟨rfl, rfl, rfl, rfl, rfl, rfl, rfl, rfl, d1, d2, d3, rrd', rfl, mdims, ?_, g.aread, rfl⟩
    show DA.bdims _ _ = _
    rw [mdims]
    rfl
  · intro e
    rw [hrrho']
    show f _ _ ((z * DA.scalar (1.0e4 : Fl ℝ) + patm).get e) = _
    rw [DA.get_add, DA.get_mul, g3.lget e]
    congr 2
    simp only [DA.scalar]
    rw [ofSci]
    norm_num

end

/-- The reference state does not vary with time. -/
def TimeFree (tc : String) (ref : DS (Fl ℝ)) : Prop :=
  ∀ nm a, ref.getVar nm = .ok a → nm ∈ ["rho", "volcello", "thetao", "so"] → ∀ e t,
    a.get (Function.update e tc t) = a.get e

section
variable {d r r' ref ref' : DS (Fl ℝ)} {reference reference' : RefArg ℝ} {cn : DictArg} {tc zc zb zid : String}
    {n : Nat} {lev ifc : Nat → ℝ} {depth patm : DA (Fl ℝ)} {eos variant domain : String} {rhozero : Fl ℝ}
    {strict : Bool} {ρ0 : ℝ} {x y : String}

/-- The sums of two results whose density changes differ by the same amount. -/
theorem same_changes {a a' dr dr' vol vol' : DA (Fl ℝ)} {e : Env} {t : Nat} (htz : tc ≠ zc)
    (hdep : tc ∉ depth.dimNames) (wdep : depth.WF)
    (hb : depth.InBounds e)
    (ka : ∀ e, depth.InBounds e → (∀ k < n, FN (dr.get (Function.update e zc k))) →
        a.get e = if vol.get (Function.update e zc 0) = nan then nan else
          fin (-(1 / ρ0) * ∑ k ∈ Finset.range n,
            thickness ifc (val0 (depth.get e)) k * val0 (dr.get (Function.update e zc k))))
    (ka' : ∀ e, depth.InBounds e → (∀ k < n, FN (dr'.get (Function.update e zc k))) →
        a'.get e = if vol'.get (Function.update e zc 0) = nan then nan else
          fin (-(1 / ρ0) * ∑ k ∈ Finset.range n,
            thickness ifc (val0 (depth.get e)) k * val0 (dr'.get (Function.update e zc k))))
    (f1 : ∀ k < n, FN (dr.get (Function.update e zc k)))
    (f2 : ∀ k < n, FN (dr.get (Function.update (Function.update e tc t) zc k)))
    (f3 : ∀ k < n, FN (dr'.get (Function.update e zc k)))
    (f4 : ∀ k < n, FN (dr'.get (Function.update (Function.update e tc t) zc k)))
    (v1 : ∀ e t, vol.get (Function.update e tc t) = vol.get e)
    (v2 : ∀ e t, vol'.get (Function.update e tc t) = vol'.get e)
    (hv : vol.get (Function.update e zc 0) = nan ↔ vol'.get (Function.update e zc 0) = nan)
    (hs : ∀ k < n, val0 (dr.get (Function.update (Function.update e tc t) zc k)) - val0 (dr.get (Function.update e zc k))
      = val0 (dr'.get (Function.update (Function.update e tc t) zc k)) - val0 (dr'.get (Function.update e zc k))) :
    a.get (Function.update e tc t) - a.get e = a'.get (Function.update e tc t) - a'.get e ∧
      (a.get e = nan ↔ vol.get (Function.update e zc 0) = nan) := by
  have hb' : depth.InBounds (Function.update e tc t) := by
    intro p hp
    rw [Function.update_of_ne (show p.1 ≠ tc from fun h => hdep (h ▸ List.mem_map_of_mem hp))]
    exact hb p hp
  have hdd : depth.get (Function.update e tc t) = depth.get e := by
    refine wdep _ _ (fun x hx => ?_)
    rw [Function.update_of_ne (show x ≠ tc from fun h => hdep (h ▸ hx))]
  have hcomm : ∀ k, Function.update (Function.update e tc t) zc k = Function.update (Function.update e zc k) tc t :=
    fun k => Function.update_comm htz t k e
  have w1 : vol.get (Function.update (Function.update e tc t) zc 0) = vol.get (Function.update e zc 0) := by
    rw [hcomm, v1]
  have w2 : vol'.get (Function.update (Function.update e tc t) zc 0) = vol'.get (Function.update e zc 0) := by
    rw [hcomm, v2]
  rw [ka e hb f1, ka _ hb' f2, ka' e hb f3, ka' _ hb' f4, w1, w2, hdd]
  by_cases hn : vol.get (Function.update e zc 0) = nan
  · rw [if_pos hn, if_pos (hv.1 hn), if_pos hn, if_pos (hv.1 hn)]
    exact ⟨rfl, by simp [hn]⟩
  · rw [if_neg hn, if_neg (fun h => hn (hv.2 h)), if_neg hn, if_neg (fun h => hn (hv.2 h))]
    refine ⟨?_, by simp [hn]⟩
    rw [fin_sub, fin_sub]
    congr 1
    rw [← mul_sub, ← mul_sub, ← Finset.sum_sub_distrib, ← Finset.sum_sub_distrib]
    congr 1
    refine Finset.sum_congr rfl (fun k hk => ?_)
    rw [← mul_sub, ← mul_sub, hs k (Finset.mem_range.1 hk)]

/-- A local run: fields, density and the column sum. -/
theorem run_local (h : steric d reference cn none rhozero patm eos variant domain strict = .ok (r, ref))
    (hd : domain ≠ "global") (hc : defaultCoords cn = .ok (tc, zc, zb))
    (G : OceanGrid d zc zb zid n lev ifc depth) (hρ : rhozero = fin ρ0) :
    ∃ a dr vol rrho th so pres f, r.getVar variant = .ok a ∧ r.getVar "delta_rho" = .ok dr ∧
      ref.getVar "volcello" = .ok vol ∧ ref.getVar "rho" = .ok rrho ∧ stericFields d ref variant = .ok (th, so) ∧
      pressureField d zc patm = .ok pres ∧ eosFuncFromStr eos "density" = .ok f ∧
      (∀ e, dr.get e = Fl.sel (Fl.notnull (vol.get e)) (f (th.get e) (so.get e) (pres.get e) - rrho.get e) .nan) ∧
      ∀ e, depth.InBounds e → (∀ k < n, FN (dr.get (Function.update e zc k))) →
        a.get e = if vol.get (Function.update e zc 0) = nan then nan else
          fin (-(1 / ρ0) * ∑ k ∈ Finset.range n,
            thickness ifc (val0 (depth.get e)) k * val0 (dr.get (Function.update e zc k))) := by
  obtain ⟨a, dr, vol, k1, k2, k3, -, k5⟩ := C25_formula h hd hc G hρ
  obtain ⟨dd, tc', zc', zb', pres, th, so, rho, h1, h2, h3, h4, h5, h6, h7, h8, h9⟩ := steric_ok_iff.1 h
  rw [hc] at h2
  cases h2
  have h1 : d = dd := Except.ok.inj h1
  subst h1
  simp only [stericResult, if_neg hd] at h9
  obtain ⟨Lr⟩ := localRun_of h9
  obtain ⟨f, hf, rfl⟩ := calcRho_ok h8
  have e1 : Lr.dr = dr := Except.ok.inj ((getVar_lookup.2 Lr.hdr).symm.trans k2)
  have e2 : Lr.rvol = vol := Except.ok.inj (Lr.hrvol.symm.trans k3)
  refine ⟨a, dr, vol, Lr.rrho, th, so, pres, f, k1, k2, k3, Lr.hrrho, h7, h4, hf, ?_, k5⟩
  intro e
  rw [← e1, ← e2]
  exact Lr.dr_get e

theorem sel_wet {v x : Fl ℝ} (h : v ≠ nan) : Fl.sel (Fl.notnull v) x .nan = x := by
  cases v with
  | nan => exact absurd rfl h
  | _ => rfl

theorem sub_fin_inv {x y : Fl ℝ} {c : ℝ} (h : x - y = fin c) : ∃ p q, x = fin p ∧ y = fin q ∧ c = p - q := by
  cases x with
  | nan => exact absurd h (by cases y <;> simp)
  | fin p =>
    cases y with
    | fin q => exact ⟨p, q, rfl, rfl, by rw [fin_sub] at h; exact (fin.inj h).symm⟩
    | nan => exact absurd h (by simp)
    | pinf => exact absurd h (by intro h; cases h)
    | ninf => exact absurd h (by intro h; cases h)
  | pinf => exact absurd h (by cases y <;> intro h <;> cases h)
  | ninf => exact absurd h (by cases y <;> intro h <;> cases h)

/-- Two local runs of the same data: the changes over time agree where the changes of density do. -/
theorem changes_of (h : steric d reference cn none rhozero patm eos variant domain strict = .ok (r, ref))
    (h' : steric d reference' cn none rhozero patm eos variant domain strict = .ok (r', ref'))
    (hd : domain ≠ "global") (hc : defaultCoords cn = .ok (tc, zc, zb)) (htz : tc ≠ zc)
    (G : OceanGrid d zc zb zid n lev ifc depth) (hρ : rhozero = fin ρ0) (hdep : tc ∉ depth.dimNames)
    (tf : TimeFree tc ref) (tf' : TimeFree tc ref') :
    ∃ a a' dr dr' vol vol' rrho rrho' th so th' so' pres f, r.getVar variant = .ok a ∧ r'.getVar variant = .ok a' ∧
      r.getVar "delta_rho" = .ok dr ∧ r'.getVar "delta_rho" = .ok dr' ∧
      ref.getVar "volcello" = .ok vol ∧ ref'.getVar "volcello" = .ok vol' ∧
      ref.getVar "rho" = .ok rrho ∧ ref'.getVar "rho" = .ok rrho' ∧
      stericFields d ref variant = .ok (th, so) ∧ stericFields d ref' variant = .ok (th', so') ∧
      pressureField d zc patm = .ok pres ∧ eosFuncFromStr eos "density" = .ok f ∧
      (∀ e, vol.get e ≠ nan → dr.get e = f (th.get e) (so.get e) (pres.get e) - rrho.get e) ∧
      (∀ e, vol'.get e ≠ nan → dr'.get e = f (th'.get e) (so'.get e) (pres.get e) - rrho'.get e) ∧
      ∀ e t, depth.InBounds e → (vol.get (cell zc e 0) = nan ↔ vol'.get (cell zc e 0) = nan) →
        (∀ k < n, vol.get (cell zc e k) = nan ↔ vol'.get (cell zc e k) = nan) →
        (∀ k < n, vol.get (cell zc e k) ≠ nan → ∃ x1 x2 x3 x4, dr.get (cell zc e k) = fin x1 ∧
          dr.get (cell zc (Function.update e tc t) k) = fin x2 ∧ dr'.get (cell zc e k) = fin x3 ∧
          dr'.get (cell zc (Function.update e tc t) k) = fin x4 ∧ x2 - x1 = x4 - x3) →
        a.get (Function.update e tc t) - a.get e = a'.get (Function.update e tc t) - a'.get e ∧
          (a.get e = nan ↔ vol.get (cell zc e 0) = nan) := by
  obtain ⟨a, dr, vol, rrho, th, so, pres, f, k1, k2, k3, k4, k5, k6, k7, k8, k9⟩ := run_local h hd hc G hρ
  obtain ⟨a', dr', vol', rrho', th', so', pres', f', j1, j2, j3, j4, j5, j6, j7, j8, j9⟩ := run_local h' hd hc G hρ
  cases k6.symm.trans j6
  cases k7.symm.trans j7
  refine ⟨a, a', dr, dr', vol, vol', rrho, rrho', th, so, th', so', pres, f, k1, j1, k2, j2, k3, j3, k4, j4, k5, j5,
    k6, k7, fun e he => by rw [k8, sel_wet he], fun e he => by rw [j8, sel_wet he], fun e t hb hv0 hv hp => ?_⟩
  have v1 := tf _ _ k3 (by simp)
  have v2 := tf' _ _ j3 (by simp)
  have hcomm : ∀ k, Function.update (Function.update e tc t) zc k = Function.update (Function.update e zc k) tc t :=
    fun k => Function.update_comm htz t k e
  have dry : ∀ k < n, vol.get (Function.update e zc k) = nan →
      dr.get (Function.update e zc k) = nan ∧ dr.get (Function.update (Function.update e tc t) zc k) = nan ∧
      dr'.get (Function.update e zc k) = nan ∧ dr'.get (Function.update (Function.update e tc t) zc k) = nan := by
    intro k hk hn
    have hn' := (hv k hk).1 hn
    rw [k8, k8, j8, j8, hcomm, v1, v2, hn, hn']
    exact ⟨rfl, rfl, rfl, rfl⟩
  have fn : ∀ k < n, FN (dr.get (Function.update e zc k)) ∧ FN (dr.get (Function.update (Function.update e tc t) zc k)) ∧
      FN (dr'.get (Function.update e zc k)) ∧ FN (dr'.get (Function.update (Function.update e tc t) zc k)) := by
    intro k hk
    by_cases hn : vol.get (Function.update e zc k) = nan
    · obtain ⟨q1, q2, q3, q4⟩ := dry k hk hn
      exact ⟨Or.inl q1, Or.inl q2, Or.inl q3, Or.inl q4⟩
    · obtain ⟨x1, x2, x3, x4, q1, q2, q3, q4, -⟩ := hp k hk hn
      exact ⟨Or.inr ⟨_, q1⟩, Or.inr ⟨_, q2⟩, Or.inr ⟨_, q3⟩, Or.inr ⟨_, q4⟩⟩
  refine same_changes htz hdep G.bathy.wf hb k9 j9 (fun k hk => (fn k hk).1) (fun k hk => (fn k hk).2.1)
    (fun k hk => (fn k hk).2.2.1) (fun k hk => (fn k hk).2.2.2) v1 v2 hv0 (fun k hk => ?_)
  by_cases hn : vol.get (Function.update e zc k) = nan
  · obtain ⟨q1, q2, q3, q4⟩ := dry k hk hn
    rw [q1, q2, q3, q4]
  · obtain ⟨x1, x2, x3, x4, q1, q2, q3, q4, hx⟩ := hp k hk hn
    unfold cell at q1 q2 q3 q4
    rw [q1, q2, q3, q4]
    exact hx

/-- C105 (local): the change of the local steric height between two times does not depend on the reference state,
as long as the same cells are wet in it.  Any equation of state. -/
theorem C105_local (h : steric d reference cn none rhozero patm eos "steric" domain strict = .ok (r, ref))
    (h' : steric d reference' cn none rhozero patm eos "steric" domain strict = .ok (r', ref'))
    (hd : domain ≠ "global") (hc : defaultCoords cn = .ok (tc, zc, zb)) (htz : tc ≠ zc)
    (G : OceanGrid d zc zb zid n lev ifc depth) (hρ : rhozero = fin ρ0) (hdep : tc ∉ depth.dimNames)
    (tf : TimeFree tc ref) (tf' : TimeFree tc ref') :
    ∃ a a' dr dr' vol vol', r.getVar "steric" = .ok a ∧ r'.getVar "steric" = .ok a' ∧
      r.getVar "delta_rho" = .ok dr ∧ r'.getVar "delta_rho" = .ok dr' ∧
      ref.getVar "volcello" = .ok vol ∧ ref'.getVar "volcello" = .ok vol' ∧
      ∀ e t, depth.InBounds e →
        (∀ k, vol.get (cell zc e k) = nan ↔ vol'.get (cell zc e k) = nan) →
        (∀ k < n, vol.get (cell zc e k) ≠ nan →
          Present dr (cell zc e k) ∧ Present dr (cell zc (Function.update e tc t) k) ∧
          Present dr' (cell zc e k) ∧ Present dr' (cell zc (Function.update e tc t) k)) →
        a.get (Function.update e tc t) - a.get e = a'.get (Function.update e tc t) - a'.get e ∧
          (a.get e = nan ↔ vol.get (cell zc e 0) = nan) := by
  obtain ⟨a, a', dr, dr', vol, vol', rrho, rrho', th, so, th', so', pres, f, k1, j1, k2, j2, k3, j3, k4, j4, k5, j5,
    k6, k7, k8, j8, key⟩ := changes_of h h' hd hc htz G hρ hdep tf tf'
  have hfld : stericFields d ref "steric" = stericFields d ref' "steric" := rfl
  cases k5.symm.trans (hfld.trans j5)
  refine ⟨a, a', dr, dr', vol, vol', k1, j1, k2, j2, k3, j3, fun e t hb hv hp => ?_⟩
  refine key e t hb (hv 0) (fun k _ => hv k) (fun k hk hn => ?_)
  obtain ⟨⟨x1, q1⟩, ⟨x2, q2⟩, ⟨x3, q3⟩, ⟨x4, q4⟩⟩ := hp k hk hn
  refine ⟨x1, x2, x3, x4, q1, q2, q3, q4, ?_⟩
  have hn' : vol'.get (cell zc e k) ≠ nan := fun h => hn ((hv k).2 h)
  have hcomm : cell zc (Function.update e tc t) k = Function.update (cell zc e k) tc t :=
    Function.update_comm htz t k e
  have wn := tf _ _ k3 (by simp) (cell zc e k) t
  have wn' := tf' _ _ j3 (by simp) (cell zc e k) t
  rw [k8 _ hn] at q1
  rw [hcomm, k8 _ (by rw [wn]; exact hn), tf _ _ k4 (by simp)] at q2
  rw [j8 _ hn'] at q3
  rw [hcomm, j8 _ (by rw [wn']; exact hn'), tf' _ _ j4 (by simp)] at q4
  obtain ⟨p1, p2, e1, e2, rfl⟩ := sub_fin_inv q1
  obtain ⟨p3, p4, e3, e4, rfl⟩ := sub_fin_inv q2
  obtain ⟨p5, p6, e5, e6, rfl⟩ := sub_fin_inv q3
  obtain ⟨p7, p8, e7, e8, rfl⟩ := sub_fin_inv q4
  cases e1.symm.trans e5
  cases e3.symm.trans e7
  cases e2.symm.trans e4
  cases e6.symm.trans e8
  ring

/-- C105 (linear equation of state): the changes of the thermosteric and of the halosteric height do not depend on
the reference state either.  `x` is the field that varies (`thetao` or `so`). -/
theorem C105_linear (h : steric d reference cn none rhozero patm eos variant domain strict = .ok (r, ref))
    (h' : steric d reference' cn none rhozero patm eos variant domain strict = .ok (r', ref'))
    (hv : variant = "thermosteric" ∧ x = "thetao" ∧ y = "so" ∨ variant = "halosteric" ∧ x = "so" ∧ y = "thetao")
    (heos : CaseVariant eos "linear")
    (hd : domain ≠ "global") (hc : defaultCoords cn = .ok (tc, zc, zb)) (htz : tc ≠ zc)
    (G : OceanGrid d zc zb zid n lev ifc depth) (hρ : rhozero = fin ρ0) (hdep : tc ∉ depth.dimNames)
    (tf : TimeFree tc ref) (tf' : TimeFree tc ref') :
    ∃ a a' vol vol' fld hold hold' rrho rrho', r.getVar variant = .ok a ∧ r'.getVar variant = .ok a' ∧
      ref.getVar "volcello" = .ok vol ∧ ref'.getVar "volcello" = .ok vol' ∧ d.getVar x = .ok fld ∧
      ref.getVar y = .ok hold ∧ ref'.getVar y = .ok hold' ∧
      ref.getVar "rho" = .ok rrho ∧ ref'.getVar "rho" = .ok rrho' ∧
      ∀ e t, depth.InBounds e →
        (∀ k, vol.get (cell zc e k) = nan ↔ vol'.get (cell zc e k) = nan) →
        (∀ k < n, vol.get (cell zc e k) ≠ nan →
          Present fld (cell zc e k) ∧ Present fld (cell zc (Function.update e tc t) k) ∧
          Present hold (cell zc e k) ∧ Present hold' (cell zc e k) ∧
          Present rrho (cell zc e k) ∧ Present rrho' (cell zc e k)) →
        a.get (Function.update e tc t) - a.get e = a'.get (Function.update e tc t) - a'.get e ∧
          (a.get e = nan ↔ vol.get (cell zc e 0) = nan) := by
  obtain ⟨a, a', dr, dr', vol, vol', rrho, rrho', th, so, th', so', pres, f, k1, j1, k2, j2, k3, j3, k4, j4, k5, j5,
    k6, k7, k8, j8, key⟩ := changes_of h h' hd hc htz G hρ hdep tf tf'
  cases k7.symm.trans (linear_eos heos)
  have fields : ∀ {ref th so}, stericFields d ref variant = .ok (th, so) → ∃ fld hold, d.getVar x = .ok fld ∧
      ref.getVar y = .ok hold ∧ (variant = "thermosteric" ∧ th = fld ∧ so = hold ∨
        variant = "halosteric" ∧ th = hold ∧ so = fld) := by
    intro ref th so hh
    rcases hv with ⟨rfl, rfl, rfl⟩ | ⟨rfl, rfl, rfl⟩
    · rw [stericFields, if_pos rfl] at hh
      obtain ⟨p, hp, hh⟩ := bind_ok.1 hh
      obtain ⟨q, hq, hh⟩ := bind_ok.1 hh
      cases hh
      exact ⟨th, so, hp, hq, Or.inl ⟨rfl, rfl, rfl⟩⟩
    · rw [stericFields, if_neg (by decide), if_pos rfl] at hh
      obtain ⟨p, hp, hh⟩ := bind_ok.1 hh
      obtain ⟨q, hq, hh⟩ := bind_ok.1 hh
      cases hh
      exact ⟨so, th, hq, hp, Or.inr ⟨rfl, rfl, rfl⟩⟩
  obtain ⟨fld, hold, g1, g2, g3⟩ := fields k5
  obtain ⟨fld', hold', g1', g2', g3'⟩ := fields j5
  cases g1.symm.trans g1'
  have hy : y ∈ ["rho", "volcello", "thetao", "so"] := by
    rcases hv with ⟨-, -, rfl⟩ | ⟨-, -, rfl⟩ <;> simp
  refine ⟨a, a', vol, vol', fld, hold, hold', rrho, rrho', k1, j1, k3, j3, g1, g2, g2', k4, j4,
    fun e t hb hw hp => ?_⟩
  refine key e t hb (hw 0) (fun k _ => hw k) (fun k hk hn => ?_)
  obtain ⟨⟨x1, q1⟩, ⟨x2, q2⟩, ⟨y1, q3⟩, ⟨y2, q4⟩, ⟨z1, q5⟩, ⟨z2, q6⟩⟩ := hp k hk hn
  have hn' : vol'.get (cell zc e k) ≠ nan := fun h => hn ((hw k).2 h)
  have hcomm : cell zc (Function.update e tc t) k = Function.update (cell zc e k) tc t :=
    Function.update_comm htz t k e
  have wn := tf _ _ k3 (by simp) (cell zc e k) t
  have wn' := tf' _ _ j3 (by simp) (cell zc e k) t
  have q3' := (tf _ _ g2 hy (cell zc e k) t).trans q3
  have q4' := (tf' _ _ g2' hy (cell zc e k) t).trans q4
  have q5' := (tf _ _ k4 (by simp) (cell zc e k) t).trans q5
  have q6' := (tf' _ _ j4 (by simp) (cell zc e k) t).trans q6
  rw [hcomm] at q2 ⊢
  rw [k8 _ hn, k8 _ (by rw [wn]; exact hn), j8 _ hn', j8 _ (by rw [wn']; exact hn'), q5, q6, q5', q6']
  rcases g3 with ⟨v1, rfl, rfl⟩ | ⟨v1, rfl, rfl⟩ <;> rcases g3' with ⟨v2, rfl, rfl⟩ | ⟨v2, rfl, rfl⟩
  · simp only [q1, q2, q3, q4, q3', q4', linear_float]
    exact ⟨_, _, _, _, fin_sub _ _, fin_sub _ _, fin_sub _ _, fin_sub _ _, by unfold linRho; ring⟩
  · rw [v1] at v2; exact absurd v2 (by decide)
  · rw [v1] at v2; exact absurd v2 (by decide)
  · simp only [q1, q2, q3, q4, q3', q4', linear_float]
    exact ⟨_, _, _, _, fin_sub _ _, fin_sub _ _, fin_sub _ _, fin_sub _ _, by unfold linRho; ring⟩

/-- C105 (global): with the volumes and areas of the reference given, the change of the global steric height between
two times is `V/A · log(m/m')` for the masses `m`, `m'` at the two times, whatever the reference density. -/
theorem C105_global (h : steric d reference cn none rhozero patm eos "steric" "global" strict = .ok (r, ref))
    (h' : steric d reference' cn none rhozero patm eos "steric" "global" strict = .ok (r', ref'))
    (hc : defaultCoords cn = .ok (tc, zc, zb))
    (s1 : ref.getVar "volcello" = ref'.getVar "volcello") (s2 : ref.getVar "volo" = ref'.getVar "volo")
    (s3 : ref.getVar "areacello" = ref'.getVar "areacello") :
    ∃ a a' volo area vol th so pres rho rhoga rhoga', r.getVar "steric" = .ok a ∧ r'.getVar "steric" = .ok a' ∧
      ref.getVar "volo" = .ok volo ∧ ref.getVar "areacello" = .ok area ∧ ref.getVar "volcello" = .ok vol ∧
      d.getVar "thetao" = .ok th ∧ d.getVar "so" = .ok so ∧ Spec.IsPressure d zc patm pres ∧
      calcRho th so pres eos = .ok rho ∧ ref.getVar "rhoga" = .ok rhoga ∧ ref'.getVar "rhoga" = .ok rhoga' ∧
      ∀ e t, ∀ V A g g' m m' : ℝ, volo.get e = fin V → volo.get (Function.update e tc t) = fin V →
        area.sumAll.get e = fin A → area.sumAll.get (Function.update e tc t) = fin A →
        rhoga.get e = fin g → rhoga.get (Function.update e tc t) = fin g →
        rhoga'.get e = fin g' → rhoga'.get (Function.update e tc t) = fin g' →
        (calcMasso rho vol tc).get e = fin m → (calcMasso rho vol tc).get (Function.update e tc t) = fin m' →
        0 < V → 0 < A → 0 < g → 0 < g' → 0 < m → 0 < m' →
        a.get (Function.update e tc t) - a.get e = fin (V / A * Real.log (m / m')) ∧
        a'.get (Function.update e tc t) - a'.get e = fin (V / A * Real.log (m / m')) := by
  obtain ⟨a, height, rhoga, volo, area, vol, th, so, pres, rho, k1, -, k3, k4, k5, k6, k7, k8, k9, k10⟩ :=
    C29_formula h hc
  obtain ⟨a', height', rhoga', volo', area', vol', th', so', pres', rho', j1, -, j3, j4, j5, j6, j7, j8, j9, j10⟩ :=
    C29_formula h' hc
  have f1 : d.getVar "thetao" = .ok th ∧ d.getVar "so" = .ok so := by simpa using k7
  have f2 : d.getVar "thetao" = .ok th' ∧ d.getVar "so" = .ok so' := by simpa using j7
  cases f1.1.symm.trans f2.1
  cases f1.2.symm.trans f2.2
  cases k8.unique j8
  cases k9.symm.trans j9
  cases k4.symm.trans (s2.trans j4)
  cases k5.symm.trans (s3.trans j5)
  cases k6.symm.trans (s1.trans j6)
  refine ⟨a, a', volo, area, vol, th, so, pres, rho, rhoga, rhoga', k1, j1, k4, k5, k6, f1.1, f1.2, k8, k9, k3, j3, ?_⟩
  intro e t V A g g' m m' v1 v2 a1 a2 g1 g2 g1' g2' m1 m2 hV hA hg hg' hm hm'
  have lem : ∀ g : ℝ, 0 < g → V / A * Real.log (g * V / m') - V / A * Real.log (g * V / m)
      = V / A * Real.log (m / m') := by
    intro g hg
    rw [← mul_sub, Real.log_div (mul_pos hg hV).ne' hm'.ne', Real.log_div (mul_pos hg hV).ne' hm.ne',
      Real.log_div hm.ne' hm'.ne']
    ring
  obtain ⟨-, x1, p1, rfl, -⟩ := k10 e V A g m v1 a1 g1 m1 hV hA hg hm
  obtain ⟨-, x2, p2, rfl, -⟩ := k10 _ V A g m' v2 a2 g2 m2 hV hA hg hm'
  obtain ⟨-, x3, p3, rfl, -⟩ := j10 e V A g' m v1 a1 g1' m1 hV hA hg' hm
  obtain ⟨-, x4, p4, rfl, -⟩ := j10 _ V A g' m' v2 a2 g2' m2 hV hA hg' hm'
  rw [p1, p2, p3, p4, fin_sub, fin_sub, lem g hg, lem g' hg']
  exact ⟨rfl, rfl⟩

end

/-! ## Two references for the same data -/

noncomputable section

/-- The example ocean with salinity `s` everywhere. -/
def refS (s : ℝ) : DA (Fl ℝ) := ⟨exDims, fun _ => fin s⟩
def refD (s : ℝ) : DS (Fl ℝ) := ⟨[("thetao", exT), ("so", refS s), ("volcello", exV), ("areacello", exA),
  ("deptho", exDepth), ("z_l", exZ), ("z_i", exZi)], ["z_l", "z_i"]⟩

theorem refGood (s : ℝ) : GoodData (refD s) "time" "z_l" "z_i" "z_i" "yh" "xh" 2 2 2 2 (fun k => 500 + 1000 * (k : ℝ))
    (fun k => 1000 * (k : ℝ)) exT (refS s) exV exA exDepth exZi (DA.scalar (fin 101325)) where
  names := by decide
  hnt := by norm_num
  hn := by norm_num
  hny := by norm_num
  hnx := by norm_num
  hth := rfl
  hso := rfl
  hvol := rfl
  harea := rfl
  hzb := rfl
  thd := rfl
  sod := rfl
  vold := rfl
  aread := rfl
  depthd := rfl
  grid := by
    obtain ⟨⟨z, zi, h1, h2, h3⟩, -, b, c, -⟩ := exGrid
    cases h1
    cases h2
    exact ⟨⟨_, _, rfl, rfl, h3⟩, rfl, b, c, by simp [refD, DS.names]⟩
  alone := by simp [refD, exZ, exZi, DA.dimNames]
  patmd := by simp

theorem exT_wf : exT.WF := fun e e' h => by
  have := h "time" (by simp [exT, exDims, DA.dimNames]); simp only [exT, this]
theorem exV_wf : exV.WF := fun e e' h => by
  have := h "xh" (by simp [exV, exDims, DA.dimNames]); simp only [exV, this]

/-- A reference with salinity `s` for the example data: complete, fixed in time, and every run with it succeeds. -/
theorem refRun (s : ℝ) {eos variant domain : String} {f : EosFn (Fl ℝ)} (hf : eosFuncFromStr eos "density" = .ok f)
    (he : CaseVariant eos "wright" ∨ CaseVariant eos "linear")
    (hv : variant ∈ ["thermosteric", "halosteric", "steric"]) :
    ∃ ref r rth rso rvol rrho, setupReferenceState (refD s) (DA.scalar (fin 101325)) eos .none = .ok ref ∧
      TimeFree "time" ref ∧
      steric exD (.dataset ref) .none none (fin 1035) (DA.scalar (fin 101325)) eos variant domain true = .ok (r, ref) ∧
      ref.getVar "thetao" = .ok rth ∧ ref.getVar "so" = .ok rso ∧ ref.getVar "volcello" = .ok rvol ∧
      ref.getVar "rho" = .ok rrho ∧ (∀ e, rth.get e = fin 10) ∧ (∀ e, rso.get e = fin s) ∧
      (∀ e, rvol.get e = if e "xh" = 0 then fin 1 else nan) ∧
      ∀ e, rrho.get e = f (fin 10) (fin s) (fin ((500 + 1000 * (e "z_l" : ℝ)) * 10 ^ 4 + 101325)) := by
  obtain ⟨ref, rth, rso, rvol, rrho, volo, masso, rhoga, h, R, h1, h2, h3, h4⟩ :=
    goodRef_of (refGood s) exT_wf (fun _ _ _ => rfl) exV_wf exC hf
  obtain ⟨r, hr⟩ := C30_supplied (variant := variant) (domain := domain) (eos := eos) (rhozero := fin 1035)
    (strict := true) exGood R exC hv he (by simp) (fun _ => exArea) (fun _ => exArea)
  have t1 : ∀ e, rth.get e = fin 10 := by intro e; rw [h1]; simp [exT]
  have t2 : ∀ e, rso.get e = fin s := by intro e; rw [h2]; simp [refS]
  have t3 : ∀ e, rvol.get e = if e "xh" = 0 then fin 1 else nan := by
    intro e; rw [h3]
    show (if Function.update e "time" 0 "xh" = 0 then fin 1 else nan : Fl ℝ) = _
    rw [Function.update_of_ne (by decide)]
  have t4 : ∀ e, rrho.get e = f (fin 10) (fin s) (fin ((500 + 1000 * (e "z_l" : ℝ)) * 10 ^ 4 + 101325)) := by
    intro e; rw [h4, t1, t2]; simp
  refine ⟨ref, r, rth, rso, rvol, rrho, h, ?_, hr, R.hth, R.hso, R.hvol, R.hrho, t1, t2, t3, t4⟩
  intro nm a ha hm e t
  simp only [List.mem_cons, List.not_mem_nil, or_false] at hm
  rcases hm with rfl | rfl | rfl | rfl
  · cases R.hrho.symm.trans ha
    rw [t4, t4, Function.update_of_ne (by decide)]
  · cases R.hvol.symm.trans ha
    rw [t3, t3, Function.update_of_ne (by decide)]
  · cases R.hth.symm.trans ha
    rw [t1, t1]
  · cases R.hso.symm.trans ha
    rw [t2, t2]

theorem pres_get {pres : DA (Fl ℝ)} (h : pressureField exD "z_l" (DA.scalar (fin 101325)) = .ok pres) (e : Env) :
    pres.get e = fin ((500 + 1000 * (e "z_l" : ℝ)) * 10 ^ 4 + 101325) := by
  have : pressureField exD "z_l" (DA.scalar (fin 101325)) = .ok (exZ * DA.scalar (1.0e4 : Fl ℝ) + DA.scalar (fin 101325)) := rfl
  cases h.symm.trans this
  rw [DA.get_add, DA.get_mul]
  simp only [DA.scalar, exZ]
  rw [ofSci, fin_mul, fin_add]
  norm_num

/-- Example for C105_linear: the example data against a reference with salinity 34 and one with salinity 38: the
thermosteric height changes by the same positive amount over the ocean. -/
example : ∃ ref ref' r r' a a', thermosteric exD (.dataset ref) .none none (fin 1035) (DA.scalar (fin 101325)) "linear"
      "local" true = .ok (r, ref) ∧ thermosteric exD (.dataset ref') .none none (fin 1035) (DA.scalar (fin 101325))
      "linear" "local" true = .ok (r', ref') ∧ r.getVar "thermosteric" = .ok a ∧ r'.getVar "thermosteric" = .ok a' ∧
    ∀ e, exDepth.InBounds e → e "xh" = 0 →
      a.get (Function.update e "time" 1) - a.get e = a'.get (Function.update e "time" 1) - a'.get e ∧ a.get e ≠ nan := by
  obtain ⟨ref, r, rth, rso, rvol, rrho, -, tf, h, -, p2, p3, p4, q1, q2, q3, q4⟩ := refRun 34 (eos := "linear")
    (variant := "thermosteric") (domain := "local") (linear_eos linear_case) (Or.inr linear_case) (by simp)
  obtain ⟨ref', r', rth', rso', rvol', rrho', -, tf', h', -, p2', p3', p4', q1', q2', q3', q4'⟩ := refRun 38
    (eos := "linear") (variant := "thermosteric") (domain := "local") (linear_eos linear_case) (Or.inr linear_case)
    (by simp)
  obtain ⟨a, a', vol, vol', fld, hold, hold', rr, rr', k1, j1, k3, j3, k5, k6, k7, k8, k9, key⟩ := C105_linear h h'
    (Or.inl ⟨rfl, rfl, rfl⟩) linear_case (by decide) exC (by decide) exGrid rfl (by simp [exDepth, DA.dimNames]) tf tf'
  cases k3.symm.trans p3
  cases j3.symm.trans p3'
  cases k5.symm.trans exGood.hth
  cases k6.symm.trans p2
  cases k7.symm.trans p2'
  cases k8.symm.trans p4
  cases k9.symm.trans p4'
  refine ⟨ref, ref', r, r', a, a', h, h', k1, j1, fun e he hx => ?_⟩
  obtain ⟨g1, g2⟩ := key e 1 he (fun k => by rw [q3, q3']) (fun k _ _ => ⟨⟨_, rfl⟩, ⟨_, rfl⟩, ⟨_, q2 _⟩, ⟨_, q2' _⟩,
    ⟨_, (q4 _).trans (linear_float _ _ _)⟩, ⟨_, (q4' _).trans (linear_float _ _ _)⟩⟩)
  refine ⟨g1, fun h => ?_⟩
  have := g2.1 h
  rw [q3] at this
  simp [hx] at this

/-- Not so with Wright's equation of state: the change of the thermosteric height between two times depends on the
salinity of the reference. -/
theorem C105_wright_counterexample : ∃ (d ref ref' r r' : DS (Fl ℝ)) (a a' : DA (Fl ℝ)) (e : Env) (x x' : ℝ),
    thermosteric d (.dataset ref) = .ok (r, ref) ∧ thermosteric d (.dataset ref') = .ok (r', ref') ∧
    r.getVar "thermosteric" = .ok a ∧ r'.getVar "thermosteric" = .ok a' ∧ TimeFree "time" ref ∧ TimeFree "time" ref' ∧
    a.get (Function.update e "time" 1) - a.get e = fin x ∧ a'.get (Function.update e "time" 1) - a'.get e = fin x' ∧
    x ≠ x' := by
  have e1 : (1035.0 : Fl ℝ) = fin 1035 := by rw [ofSci]; norm_num
  have e2 : (101325.0 : Fl ℝ) = fin 101325 := by rw [ofSci]; norm_num
  let P : Nat → ℝ := fun k => (500 + 1000 * (k : ℝ)) * 10 ^ 4 + 101325
  have hO : ∀ T S : ℝ, 10 ≤ T → T ≤ 15 → 34 ≤ S → S ≤ 35 → ∀ k < 2, Spec.Wright.Ocean T S (P k) := by
    intro T S q1 q2 q3 q4 k hk
    have : (k : ℝ) ≤ 1 := by exact_mod_cast Nat.le_of_lt_succ hk
    have : (0 : ℝ) ≤ k := Nat.cast_nonneg k
    refine ⟨by linarith, by linarith, by linarith, by linarith, ?_, ?_⟩ <;> simp only [P] <;> nlinarith
  have main : ∀ s : ℝ, 34 ≤ s → s ≤ 35 → ∃ ref r a, thermosteric exD (.dataset ref) = .ok (r, ref) ∧
      r.getVar "thermosteric" = .ok a ∧ TimeFree "time" ref ∧
      a.get (Function.update (fun _ => 0) "time" 1) - a.get (fun _ => 0)
        = fin (-(1 / 1035) * (1000 * (Spec.Wright.rho 15 s (P 0) - Spec.Wright.rho 10 s (P 0))
          + 1000 * (Spec.Wright.rho 15 s (P 1) - Spec.Wright.rho 10 s (P 1)))) := by
    intro s hs hs'
    obtain ⟨ref, r, rth, rso, rvol, rrho, -, tf, h, -, p2, p3, p4, q1, q2, q3, q4⟩ := refRun s (eos := "Wright")
      (variant := "thermosteric") (domain := "local") (wright_eos wright_case) (Or.inl wright_case) (by simp)
    obtain ⟨a, dr, vol, rr, th, so, pres, f, k1, k2, k3, k4, k5, k6, k7, k8, k9⟩ := run_local h (by decide) exC exGrid rfl
    cases k3.symm.trans p3
    cases k4.symm.trans p4
    cases k7.symm.trans (wright_eos wright_case)
    have k5' : stericFields exD ref "thermosteric" = .ok (exT, rso) := by
      rw [stericFields, if_pos rfl, exGood.hth, p2]; rfl
    cases k5.symm.trans k5'
    have hdr : ∀ t k : Nat, t < 2 → k < 2 → dr.get (Function.update (Function.update (fun _ => 0) "time" t) "z_l" k)
        = fin (Spec.Wright.rho (10 + 5 * (t : ℝ)) s (P k) - Spec.Wright.rho 10 s (P k)) := by
      intro t k ht hk
      have hz : (Function.update (Function.update (fun _ : String => 0) "time" t) "z_l" k) "z_l" = k := by simp
      have ht' : (t : ℝ) ≤ 1 := by exact_mod_cast Nat.le_of_lt_succ ht
      have ht0 : (0 : ℝ) ≤ t := Nat.cast_nonneg t
      rw [k8, q3, if_pos (by simp), sel_wet (by simp), q2, q4, pres_get k6, hz,
        show exT.get _ = fin (10 + 5 * (t : ℝ)) by simp [exT],
        wright_float (hO _ _ (by linarith) (by linarith) hs hs' k hk),
        wright_float (hO 10 s (by norm_num) (by norm_num) hs hs' k hk), fin_sub]
    have hva : ∀ t : Nat, t < 2 → a.get (Function.update (fun _ => 0) "time" t)
        = fin (-(1 / 1035) * (1000 * (Spec.Wright.rho (10 + 5 * (t : ℝ)) s (P 0) - Spec.Wright.rho 10 s (P 0))
          + 1000 * (Spec.Wright.rho (10 + 5 * (t : ℝ)) s (P 1) - Spec.Wright.rho 10 s (P 1)))) := by
      intro t ht
      rw [k9 _ (by
        intro p hp
        simp only [exDepth, List.mem_cons, List.not_mem_nil, or_false] at hp
        rcases hp with rfl | rfl <;> simp) (fun k hk => Or.inr ⟨_, hdr t k ht hk⟩), q3,
        if_neg (by simp)]
      have th0 : thickness (fun k => 1000 * (k : ℝ)) 2000 0 = 1000 := by
        unfold thickness Spec.overlap; norm_num
      have th1 : thickness (fun k => 1000 * (k : ℝ)) 2000 1 = 1000 := by
        unfold thickness Spec.overlap; norm_num
      have hd : exDepth.get (Function.update (fun _ => 0) "time" t) = fin 2000 := by simp [exDepth]
      rw [Finset.sum_range_succ, Finset.sum_range_succ, Finset.sum_range_zero, hdr t 0 ht (by norm_num),
        hdr t 1 ht (by norm_num), hd, val0_fin, val0_fin, val0_fin, th0, th1, zero_add]
    refine ⟨ref, r, a, by unfold thermosteric; rw [e1, e2]; exact h, k1, tf, ?_⟩
    have h0 := hva 0 (by norm_num)
    have h1 := hva 1 (by norm_num)
    rw [show Function.update (fun _ : String => (0 : Nat)) "time" 0 = fun _ => 0 from
      Function.update_eq_self "time" (fun _ : String => (0 : Nat))] at h0
    rw [h0, h1, fin_sub]
    congr 1
    norm_num
  obtain ⟨ref, r, a, h1, h2, h3, h4⟩ := main 34 (by norm_num) (by norm_num)
  obtain ⟨ref', r', a', h1', h2', h3', h4'⟩ := main 35 (by norm_num) (by norm_num)
  refine ⟨exD, ref, ref', r, r', a, a', fun _ => 0, _, _, h1, h1', h2, h2', h3, h3', h4, h4', ?_⟩
  simp only [P, Spec.Wright.rho, Spec.Wright.denom, Spec.Wright.al0, Spec.Wright.p0, Spec.Wright.lam]
  norm_num

/-- Example for C105_local and C105_global: the hypotheses hold for these two references (Wright's equation of state). -/
example : ∃ ref ref' r r' a a', steric exD (.dataset ref) .none none (fin 1035) (DA.scalar (fin 101325)) "Wright"
      "steric" "local" true = .ok (r, ref) ∧ steric exD (.dataset ref') .none none (fin 1035) (DA.scalar (fin 101325))
      "Wright" "steric" "local" true = .ok (r', ref') ∧ r.getVar "steric" = .ok a ∧ r'.getVar "steric" = .ok a' ∧
    ∀ e, exDepth.InBounds e → e "xh" = 0 → e "time" = 0 →
      a.get (Function.update e "time" 1) - a.get e = a'.get (Function.update e "time" 1) - a'.get e ∧ a.get e ≠ nan := by
  obtain ⟨ref, r, rth, rso, rvol, rrho, -, tf, h, -, p2, p3, p4, q1, q2, q3, q4⟩ := refRun 34 (eos := "Wright")
    (variant := "steric") (domain := "local") (wright_eos wright_case) (Or.inl wright_case) (by simp)
  obtain ⟨ref', r', rth', rso', rvol', rrho', -, tf', h', -, p2', p3', p4', q1', q2', q3', q4'⟩ := refRun 35
    (eos := "Wright") (variant := "steric") (domain := "local") (wright_eos wright_case) (Or.inl wright_case) (by simp)
  obtain ⟨a, a', dr, dr', vol, vol', k1, j1, k2, j2, k3, j3, key⟩ := C105_local h h'
    (by decide) exC (by decide) exGrid rfl (by simp [exDepth, DA.dimNames]) tf tf'
  cases k3.symm.trans p3
  cases j3.symm.trans p3'
  have hdr : ∀ {s : ℝ} {ref r : DS (Fl ℝ)} {rvol rrho dr : DA (Fl ℝ)}, 34 ≤ s → s ≤ 35 → steric exD (.dataset ref) .none none
      (fin 1035) (DA.scalar (fin 101325)) "Wright" "steric" "local" true = .ok (r, ref) → ref.getVar "volcello" = .ok rvol →
      ref.getVar "rho" = .ok rrho → r.getVar "delta_rho" = .ok dr →
      (∀ e, rrho.get e = Wright.density (fin 10) (fin s) (fin ((500 + 1000 * (e "z_l" : ℝ)) * 10 ^ 4 + 101325))) →
      (∀ e, rvol.get e = if e "xh" = 0 then fin 1 else nan) → ∀ (e : Env), e "z_l" < 2 → e "time" < 2 → e "xh" = 0 →
      Present dr e := by
    intro s ref r rvol rrho dr hs hs' h p3 p4 k2 q4 q3 e hz ht hx
    obtain ⟨a, dr, vol, rr, th, so, pres, f, k1, k2', k3, k4, k5, k6, k7, k8, k9⟩ := run_local h (by decide) exC exGrid rfl
    cases k2.symm.trans k2'
    cases k3.symm.trans p3
    cases k4.symm.trans p4
    cases k7.symm.trans (wright_eos wright_case)
    have k5' : stericFields exD ref "steric" = .ok (exT, exS) := rfl
    cases k5.symm.trans k5'
    have ht' : (e "time" : ℝ) ≤ 1 := by exact_mod_cast Nat.le_of_lt_succ ht
    have ht0 : (0 : ℝ) ≤ e "time" := Nat.cast_nonneg _
    have hz' : (e "z_l" : ℝ) ≤ 1 := by exact_mod_cast Nat.le_of_lt_succ hz
    have hz0 : (0 : ℝ) ≤ e "z_l" := Nat.cast_nonneg _
    have hO : ∀ T S : ℝ, 10 ≤ T → T ≤ 15 → 34 ≤ S → S ≤ 35 →
        Spec.Wright.Ocean T S ((500 + 1000 * (e "z_l" : ℝ)) * 10 ^ 4 + 101325) :=
      fun T S _ _ _ _ => ⟨by linarith, by linarith, by linarith, by linarith, by nlinarith, by nlinarith⟩
    unfold Present
    rw [k8, q3, if_pos hx, sel_wet (by simp), q4, pres_get k6, show exT.get _ = fin (10 + 5 * (e "time" : ℝ)) from rfl,
      show exS.get _ = fin (34 + (e "time" : ℝ)) from rfl,
      wright_float (hO _ _ (by linarith) (by linarith) (by linarith) (by linarith)),
      wright_float (hO _ _ (by norm_num) (by norm_num) hs hs'), fin_sub]
    exact ⟨_, rfl⟩
  refine ⟨ref, ref', r, r', a, a', h, h', k1, j1, fun e he hx ht => ?_⟩
  have p := fun (e : Env) => hdr (e := e) (s := 34) (by norm_num) (by norm_num) h p3 p4 k2 q4 q3
  have p' := fun (e : Env) => hdr (e := e) (s := 35) (by norm_num) (by norm_num) h' p3' p4' j2 q4' q3'
  obtain ⟨g1, g2⟩ := key e 1 he (fun k => by rw [q3, q3']) (fun k hk _ => ⟨p _ (by simp [hk]) (by simp [ht]) (by simp [hx]),
    p _ (by simp [hk]) (by simp) (by simp [hx]), p' _ (by simp [hk]) (by simp [ht]) (by simp [hx]),
    p' _ (by simp [hk]) (by simp) (by simp [hx])⟩)
  refine ⟨g1, fun h => ?_⟩
  have := g2.1 h
  rw [q3] at this
  simp [hx] at this

end

end Momlevel.Props
