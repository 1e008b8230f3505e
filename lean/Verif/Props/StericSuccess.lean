import Verif.Props.StericRun
import Verif.Props.Mass

/-! # C30 (continued): well-formed requests succeed; concrete runs for C24–C33 -/

set_option linter.unusedSectionVars false

namespace Momlevel.Props
open Momlevel Momlevel.Fl Momlevel.Eos

/-- A dataset on (time, z, y, x) with more than one point along each spatial dimension, and no coordinate other
than `zc` itself without a dimension apart from `zc`. -/
structure GoodData (d : DS (Fl ℝ)) (tc zc zb zid yc xc : String) (nt n ny nx : Nat)
    (lev ifc : Nat → ℝ) (th so vol area depth zi patm : DA (Fl ℝ)) : Prop where
  names : [tc, zc, yc, xc].Nodup
  hnt : 0 < nt
  hn : 1 < n
  hny : ny ≠ 1
  hnx : nx ≠ 1
  hth : d.getVar "thetao" = .ok th
  hso : d.getVar "so" = .ok so
  hvol : d.getVar "volcello" = .ok vol
  harea : d.getVar "areacello" = .ok area
  hzb : d.getVar zb = .ok zi
  thd : th.dims = [(tc, nt), (zc, n), (yc, ny), (xc, nx)]
  sod : so.dims = [(tc, nt), (zc, n), (yc, ny), (xc, nx)]
  vold : vol.dims = [(tc, nt), (zc, n), (yc, ny), (xc, nx)]
  aread : area.dims = [(yc, ny), (xc, nx)]
  depthd : depth.dims = [(yc, ny), (xc, nx)]
  grid : OceanGrid d zc zb zid n lev ifc depth
  alone : ∀ p ∈ d.vars, p.1 ∈ d.coords → p.1 ≠ zc → ∃ x ∈ p.2.dimNames, x ≠ zc
  patmd : ∀ p ∈ patm.dims, p ∈ [(zc, n), (yc, ny), (xc, nx)]

section
variable {d : DS (Fl ℝ)} {tc zc zb zid yc xc : String} {nt n ny nx : Nat}
    {lev ifc : Nat → ℝ} {th so vol area depth zi patm : DA (Fl ℝ)} {eos variant domain : String}
    {rhozero : Fl ℝ} {strict : Bool} {cn : DictArg} {f : EosFn (Fl ℝ)}

theorem memL {t : String} {a b : List (String × Nat)} (h : t ∈ a.map Prod.fst) :
    t ∈ (DA.bdims a b).map Prod.fst := by
  unfold DA.bdims
  rw [List.map_append, List.mem_append]
  exact Or.inl h

theorem memR {t : String} {a b : List (String × Nat)} (h : t ∈ b.map Prod.fst) :
    t ∈ (DA.bdims a b).map Prod.fst := by
  by_cases ha : t ∈ a.map Prod.fst
  · exact memL ha
  · obtain ⟨p, hp, rfl⟩ := List.mem_map.1 h
    unfold DA.bdims
    rw [List.map_append, List.mem_append]
    right
    exact List.mem_map.2 ⟨p, List.mem_filter.2 ⟨hp, by simpa using ha⟩, rfl⟩

theorem good_slice {a : DA (Fl ℝ)} {name : String} (ha : d.getVar name = .ok a)
    (hd : a.dims = [(tc, nt), (zc, n), (yc, ny), (xc, nx)]) (hnd : [tc, zc, yc, xc].Nodup)
    (hnt : 0 < nt) (hn : 1 < n) (hny : ny ≠ 1) (hnx : nx ≠ 1) :
    ∃ b, refSlice d name tc 0 = .ok b ∧ b.dims = [(zc, n), (yc, ny), (xc, nx)] := by
  have hmem : tc ∈ a.dimNames := by simp [DA.dimNames, hd]
  have hsize : a.size tc = nt := by simp [DA.size, hd]
  have hidx : pyIndex (a.size tc) 0 = .ok 0 := by
    rw [hsize]; unfold pyIndex; rw [if_pos le_rfl, if_pos (by simpa using hnt)]; rfl
  refine ⟨(a.isel tc 0).squeeze, ?_, ?_⟩
  · simp only [refSlice, ha, ok_bind, DA.iselE, if_pos hmem, hidx]
    rfl
  · show ((a.dims.filter (fun p => p.1 != tc)).filter (fun p => p.2 != 1)) = _
    simp only [List.nodup_cons, List.mem_cons, not_or, List.not_mem_nil, or_false] at hnd
    have h1 : zc ≠ tc := fun h => hnd.1.1 h.symm
    have h2 : yc ≠ tc := fun h => hnd.1.2.1 h.symm
    have h3 : xc ≠ tc := fun h => hnd.1.2.2 h.symm
    have h4 : n ≠ 1 := by omega
    rw [hd]
    simp [h1, h2, h3, h4, hny, hnx]

/-- Every well-formed request succeeds: all variants, both domains, both equations of state. -/
theorem C30_success (g : GoodData d tc zc zb zid yc xc nt n ny nx lev ifc th so vol area depth zi patm)
    (hc : defaultCoords cn = .ok (tc, zc, zb))
    (hv : variant ∈ ["thermosteric", "halosteric", "steric"])
    (he : CaseVariant eos "wright" ∨ CaseVariant eos "linear") (hr : rhozero ≠ fin 0)
    (ha : strict = true → validateAreacello area = true) :
    ∃ x, steric d .none cn none rhozero patm eos variant domain strict = .ok x := by
  have hf : ∃ f : EosFn (Fl ℝ), eosFuncFromStr eos "density" = .ok f :=
    he.elim (fun h => ⟨_, wright_eos h⟩) (fun h => ⟨_, linear_eos h⟩)
  obtain ⟨f, hf⟩ := hf
  obtain ⟨z, zi', g1, g2, g3⟩ := g.grid.grid
  have hdepth := g.grid.hdepth
  have nd := g.names
  simp only [List.nodup_cons, List.mem_cons, not_or, List.not_mem_nil, or_false] at nd
  obtain ⟨⟨n1, n2, n3⟩, ⟨n4, n5⟩, n6, -⟩ := nd
  obtain ⟨rth, s1, d1⟩ := good_slice g.hth g.thd g.names g.hnt g.hn g.hny g.hnx
  obtain ⟨rso, s2, d2⟩ := good_slice g.hso g.sod g.names g.hnt g.hn g.hny g.hnx
  obtain ⟨rvol, s3, d3⟩ := good_slice g.hvol g.vold g.names g.hnt g.hn g.hny g.hnx
  have hval : validateDataset d false strict (if domain = "global" then .none else .list [zb, "deptho"])
      = .ok () := by
    rw [(C34_iff d false strict _).1]
    refine ⟨?_, ?_, ?_, ?_, fun hs => ⟨area, getVar_lookup.1 g.harea, ha hs⟩, by simp⟩
    · intro v hv
      simp only [List.mem_cons, List.not_mem_nil, or_false] at hv
      rcases hv with rfl | rfl | rfl
      · rw [rankOf_of_getVar g.hth, g.thd]; rfl
      · rw [rankOf_of_getVar g.hso, g.sod]; rfl
      · rw [rankOf_of_getVar g.hvol, g.vold]; rfl
    · rw [rankOf_of_getVar g.harea, g.aread]; rfl
    · intro r h
      rw [rankOf_of_getVar hdepth, g.depthd] at h
      simpa using h.symm
    · intro v hv
      split at hv
      · simp [extraVars] at hv
      · simp only [extraVars, List.mem_cons, List.not_mem_nil, or_false] at hv
        rcases hv with rfl | rfl
        · rw [rankOf_of_getVar g.hzb]; simp
        · rw [rankOf_of_getVar hdepth]; simp
  obtain ⟨pres, hpres, hpd⟩ : ∃ pres, pressureField d zc patm = .ok pres ∧
      ∀ p ∈ pres.dims, p ∈ [(zc, n), (yc, ny), (xc, nx)] := by
    refine ⟨z * DA.scalar (1.0e4 : Fl ℝ) + patm, by simp only [pressureField, g1, ok_bind]; rfl, ?_⟩
    intro p hp
    rcases DA.mem_bdims hp with hp | hp
    · rcases DA.mem_bdims hp with hp | hp
      · rw [g3.ldims] at hp; simp only [List.mem_singleton] at hp; simp [hp]
      · simp at hp
    · exact g.patmd p hp
  have hsub : ∀ {a : DA (Fl ℝ)}, (∀ p ∈ [(zc, n), (yc, ny), (xc, nx)], p ∈ a.dims) →
      ∀ p ∈ pres.dims, p.1 ∈ a.dimNames := fun h p hp => List.mem_map_of_mem (h p (hpd p hp))
  have hrrho : calcRho rth rso pres eos = .ok (DA.zip3 f rth rso pres) :=
    applyEos_ok hf _ _ _ (hsub (fun p hp => by rw [d1]; exact hp))
  have rrd : (DA.zip3 f rth rso pres).dims = [(zc, n), (yc, ny), (xc, nx)] := by
    show DA.bdims (DA.bdims rth.dims rso.dims) pres.dims = _
    rw [d1, d2, DA.bdims_eq_left (fun p hp => hp), DA.bdims_eq_left hpd]
  have hvolo : calcVolo rvol = .ok rvol.sumAll := by
    simp only [calcVolo, DA.ndim, d3, List.length_cons, List.length_nil]; rfl
  obtain ⟨rrho, hrrho', rrd'⟩ : ∃ rrho, rrho = DA.zip3 f rth rso pres ∧
    rrho.dims = [(zc, n), (yc, ny), (xc, nx)] := ⟨_, rfl, rrd⟩
  have mdims : (calcMasso rrho rvol tc).dims = [] := by
    have : (rrho * rvol).dims = [(zc, n), (yc, ny), (xc, nx)] := by
      rw [DA.dims_mul, rrd', d3, DA.bdims_eq_left (fun p hp => hp)]
    show (rrho * rvol).dims.filter _ = []
    rw [DA.dimNames, this]
    simp [Ne.symm n1, Ne.symm n2, Ne.symm n3]
  have harea' : d.getAttr "areacello" = .ok area := by
    unfold DS.getAttr; rw [getVar_lookup.1 g.harea]
  obtain ⟨ref, hset, href⟩ : ∃ ref, setupReferenceState d patm eos cn = .ok ref ∧ ref =
      { vars := [("thetao", rth), ("so", rso), ("volcello", rvol), ("rho", rrho),
        ("volo", rvol.sumAll), ("masso", calcMasso rrho rvol tc),
        ("rhoga", calcRhoga (calcMasso rrho rvol tc) rvol.sumAll), ("areacello", area)] } := by
    refine ⟨_, ?_, rfl⟩
    simp only [setupReferenceState, hc, ok_bind, hpres, s1, s2, s3, hrrho, hvolo, harea', hrrho']
    rfl
  have r1 : ref.getVar "thetao" = .ok rth := by rw [href]; rfl
  have r2 : ref.getVar "so" = .ok rso := by rw [href]; rfl
  have r3 : ref.getVar "volcello" = .ok rvol := by rw [href]; rfl
  have r4 : ref.getVar "rho" = .ok rrho := by rw [href]; rfl
  have r5 : ref.getVar "volo" = .ok rvol.sumAll := by rw [href]; rfl
  have r6 : ref.getVar "masso" = .ok (calcMasso rrho rvol tc) := by rw [href]; rfl
  have r7 : ref.getVar "rhoga" = .ok (calcMasso rrho rvol tc / rvol.sumAll) := by rw [href]; rfl
  have r8 : ref.getVar "areacello" = .ok area := by rw [href]; rfl
  have r9 : rankOf ref "deptho" = none := by rw [href]; rfl
  have hval2 : validateDataset ref true strict = .ok () := by
    rw [(C34_iff ref true strict _).1]
    refine ⟨?_, ?_, ?_, by simp [extraVars], fun hs => ⟨area, getVar_lookup.1 r8, ha hs⟩, fun _ => ⟨?_, ?_⟩⟩
    · intro v hv
      simp only [List.mem_cons, List.not_mem_nil, or_false] at hv
      rcases hv with rfl | rfl | rfl
      · rw [rankOf_of_getVar r1, d1]; rfl
      · rw [rankOf_of_getVar r2, d2]; rfl
      · rw [rankOf_of_getVar r3, d3]; rfl
    · rw [rankOf_of_getVar r8, g.aread]; rfl
    · rw [r9]; simp
    · rw [rankOf_of_getVar r4, rrd']; rfl
    · intro v hv
      simp only [List.mem_cons, List.not_mem_nil, or_false] at hv
      rcases hv with rfl | rfl | rfl
      · rw [rankOf_of_getVar r6, mdims]; rfl
      · rw [rankOf_of_getVar r5]; rfl
      · rw [rankOf_of_getVar r7, DA.dims_div, mdims]; rfl
  have hfields : ∃ t s, stericFields d ref variant = .ok (t, s) ∧
      (∀ p ∈ [(zc, n), (yc, ny), (xc, nx)], p ∈ t.dims) ∧ (tc ∈ t.dimNames ∨ tc ∈ s.dimNames) := by
    simp only [List.mem_cons, List.not_mem_nil, or_false] at hv
    rcases hv with rfl | rfl | rfl
    · refine ⟨th, rso, by simp only [stericFields, if_true, g.hth, r2, ok_bind]; rfl, ?_, Or.inl ?_⟩
      · intro p hp; rw [g.thd]; exact List.mem_cons_of_mem _ hp
      · simp [DA.dimNames, g.thd]
    · refine ⟨rth, so, ?_, ?_, Or.inr ?_⟩
      · simp only [stericFields, if_true, g.hso, r1, ok_bind]; rfl
      · intro p hp; rw [d1]; exact hp
      · simp [DA.dimNames, g.sod]
    · refine ⟨th, so, ?_, ?_, Or.inl ?_⟩
      · simp only [stericFields, if_true, g.hso, g.hth, ok_bind]; rfl
      · intro p hp; rw [g.thd]; exact List.mem_cons_of_mem _ hp
      · simp [DA.dimNames, g.thd]
  obtain ⟨t, s, hfld, htd, hts⟩ := hfields
  have hrho : calcRho t s pres eos = .ok (DA.zip3 f t s pres) := applyEos_ok hf _ _ _ (hsub htd)
  have hrt : tc ∈ (DA.zip3 f t s pres).dimNames := by
    exact memL (hts.elim memL memR)
  have hres : ∃ r, stericResult d ref (DA.zip3 f t s pres) tc zc zb rhozero variant domain = .ok r := by
    by_cases hd : domain = "global"
    · refine ⟨?_, ?_⟩
      rotate_left
      · simp only [stericResult, if_pos hd, stericGlobal, r3, r5, r7, r8, ok_bind]
        rfl
    · obtain ⟨dz, k1, k2, -⟩ := C08_cell g3 g.grid.bathy g.grid.hz
      have hdrt : tc ∈ (DA.zip (fun v d => Fl.sel (Fl.notnull v) d .nan) rvol
          (DA.zip3 f t s pres - rrho)).dimNames := by
        exact memR (memL hrt)
      obtain ⟨dr, hdr, hdrt2⟩ : ∃ dr, (DA.zip (fun v d => Fl.sel (Fl.notnull v) d .nan) rvol
          (DA.zip3 f t s pres - rrho)).transposeE tc = .ok dr ∧ tc ∈ dr.dimNames := by
        refine ⟨_, if_pos hdrt, ?_⟩
        unfold DA.dimNames DA.transposeFirst
        rw [List.map_append, List.mem_append]
        left
        obtain ⟨p, hp, hpt⟩ := List.mem_map.1 hdrt
        exact List.mem_map.2 ⟨p, List.mem_filter.2 ⟨hp, by simpa using hpt⟩, hpt⟩
      have hzin : zc ∈ (dz * dr).dimNames := by
        refine memL ?_
        rw [k2]; simp
      have hcoef : ∃ c, pyFloatDiv (-1.0 : Fl ℝ) rhozero = .ok c := ⟨_, if_neg hr⟩
      obtain ⟨c, hcoef⟩ := hcoef
      have htot : ∃ tot, (dz * dr).sumDimE zc = .ok tot ∧ tc ∈ tot.dimNames := by
        refine ⟨_, if_pos hzin, ?_⟩
        have : tc ∈ (dz * dr).dimNames := by
          exact memR hdrt2
        obtain ⟨p, hp, hpt⟩ := List.mem_map.1 this
        refine List.mem_map.2 ⟨p, List.mem_filter.2 ⟨hp, ?_⟩, hpt⟩
        simpa [hpt] using n1
      obtain ⟨tot, htot, htt⟩ := htot
      have htr : ∃ sl, (tot.map (fun s => c * s)).transposeE tc = .ok sl := ⟨_, if_pos htt⟩
      obtain ⟨sl, htr⟩ := htr
      have htop : ∃ top, rvol.iselE zc 0 = .ok top := by
        have m : zc ∈ rvol.dimNames := by simp [DA.dimNames, d3]
        have sz : rvol.size zc = n := by simp [DA.size, d3]
        refine ⟨rvol.isel zc 0, ?_⟩
        simp only [DA.iselE, if_pos m, sz, pyIndex, le_refl, if_true]
        rw [if_pos (by have := g.hn; simp only [Int.toNat_zero]; omega)]
        rfl
      obtain ⟨top, htop⟩ := htop
      refine ⟨?_, ?_⟩
      rotate_left
      · simp only [stericResult, if_neg hd, stericLocal, r3, r4, ok_bind, hdr, g1, g2, hdepth, k1, levelsAlone_ok.2 g.alone, hcoef,
          htot, htr, htop]
        rfl
  obtain ⟨r, hres⟩ := hres
  exact ⟨(r, ref), steric_ok_iff.2 ⟨d, tc, zc, zb, pres, t, s, _, rfl, hc, hval, hpres, hset, hval2, hfld,
    hrho, hres⟩⟩

end

/-! ## A concrete ocean: two times, two levels, two by two points, half of them land -/

noncomputable section

def exDims : List (String × Nat) := [("time", 2), ("z_l", 2), ("yh", 2), ("xh", 2)]
def exT : DA (Fl ℝ) := ⟨exDims, fun e => fin (10 + 5 * (e "time" : ℝ))⟩
def exS : DA (Fl ℝ) := ⟨exDims, fun e => fin (34 + (e "time" : ℝ))⟩
def exV : DA (Fl ℝ) := ⟨exDims, fun e => if e "xh" = 0 then fin 1 else nan⟩
def exA : DA (Fl ℝ) := ⟨[("yh", 2), ("xh", 2)], fun _ => fin 90277730000000⟩
def exDepth : DA (Fl ℝ) := ⟨[("yh", 2), ("xh", 2)], fun e => if e "xh" = 0 then fin 2000 else nan⟩
def exZ : DA (Fl ℝ) := ⟨[("z_l", 2)], fun e => fin (500 + 1000 * (e "z_l" : ℝ))⟩
def exZi : DA (Fl ℝ) := ⟨[("z_i", 3)], fun e => fin (1000 * (e "z_i" : ℝ))⟩
def exD : DS (Fl ℝ) := ⟨[("thetao", exT), ("so", exS), ("volcello", exV), ("areacello", exA),
  ("deptho", exDepth), ("z_l", exZ), ("z_i", exZi)], ["z_l", "z_i"]⟩

theorem exGrid : OceanGrid exD "z_l" "z_i" "z_i" 2 (fun k => 500 + 1000 * (k : ℝ))
    (fun k => 1000 * (k : ℝ)) exDepth where
  grid := by
    refine ⟨exZ, exZi, rfl, rfl, rfl, fun e => rfl, fun k _ => by positivity, rfl, fun e => rfl, by simp, ?_⟩
    intro k _
    push_cast
    linarith
  hdepth := rfl
  bathy := by
    refine ⟨?_, by simp [exDepth, DA.dimNames], ?_⟩
    · intro e e' h
      have := h "xh" (by simp [exDepth, DA.dimNames])
      simp only [exDepth, this]
    · intro e _
      by_cases h : e "xh" = 0
      · right; exact ⟨2000, by norm_num, by simp [exDepth, h]⟩
      · left; simp [exDepth, h]
  hz := by simp [exDepth, DA.dimNames]
  coord := by simp [exD, DS.names]

theorem exGood : GoodData exD "time" "z_l" "z_i" "z_i" "yh" "xh" 2 2 2 2 (fun k => 500 + 1000 * (k : ℝ))
    (fun k => 1000 * (k : ℝ)) exT exS exV exA exDepth exZi (DA.scalar (fin 101325)) where
  names := by decide
  hnt := by norm_num
  hn := by norm_num
  hny := by norm_num
  hnx := by norm_num
  hth := rfl
  hso := rfl
  hvol := rfl
  harea := rfl
  hzb := rfl
  thd := rfl
  sod := rfl
  vold := rfl
  aread := rfl
  depthd := rfl
  grid := exGrid
  alone := by simp [exD, exZ, exZi, DA.dimNames]
  patmd := by simp

theorem exArea : validateAreacello exA = true := by
  rw [C35_defaults, C35_iff (by simp [exA, DA.dimNames]) (fun _ _ _ => rfl) (fun e _ => by simp [exA, FN])
    (by norm_num)]
  simp only [exA, Spec.sumOver, val0_fin, Finset.sum_const, Finset.card_range]
  norm_num

/-- All the hypotheses of C24–C33 hold for this dataset: every variant, domain and equation of state
runs. -/
theorem exRun (variant domain eos : String) (hv : variant ∈ ["thermosteric", "halosteric", "steric"])
    (he : CaseVariant eos "wright" ∨ CaseVariant eos "linear") :
    ∃ x, steric exD .none .none none (fin 1035) (DA.scalar (fin 101325)) eos variant domain true = .ok x :=
  C30_success exGood rfl hv he (by simp) (fun _ => exArea)

theorem exC : defaultCoords .none = .ok ("time", "z_l", "z_i") := rfl

theorem wright_case : CaseVariant "Wright" "wright" := (pyLower_wright _).1 rfl
theorem linear_case : CaseVariant "linear" "linear" := (pyLower_linear _).1 rfl

/-- At the first time level: zero over the ocean (`xh = 0`), missing on land. -/
example : ∃ r ref a, steric exD .none .none none (fin 1035) (DA.scalar (fin 101325)) "Wright" "steric"
      "local" true = .ok (r, ref) ∧ r.getVar "steric" = .ok a ∧
      ∀ e, e "time" = 0 → a.get e = if e "xh" = 0 then fin 0 else nan := by
  obtain ⟨⟨r, ref⟩, h⟩ := exRun "steric" "local" "Wright" (by simp) (Or.inl wright_case)
  obtain ⟨a, dr, vol, h1, h2, h3, h4⟩ := C24_local h (by decide) (by simp) rfl (by decide)
  refine ⟨r, ref, a, h, h1, fun e he => ?_⟩
  obtain ⟨dd, tc', zc', zb', pres, th, so, rho, p1, p2, p3, p4, p5, p6, p7, p8, p9⟩ := steric_ok_iff.1 h
  cases p1
  cases p2
  obtain ⟨f, hf, ⟨D⟩⟩ := refData_of rfl p3 p4 p5 p6
  have : vol = D.rvol := Except.ok.inj (h3.symm.trans D.rhvol)
  have hv : D.vol = exV := Except.ok.inj (D.hvol.symm.trans rfl)
  have hval : vol.get (Function.update e "z_l" 0) = if e "xh" = 0 then fin 1 else nan := by
    rw [this, D.vol_get, hv]
    show (if Function.update (Function.update e "z_l" 0) "time" 0 "xh" = 0 then fin 1 else nan : Fl ℝ) = _
    rw [Function.update_of_ne (by decide), Function.update_of_ne (by decide)]
  refine ((h4 e he).1).trans ?_
  show (if vol.get (Function.update e "z_l" 0) = nan then nan else fin 0) = _
  rw [hval]
  by_cases hx : e "xh" = 0 <;> simp [hx]

/-- With Wright's equation of state the local steric height is in general not the sum of the
thermosteric and halosteric heights. -/
theorem C27_wright_counterexample : ∃ (d r r1 r2 ref ref1 ref2 : DS (Fl ℝ)) (a b c : DA (Fl ℝ)) (e : Env)
    (x y : ℝ),
    steric d = .ok (r, ref) ∧ thermosteric d = .ok (r1, ref1) ∧ halosteric d = .ok (r2, ref2) ∧
    r.getVar "steric" = .ok a ∧ r1.getVar "thermosteric" = .ok b ∧ r2.getVar "halosteric" = .ok c ∧
    a.get e = fin x ∧ b.get e + c.get e = fin y ∧ x ≠ y := by
  have e1 : (1035.0 : Fl ℝ) = fin 1035 := by rw [ofSci]; norm_num
  have e2 : (101325.0 : Fl ℝ) = fin 101325 := by rw [ofSci]; norm_num
  obtain ⟨⟨r, ref⟩, h⟩ := exRun "steric" "local" "Wright" (by simp) (Or.inl wright_case)
  obtain ⟨⟨r1, ref1⟩, h'⟩ := exRun "thermosteric" "local" "Wright" (by simp) (Or.inl wright_case)
  obtain ⟨⟨r2, ref2⟩, h''⟩ := exRun "halosteric" "local" "Wright" (by simp) (Or.inl wright_case)
  have hP : ∀ e : Env, ∀ k : Nat, k < 2 → (fin ((500 + 1000 * (k : ℝ)) * 10 ^ 4 + 101325) : Fl ℝ)
      = fin ((500 + 1000 * (k : ℝ)) * 10 ^ 4) + (DA.scalar (fin (101325 : ℝ))).get (cell "z_l" e k) := by
    intro e k _; simp
  obtain ⟨a, a1, -, a2⟩ := local_value h (by decide) exC exGrid rfl exGood.hth exGood.hso exGood.hvol
    (wright_eos wright_case) (fun _ k => fin ((500 + 1000 * (k : ℝ)) * 10 ^ 4 + 101325)) hP
  obtain ⟨b, b1, -, b2⟩ := local_value h' (by decide) exC exGrid rfl exGood.hth exGood.hso exGood.hvol
    (wright_eos wright_case) (fun _ k => fin ((500 + 1000 * (k : ℝ)) * 10 ^ 4 + 101325)) hP
  obtain ⟨c, c1, -, c2⟩ := local_value h'' (by decide) exC exGrid rfl exGood.hth exGood.hso exGood.hvol
    (wright_eos wright_case) (fun _ k => fin ((500 + 1000 * (k : ℝ)) * 10 ^ 4 + 101325)) hP
  let e : Env := fun x => if x = "time" then 1 else 0
  have he : exDepth.InBounds e := by
    intro p hp
    simp only [exDepth, List.mem_cons, List.not_mem_nil, or_false] at hp
    rcases hp with rfl | rfl <;> simp [e]
  have hO : ∀ T S : ℝ, 10 ≤ T → T ≤ 15 → 34 ≤ S → S ≤ 35 → ∀ k < 2,
      Spec.Wright.Ocean T S ((500 + 1000 * ((k : Nat) : ℝ)) * 10 ^ 4 + 101325) := by
    intro T S q1 q2 q3 q4 k hk
    have : (k : ℝ) ≤ 1 := by exact_mod_cast Nat.le_of_lt_succ hk
    have : (0 : ℝ) ≤ k := Nat.cast_nonneg k
    refine ⟨by linarith, by linarith, by linarith, by linarith, by nlinarith, by nlinarith⟩
  have t1 : ∀ k, exT.get (cell "z_l" e k) = fin 15 := by
    intro k; simp [exT, e]; norm_num
  have t0 : ∀ k, exT.get (cell0 "time" "z_l" e k) = fin 10 := by
    intro k; simp [exT]
  have s1 : ∀ k, exS.get (cell "z_l" e k) = fin 35 := by
    intro k; simp [exS, e]; norm_num
  have s0 : ∀ k, exS.get (cell0 "time" "z_l" e k) = fin 34 := by
    intro k; simp [exS]
  have v0 : ∀ k, exV.get (cell0 "time" "z_l" e k) = fin 1 := by
    intro k; simp [exV, e]
  let P : Nat → ℝ := fun k => (500 + 1000 * (k : ℝ)) * 10 ^ 4 + 101325
  have A := a2 e he (fun k => Spec.Wright.rho 15 35 (P k)) (fun k => Spec.Wright.rho 10 34 (P k))
    (fun k hk _ => by
      rw [if_neg (by decide), if_neg (by decide), t1, s1]
      exact wright_float (hO _ _ (by norm_num) (by norm_num) (by norm_num) (by norm_num) k hk))
    (fun k hk _ => by
      rw [t0, s0]
      exact wright_float (hO _ _ (by norm_num) (by norm_num) (by norm_num) (by norm_num) k hk))
  have B := b2 e he (fun k => Spec.Wright.rho 15 34 (P k)) (fun k => Spec.Wright.rho 10 34 (P k))
    (fun k hk _ => by
      rw [if_neg (by decide), if_pos rfl, t1, s0]
      exact wright_float (hO _ _ (by norm_num) (by norm_num) (by norm_num) (by norm_num) k hk))
    (fun k hk _ => by
      rw [t0, s0]
      exact wright_float (hO _ _ (by norm_num) (by norm_num) (by norm_num) (by norm_num) k hk))
  have C := c2 e he (fun k => Spec.Wright.rho 10 35 (P k)) (fun k => Spec.Wright.rho 10 34 (P k))
    (fun k hk _ => by
      rw [if_pos rfl, if_neg (by decide), t0, s1]
      exact wright_float (hO _ _ (by norm_num) (by norm_num) (by norm_num) (by norm_num) k hk))
    (fun k hk _ => by
      rw [t0, s0]
      exact wright_float (hO _ _ (by norm_num) (by norm_num) (by norm_num) (by norm_num) k hk))
  have hd : exDepth.get e = fin 2000 := by simp [exDepth, e]
  simp only [v0, reduceCtorEq, if_false, hd, val0_fin] at A B C
  refine ⟨exD, r, r1, r2, ref, ref1, ref2, a, b, c, e, _, _, ?_, ?_, ?_, a1, b1, c1, A,
    by rw [B, C, fin_add], ?_⟩
  · unfold steric at h ⊢; rw [e1, e2]; exact h
  · unfold thermosteric; rw [e1, e2]; exact h'
  · unfold halosteric; rw [e1, e2]; exact h''
  · have th0 : thickness (fun k => 1000 * (k : ℝ)) 2000 0 = 1000 := by
      unfold thickness Spec.overlap; norm_num
    have th1 : thickness (fun k => 1000 * (k : ℝ)) 2000 1 = 1000 := by
      unfold thickness Spec.overlap; norm_num
    simp only [Finset.sum_range_succ, Finset.sum_range_zero, th0, th1, P, Spec.Wright.rho, Spec.Wright.denom,
      Spec.Wright.al0, Spec.Wright.p0, Spec.Wright.lam]
    norm_num

/-- C27, C28 and C32 on this dataset: with the linear equation of state the thermosteric height at the
second time is positive over the ocean and the three heights add up; the reference can be fed back. -/
example : ∃ r r1 r2 ref a b c, steric exD .none .none none (fin 1035) (DA.scalar (fin 101325)) "linear"
      "steric" "local" true = .ok (r, ref) ∧
    thermosteric exD (.dataset ref) .none none (fin 1035) (DA.scalar (fin 101325)) "linear" "local" true
      = .ok (r1, ref) ∧
    halosteric exD (.dataset ref) .none none (fin 1035) (DA.scalar (fin 101325)) "linear" "local" true
      = .ok (r2, ref) ∧
    r.getVar "steric" = .ok a ∧ r1.getVar "thermosteric" = .ok b ∧ r2.getVar "halosteric" = .ok c ∧
    ∀ e, e "time" = 1 → e "xh" = 0 → e "yh" < 2 →
      a.get e = b.get e + c.get e ∧ ∃ v, b.get e = fin v ∧ 0 < v := by
  obtain ⟨⟨r, ref⟩, h⟩ := exRun "steric" "local" "linear" (by simp) (Or.inr linear_case)
  obtain ⟨⟨r1, ref1⟩, h1⟩ := exRun "thermosteric" "local" "linear" (by simp) (Or.inr linear_case)
  obtain ⟨⟨r2, ref2⟩, h2⟩ := exRun "halosteric" "local" "linear" (by simp) (Or.inr linear_case)
  have same : ∀ {v v' : String} {x x' y y' : DS (Fl ℝ)}, steric exD .none .none none (fin 1035)
      (DA.scalar (fin 101325)) "linear" v "local" true = .ok (x, y) → steric exD .none .none none (fin 1035)
      (DA.scalar (fin 101325)) "linear" v' "local" true = .ok (x', y') → y = y' := by
    intro v v' x x' y y' p q
    obtain ⟨dd, _, _, _, _, _, _, _, p1, p2, p3, p4, p5, -⟩ := steric_ok_iff.1 p
    obtain ⟨dd', _, _, _, _, _, _, _, q1, q2, q3, q4, q5, -⟩ := steric_ok_iff.1 q
    cases p1; cases q1
    exact Except.ok.inj (p5.symm.trans q5)
  obtain rfl := same h h1
  obtain rfl := same h h2
  obtain ⟨a, b, c, a1, b1, c1, hadd⟩ := C27_linear h h1 h2 linear_case (by decide) exC exGrid rfl
    exGood.hth exGood.hso exGood.hvol
  obtain ⟨b', b1', hpos⟩ := C28_linear_warming h1 linear_case (by decide) exC exGrid rfl
    (by norm_num) exGood.hth exGood.hso exGood.hvol
  obtain rfl : b' = b := Except.ok.inj (b1'.symm.trans b1)
  refine ⟨r, r1, r2, ref, a, b', c, h, C32_feedback h1, C32_feedback h2, a1, b1, c1, fun e ht hx hy => ?_⟩
  have he : exDepth.InBounds e := by
    intro p hp
    simp only [exDepth, List.mem_cons, List.not_mem_nil, or_false] at hp
    rcases hp with rfl | rfl
    · exact hy
    · simp [hx]
  have v0 : ∀ k, exV.get (cell0 "time" "z_l" e k) = fin 1 := by
    intro k; simp [exV, hx]
  refine ⟨(hadd e he (fun k _ _ => ⟨⟨_, rfl⟩, ⟨_, rfl⟩, ⟨_, rfl⟩, ⟨_, rfl⟩⟩)).1, ?_⟩
  obtain ⟨v, hv, -, hp⟩ := hpos e he (by rw [v0]; simp) (fun _ => 15) (fun _ => 10) (fun _ => 34)
    (fun k _ _ => ⟨by simp [exT, ht]; norm_num, by simp [exT], by simp [exS], by norm_num⟩)
  refine ⟨v, hv, hp ⟨0, by norm_num, by rw [v0]; simp, ?_, by norm_num⟩⟩
  have : exDepth.get e = fin 2000 := by simp [exDepth, hx]
  rw [this]
  unfold thickness Spec.overlap
  norm_num

/-- C31 on this dataset: the reference state exists, its density is that of the slice, and without the area there is
an AttributeError. -/
example : ∃ ref rho, setupReferenceState exD (DA.scalar (fin 101325)) "linear" = .ok ref ∧
    ref.getVar "rho" = .ok rho ∧ (∀ e, rho.get e = fin (1000 - 10 / 5 + 4 / 5 * 34)) ∧
    setupReferenceState ⟨exD.vars.filter (fun p => p.1 != "areacello"), exD.coords⟩ (DA.scalar (fin 101325)) "linear"
      = .error .attributeError := by
  obtain ⟨⟨r, ref⟩, h⟩ := exRun "halosteric" "global" "linear" (by simp) (Or.inr linear_case)
  obtain ⟨dd, tc', zc', zb', pres', th', so', rho', p1, p2, p3, p4, p5, p6, p7, p8, p9⟩ := steric_ok_iff.1 h
  cases p1
  cases p2
  have p5' : setupReferenceState exD (DA.scalar (fin 101325)) "linear" = .ok ref := p5
  obtain ⟨th, so, rho, z, f, k1, k2, k3, k4, k5, k6⟩ := C31_density p5' exC
  obtain ⟨f', hf, ⟨D⟩⟩ := refData_of exC p3 p4 p5 p6
  cases k1.symm.trans D.rhth
  cases k2.symm.trans D.rhso
  cases k5.symm.trans (linear_eos linear_case)
  cases k4.unique (isDepth_of (rfl : exD.getItem "z_l" = .ok exZ))
  have hT : D.th = exT := Except.ok.inj (D.hth.symm.trans rfl)
  have hS : D.so = exS := Except.ok.inj (D.hso.symm.trans rfl)
  refine ⟨ref, rho, p5', k3, fun e => ?_, C31_no_area p5' exC (z := exZ) rfl (by decide)⟩
  have hp : exZ.get e * fin 10000 + (DA.scalar (fin 101325)).get e
      = fin ((500 + 1000 * (e "z_l" : ℝ)) * 10000 + 101325) := by
    simp only [exZ, DA.scalar, fin_mul, fin_add]
  rw [k6, D.th_get, hT, D.so_get, hS, hp]
  simp [exT, exS, linear_float, linRho]
  norm_num

/-- C29 on this dataset (linear equation of state, salinification only): mass has increased, so the
global halosteric height is negative. -/
example : ∃ r ref a, halosteric exD .none .none none (fin 1035) (DA.scalar (fin 101325)) "linear"
      "global" true = .ok (r, ref) ∧ r.getVar "halosteric" = .ok a ∧
    ∀ e, e "time" = 1 → ∃ v, a.get e = fin v ∧ v < 0 := by
  obtain ⟨⟨r, ref⟩, h⟩ := exRun "halosteric" "global" "linear" (by simp) (Or.inr linear_case)
  obtain ⟨a, height, rhoga, volo, area, vol, th, so, pres, rho, h1, h2, h3, h4, h5, h6, h7, h8, h9, h10⟩ :=
    C29_formula h exC
  refine ⟨r, ref, a, h, h1, fun e he => ?_⟩
  obtain ⟨dd, tc', zc', zb', pres', th', so', rho', p1, p2, p3, p4, p5, p6, p7, p8, p9⟩ := steric_ok_iff.1 h
  cases p1
  cases p2
  obtain ⟨f, hf, ⟨D⟩⟩ := refData_of exC p3 p4 p5 p6
  have ef : f = fun T S p => Linear.density T S p :=
    Except.ok.inj (hf.symm.trans (linear_eos linear_case))
  have e1 : vol = D.rvol := Except.ok.inj (h6.symm.trans D.rhvol)
  have e2 : volo = D.volo := Except.ok.inj (h4.symm.trans D.rhvolo)
  have e3 : rhoga = _ := Except.ok.inj (h3.symm.trans D.rhrhoga)
  have e4 : area = D.area := Except.ok.inj (h5.symm.trans D.rharea)
  have hv : D.vol = exV := Except.ok.inj (D.hvol.symm.trans rfl)
  have hT : D.th = exT := Except.ok.inj (D.hth.symm.trans rfl)
  have hS : D.so = exS := Except.ok.inj (D.hso.symm.trans rfl)
  have hA : D.area = exA := Except.ok.inj (D.harea.symm.trans rfl)
  rcases h7 with ⟨q, -⟩ | ⟨-, q1, q2⟩ | ⟨q, -⟩
  · exact absurd q (by decide)
  rotate_left
  · exact absurd q (by decide)
  have eth : th = D.rth := Except.ok.inj (q1.symm.trans D.rhth)
  have eso : so = exS := Except.ok.inj (q2.symm.trans rfl)
  obtain ⟨f', hf', hrho⟩ := calcRho_ok h9
  rw [hf] at hf'
  cases hf'
  have hp : pres.dims = [("z_l", 2)] := by
    obtain ⟨z, hz, rfl⟩ := h8
    cases hz.unique (isDepth_of (rfl : exD.getItem "z_l" = .ok exZ))
    rfl
  obtain rfl : pres' = pres := (isPressure_of p4).unique h8
  have dims3 : ∀ a : DA (Fl ℝ), a.dims = exDims →
      a.dims.filter (fun p => p.1 != "time") = [("z_l", 2), ("yh", 2), ("xh", 2)] := by
    intro a ha; rw [ha]; rfl
  have vd : D.rvol.dims = [("z_l", 2), ("yh", 2), ("xh", 2)] := by
    rw [D.vol_dims, dims3 _ (by rw [hv]; rfl)]
  have td : D.rth.dims = [("z_l", 2), ("yh", 2), ("xh", 2)] := by
    rw [D.th_dims, dims3 _ (by rw [hT]; rfl)]
  have sd : D.rso.dims = [("z_l", 2), ("yh", 2), ("xh", 2)] := by
    rw [D.so_dims, dims3 _ (by rw [hS]; rfl)]
  have vg : ∀ e, D.rvol.get e = if e "xh" = 0 then fin 1 else nan := by
    intro e; rw [D.vol_get, hv]; simp [exV]
  have tg : ∀ e, D.rth.get e = fin 10 := by
    intro e; rw [D.th_get, hT]; simp [exT]
  have sg : ∀ e, D.rso.get e = fin 34 := by
    intro e; rw [D.so_get, hS]; simp [exS]
  have hvolo : D.volo.get e = fin 4 := by
    have := D.hvolo
    simp only [calcVolo, DA.ndim, vd, List.length_cons, List.length_nil] at this
    rw [← Except.ok.inj this, DA.get_sumAll (by simp [DA.dimNames, vd])
      (fun e e' h => by rw [vg, vg, h "xh" (by simp [DA.dimNames, vd])])
      (fun e _ => by rw [vg]; split <;> simp [FN])]
    rw [vd]
    simp [Spec.sumOver, vg, Finset.sum_range_succ]
    norm_num
  have hmass : ∀ (x : DA (Fl ℝ)) (q : ℝ), (∀ e', e' "time" = e "time" → x.get e' = fin q) →
      (x * D.rvol).dims.filter (fun p => p.1 != "time") = [("z_l", 2), ("yh", 2), ("xh", 2)] →
      (calcMasso x D.rvol "time").get e = fin (4 * q) := by
    intro x q hx hxd
    have : (calcMasso x D.rvol "time").get e
        = (calcMasso (⟨D.rvol.dims, fun _ => fin q⟩ : DA (Fl ℝ)) D.rvol "time").get e := by
      refine calcMasso_congr ?_ (fun m hm => hx m hm)
      rw [hxd, DA.dims_mul]
      simp only [vd]
      rfl
    have hd : ((⟨D.rvol.dims, fun _ => fin q⟩ : DA (Fl ℝ)) * D.rvol).dims
        = [("z_l", 2), ("yh", 2), ("xh", 2)] := by
      rw [DA.dims_mul]; simp only [vd]; rfl
    rw [this, (C21_masso (by rw [DA.dimNames, hd]; decide) ?_ e (fun _ => Or.inr ⟨q, rfl⟩)
      (fun e => by rw [vg]; split <;> simp [FN])).1, hd]
    · simp [Spec.sumOver, vg, Finset.sum_range_succ]
      ring
    · intro e e' h'
      simp only [DA.get_mul, vg]
      rw [h' "xh" (by rw [DA.dimNames, hd]; simp)]
  have hM : (calcMasso D.rrho D.rvol "time").get e = fin (4 * linRho 10 34) := by
    refine hmass _ _ (fun e' _ => ?_) ?_
    · rw [D.rho_eq, DA.get_zip3, tg, sg]
      exact (congrFun (congrFun (congrFun ef _) _) _).trans (linear_float _ _ _)
    · rw [D.rho_eq]
      show (DA.bdims (DA.bdims (DA.bdims D.rth.dims D.rso.dims) pres'.dims) D.rvol.dims).filter _ = _
      rw [td, sd, hp, vd]; rfl
  have hm : (calcMasso rho vol "time").get e = fin (4 * linRho 10 35) := by
    rw [e1]
    refine hmass _ _ (fun e' he' => ?_) ?_
    · rw [hrho, DA.get_zip3, eth, eso, tg, show exS.get e' = fin 35 by
        simp [exS, he', he]; norm_num]
      exact (congrFun (congrFun (congrFun ef _) _) _).trans (linear_float _ _ _)
    · rw [hrho, eth, eso]
      show (DA.bdims (DA.bdims (DA.bdims D.rth.dims exDims) pres'.dims) D.rvol.dims).filter _ = _
      rw [td, hp, vd]; rfl
  have hga : rhoga.get e = fin (linRho 10 34) := by
    rw [e3, DA.get_div, hM, hvolo, fin_div_of_ne _ (by norm_num)]
    congr 1
    ring
  have hAr : area.sumAll.get e = fin 361110920000000 := by
    rw [e4, hA, DA.get_sumAll (by simp [exA, DA.dimNames]) (fun _ _ _ => rfl) (fun e _ => by simp [exA, FN])]
    simp only [exA, Spec.sumOver, val0_fin, Finset.sum_const, Finset.card_range]
    norm_num
  obtain ⟨-, v, k1, -, -, -, k2⟩ := h10 e 4 361110920000000 (linRho 10 34) (4 * linRho 10 35)
    (by rw [e2]; exact hvolo) hAr hga hm (by norm_num) (by norm_num) (by unfold linRho; norm_num)
    (by unfold linRho; norm_num)
  exact ⟨v, k1, k2.2 (by unfold linRho; norm_num)⟩

end

end Momlevel.Props
