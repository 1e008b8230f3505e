import Verif.Lemmas.Pick
import Verif.Lemmas.Align
import Verif.Props.StericSuccess

/-! # C94: local steric results of a part of the domain -/

set_option linter.unusedSectionVars false

namespace Momlevel.Props
open Momlevel Momlevel.Fl Momlevel.Eos Momlevel.Spec

variable {x : String} {idx : List Nat} {d r ref : DS (Fl ℝ)} {cn : DictArg} {rhozero : Fl ℝ}
  {patm : DA (Fl ℝ)} {eos variant domain : String} {strict : Bool} {tc zc zb : String}

theorem pick_WF {V : Type} {a : DA V} (h : a.WF) : (pick x idx a).WF := by
  intro e e' he
  refine h _ _ (fun d hd => ?_)
  by_cases hx : d = x
  · subst hx
    rw [Function.update_self, Function.update_self, he d (by rw [pick_dimNames]; exact hd)]
  · rw [Function.update_of_ne hx, Function.update_of_ne hx, he d (by rw [pick_dimNames]; exact hd)]

theorem pick_all {V : Type} {a : DA V} (hw : a.WF) (hn : a.dimNames.Nodup)
    (hi : ∀ i ∈ idx, ∀ q ∈ a.dims, q.1 = x → i < q.2) {p : V → Bool} (h : a.all p = true) :
    (pick x idx a).all p = true := by
  rw [DA.all_iff (pick_WF hw) (by rw [pick_dimNames]; exact hn)]
  rw [DA.all_iff hw hn] at h
  intro e he
  refine h _ (fun q hq => ?_)
  have h1 := he (pickDim x idx.length q) (by rw [pick_dims]; exact List.mem_map_of_mem hq)
  rw [pickDim_fst] at h1
  by_cases hx : q.1 = x
  · rw [hx, Function.update_self]
    have h2 : e x < idx.length := by
      have : (pickDim x idx.length q).2 = idx.length := by unfold pickDim; rw [if_pos hx]
      rw [this, hx] at h1
      exact h1
    rw [show idx.getD (e x) 0 = idx[e x] by simp [List.getD_eq_getElem?_getD, h2]]
    exact hi _ (List.getElem_mem _) q hq hx
  · rw [Function.update_of_ne hx]
    rw [pickDim_of_ne hx] at h1
    exact h1

theorem pick_calcDz {z zi depth dz : DA (Fl ℝ)} (hz : z.WF) (hzi : zi.WF) (hzx : x ∉ z.dimNames)
    (hzix : x ∉ zi.dimNames) (hw : depth.WF) (hn : depth.dimNames.Nodup)
    (hi : ∀ i ∈ idx, ∀ q ∈ depth.dims, q.1 = x → i < q.2) (h : calcDz z zi depth = .ok dz) :
    calcDz (pick x idx z) (pick x idx zi) (pick x idx depth) = .ok (pick x idx dz) := by
  rw [pick_of_not hz hzx, pick_of_not hzi hzix]
  unfold calcDz at h ⊢
  rw [pick_map]
  simp only [bind_ok] at h
  obtain ⟨_, h1, _, h2, _, h3, h4⟩ := h
  have h1' : (depth.map (Fl.fillna (.fin 0))).all (fun d => Fl.le (.fin 0) d) = true := by
    unfold pyAssert at h1
    split at h1
    · assumption
    · cases h1
  have h1'' := pick_all (x := x) (idx := idx) (DA.WF_map hw _) (by exact hn) (by exact hi) h1'
  rw [h1'', h2, h3, ok_bind]
  have h0 : pyAssert true = .ok () := rfl
  rw [h0, ok_bind, ok_bind]
  split at h4
  · rename_i zn n zin m e1 e2
    simp only [] at h4 ⊢
    split at h4
    · cases h4
    · rename_i hmn
      rw [if_neg hmn]
      simp only [Bool.false_eq_true, if_false] at h4 ⊢
      rw [← Except.ok.inj h4]
      congr 1
      have hxz : zn ≠ x := by
        intro h; apply hzx; unfold DA.dimNames; rw [e1]; simp [h]
      have hxi : zin ≠ x := by
        intro h; apply hzix; unfold DA.dimNames; rw [e2]; simp [h]
      have hsing : [(zn, n)] = [(zn, n)].map (pickDim x idx.length) := by
        rw [List.map_singleton, pickDim_of_ne hxz]
      have hb1 : DA.bdims (limitDepth (pick x idx depth) none).dims [(zn, n)]
          = (DA.bdims (limitDepth depth none).dims [(zn, n)]).map (pickDim x idx.length) := by
        conv_lhs => rw [hsing]
        exact bdims_pickDim _ _ _
      have hb2 : DA.bdims [(zn, n)] (limitDepth (pick x idx depth) none).dims
          = (DA.bdims [(zn, n)] (limitDepth depth none).dims).map (pickDim x idx.length) := by
        conv_lhs => rw [hsing]
        exact bdims_pickDim _ _ _
      have ht : (⟨DA.bdims (limitDepth (pick x idx depth) none).dims [(zn, n)],
            fun e => zi.get (Function.update e zin (e zn))⟩ : DA (Fl ℝ))
          = pick x idx ⟨DA.bdims (limitDepth depth none).dims [(zn, n)],
            fun e => zi.get (Function.update e zin (e zn))⟩ := by
        rw [hb1]
        show DA.mk _ _ = DA.mk _ _
        congr 1
        funext e
        refine hzi _ _ (fun y hy => ?_)
        have : y = zin := by unfold DA.dimNames at hy; rw [e2] at hy; simpa using hy
        rw [this, Function.update_self, Function.update_self, Function.update_of_ne hxz]
      have hbt : (⟨DA.bdims (limitDepth (pick x idx depth) none).dims [(zn, n)],
            fun e => zi.get (Function.update e zin (e zn + 1))⟩ : DA (Fl ℝ))
          = pick x idx ⟨DA.bdims (limitDepth depth none).dims [(zn, n)],
            fun e => zi.get (Function.update e zin (e zn + 1))⟩ := by
        rw [hb1]
        show DA.mk _ _ = DA.mk _ _
        congr 1
        funext e
        refine hzi _ _ (fun y hy => ?_)
        have : y = zin := by unfold DA.dimNames at hy; rw [e2] at hy; simpa using hy
        rw [this, Function.update_self, Function.update_self, Function.update_of_ne hxz]
      have hdp : (⟨DA.bdims [(zn, n)] (limitDepth (pick x idx depth) none).dims,
            (limitDepth (pick x idx depth) none).get⟩ : DA (Fl ℝ))
          = pick x idx ⟨DA.bdims [(zn, n)] (limitDepth depth none).dims, (limitDepth depth none).get⟩ := by
        rw [hb2]
        rfl
      rw [ht, hbt, hdp, ← pick_scalar (x := x) (idx := idx) (fin 0 : Fl ℝ), pick_sub, pick_sub, pick_sub,
        pick_map, pick_map, pick_zip, pick_zip, pick_scalar]
  · cases h4

theorem pick_pressure {pres : DA (Fl ℝ)} (hzx : zc ≠ x) (h : pressureField d zc patm = .ok pres) :
    pressureField (pickDS x idx d) zc (pick x idx patm) = .ok (pick x idx pres) := by
  simp only [pressureField, bind_ok, pure_ok] at h ⊢
  obtain ⟨z, h1, h2⟩ := h
  refine ⟨_, pickDS_getItem hzx h1, ?_⟩
  rw [← h2, ← pick_scalar (x := x) (idx := idx) (1.0e4 : Fl ℝ), pick_mul, pick_add]
  rfl

theorem pick_calcRho {th so pres rho : DA (Fl ℝ)} (h : calcRho th so pres eos = .ok rho)
    (h1 : (x, 1) ∈ pres.dims → idx.length = 1) :
    calcRho (pick x idx th) (pick x idx so) (pick x idx pres) eos = .ok (pick x idx rho) := by
  simp only [calcRho, applyEos, bind_ok] at h ⊢
  obtain ⟨f, h2, h3⟩ := h
  refine ⟨f, h2, ?_⟩
  split at h3
  · cases h3
  · rename_i hl
    rw [if_neg, pick_zip3, ← Except.ok.inj h3]
    · rfl
    · rintro ⟨hl1, hl2⟩
      refine hl ⟨hl1, ?_⟩
      obtain ⟨p, hp, hp2⟩ := List.any_eq_true.1 hl2
      rw [pick_dims] at hp
      obtain ⟨q, hq, rfl⟩ := List.mem_map.1 hp
      refine List.any_eq_true.2 ⟨q, hq, ?_⟩
      rw [pick_dimNames, pick_dimNames, pickDim_fst] at hp2
      have e1 : (pick x idx th).dims.isEmpty = th.dims.isEmpty := by rw [pick_dims, List.isEmpty_map]
      have e2 : (pick x idx so).dims.isEmpty = so.dims.isEmpty := by rw [pick_dims, List.isEmpty_map]
      rw [e1, e2] at hp2
      by_cases hx : q.1 = x
      · by_cases hq1 : q.2 = 1
        · have : idx.length = 1 := h1 (by rw [← hx, ← hq1]; exact hq)
          have : (pickDim x idx.length q).2 = q.2 := by
            unfold pickDim; rw [if_pos hx, hq1, this]
          rwa [this] at hp2
        · have : (q.2 != 1) = true := by simpa using hq1
          simp only [Bool.and_eq_true] at hp2 ⊢
          exact ⟨hp2.1, by rw [this]; rfl⟩
      · rwa [pickDim_of_ne hx] at hp2

theorem pick_fields {th so : DA (Fl ℝ)} (h : stericFields d ref variant = .ok (th, so)) :
    stericFields (pickDS x idx d) (pickDS x idx ref) variant = .ok (pick x idx th, pick x idx so) := by
  unfold stericFields
  rcases stericFields_ok h with ⟨hv, a, b⟩ | ⟨hv, a, b⟩ | ⟨hv, a, b⟩ <;>
    subst hv <;> simp only [pickDS_getVar a, pickDS_getVar b, ok_bind] <;> rfl

/-- A dataset whose variables depend on their own dimensions only and name no dimension twice (true of every
xarray dataset). -/
def Sound (d : DS (Fl ℝ)) : Prop := ∀ p ∈ d.vars, p.2.WF ∧ p.2.dimNames.Nodup

theorem Sound.getVar (hs : Sound d) {n : String} {a : DA (Fl ℝ)} (h : d.getVar n = .ok a) :
    a.WF ∧ a.dimNames.Nodup := by
  rw [getVar_lookup] at h
  exact hs _ (lookup_mem' h)

theorem Sound.getItem (hs : Sound d) {n : String} {a : DA (Fl ℝ)} (h : d.getItem n = .ok a) : a.WF := by
  unfold DS.getItem at h
  split at h
  · rename_i b hb
    cases h
    exact (hs _ (lookup_mem' hb)).1
  · split at h
    · cases h
      intro e e' he
      show fin _ = fin _
      rw [he n (by simp [DA.dimNames])]
    · cases h

theorem pick_local {rho : DA (Fl ℝ)} (hs : Sound d) (hz : zc ≠ x) (hb : zb ≠ x)
    (hi : ∀ a, d.getVar "deptho" = .ok a → ∀ i ∈ idx, ∀ q ∈ a.dims, q.1 = x → i < q.2)
    (hzx : ∀ a, d.getItem zc = .ok a → x ∉ a.dimNames)
    (hbx : ∀ a, d.getItem zb = .ok a → x ∉ a.dimNames)
    (h : stericLocal d ref rho tc zc zb rhozero variant = .ok r) :
    stericLocal (pickDS x idx d) (pickDS x idx ref) (pick x idx rho) tc zc zb rhozero variant
      = .ok (pickDS x idx r) := by
  simp only [stericLocal, bind_ok, pure_ok] at h ⊢
  obtain ⟨rvol, h1, rrho, h2, dr, h3, z, h4, zi, h5, depth, h6, dz, h7, _, halone, coef, h8, tot, h9, sl, h10,
    top, h11, rfl⟩ := h
  refine ⟨_, pickDS_getVar h1, _, pickDS_getVar h2, pick x idx dr, ?_, _, pickDS_getItem hz h4, _,
    pickDS_getItem hb h5, _, pickDS_getVar h6, _, pick_calcDz (hs.getItem h4) (hs.getItem h5) (hzx _ h4)
      (hbx _ h5) (hs.getVar h6).1 (hs.getVar h6).2 (hi _ h6) h7, _, levelsAlone_pick halone, coef, h8,
    pick x idx tot, ?_, pick x idx sl, ?_, pick x idx top, pick_iselE hz h11, ?_⟩
  · rw [pick_sub, pick_zip]; exact pick_transposeE h3
  · rw [pick_mul]; exact pick_sumDimE hz h9
  · rw [pick_map]; exact pick_transposeE h10
  · rw [pick_zip]; rfl

/-- Local requests may be made for a part of the domain, or of the time axis, with the same part of the reference:
the result is that part of the whole result.  `x` is any dimension but the vertical ones; the positions `idx` may
come in any order and repeat. -/
theorem C94_tile (h : steric d (.dataset ref) cn none rhozero patm eos variant domain strict = .ok (r, ref))
    (hd : domain ≠ "global") (hc : defaultCoords cn = .ok (tc, zc, zb)) (hs : Sound d)
    (hz : zc ≠ x) (hb : zb ≠ x)
    (hzx : ∀ a, d.getItem zc = .ok a → x ∉ a.dimNames) (hbx : ∀ a, d.getItem zb = .ok a → x ∉ a.dimNames)
    (hi : ∀ a, d.getVar "deptho" = .ok a → ∀ i ∈ idx, ∀ q ∈ a.dims, q.1 = x → i < q.2)
    (hp : (x, 1) ∈ patm.dims → idx.length = 1) :
    steric (pickDS x idx d) (.dataset (pickDS x idx ref)) cn none rhozero (pick x idx patm) eos variant domain
      false = .ok (pickDS x idx r, pickDS x idx ref) := by
  obtain ⟨dd, tc', zc', zb', pres, th, so, rho, h1, h2, h3, h4, h5, h6, h7, h8, h9⟩ := steric_ok_iff.1 h
  rw [hc] at h2
  cases h2
  cases h1
  simp only [stericResult, if_neg hd] at h9
  refine steric_ok_iff.2 ⟨pickDS x idx d, tc, zc, zb, _, _, _, _, rfl, hc, validate_pick h3, pick_pressure hz h4, rfl,
    validate_pick h6, pick_fields h7, pick_calcRho h8 ?_, ?_⟩
  · intro hx
    simp only [pressureField, bind_ok, pure_ok] at h4
    obtain ⟨z, hz1, hz2⟩ := h4
    rw [← hz2] at hx
    rcases DA.mem_bdims hx with hx | hx
    · rcases DA.mem_bdims hx with hx | hx
      · exact absurd (List.mem_map_of_mem hx) (hzx z hz1)
      · simp at hx
    · exact hp hx
  · simp only [stericResult, if_neg hd]
    exact pick_local hs hz hb hi hzx hbx h9

theorem squeeze_id {V : Type} {a : DA V} (h : ∀ p ∈ a.dims, p.2 ≠ 1) : a.squeeze = a := by
  cases a with
  | mk dims get =>
    show DA.mk _ _ = _
    congr 1
    · exact List.filter_eq_self.2 (fun p hp => by simpa using h p hp)
    · funext e
      have : ∀ y, ¬ (y, 1) ∈ dims := fun y hy => h _ hy rfl
      simp only [this, if_false]

theorem pick_refSlice {n : String} {a b : DA (Fl ℝ)} (ht : tc ≠ x) (h1 : x ∈ a.dimNames → idx.length ≠ 1)
    (ha : d.getVar n = .ok a) (h4 : a.dims.length = 4) (hb : refSlice d n tc 0 = .ok b) (h3 : b.dims.length = 3) :
    refSlice (pickDS x idx d) n tc 0 = .ok (pick x idx b) := by
  obtain ⟨-, k2, k3, -⟩ := refSlice_ok ha h4 hb h3
  simp only [refSlice, bind_ok, pure_ok] at hb ⊢
  obtain ⟨a', e1, c, e2, e3⟩ := hb
  rw [ha] at e1
  cases e1
  refine ⟨_, pickDS_getVar ha, _, pick_iselE ht e2, ?_⟩
  obtain ⟨-, rfl⟩ := iselE_ok e2
  have hne : ∀ p ∈ (a.isel tc 0).dims, p.2 ≠ 1 := by
    intro p hp
    refine k3 p ?_
    rw [k2]
    exact hp
  rw [squeeze_id hne] at e3
  rw [squeeze_id, e3]
  intro p hp
  rw [pick_dims] at hp
  obtain ⟨q, hq, rfl⟩ := List.mem_map.1 hp
  unfold pickDim
  split
  · rename_i hx
    exact h1 (hx ▸ List.mem_map_of_mem (List.mem_filter.1 hq).1)
  · exact hne q hq

theorem calcMasso_pick_rank (rho vol : DA (Fl ℝ)) :
    (calcMasso (pick x idx rho) (pick x idx vol) tc).dims.length = (calcMasso rho vol tc).dims.length := by
  unfold calcMasso DA.sumDims
  simp only [pick_mul, pick_dimNames, pick_dims]
  rw [filter_map_pickDim _ _ (fun s => !((rho * vol).dimNames.filter (fun y => y != tc)).contains s),
    List.length_map]

/-- Without a supplied reference the same is true of parts along any dimension other than the time and vertical
ones, unless a single position is taken. -/
theorem C94_tile_own (h : steric d .none cn none rhozero patm eos variant domain strict = .ok (r, ref))
    (hd : domain ≠ "global") (hc : defaultCoords cn = .ok (tc, zc, zb)) (hs : Sound d)
    (ht : tc ≠ x) (hz : zc ≠ x) (hb : zb ≠ x) (h1 : idx.length ≠ 1)
    (hzx : ∀ a, d.getItem zc = .ok a → x ∉ a.dimNames) (hbx : ∀ a, d.getItem zb = .ok a → x ∉ a.dimNames)
    (hi : ∀ a, d.getVar "deptho" = .ok a → ∀ i ∈ idx, ∀ q ∈ a.dims, q.1 = x → i < q.2)
    (hp : (x, 1) ∉ patm.dims) :
    ∃ ref', steric (pickDS x idx d) .none cn none rhozero (pick x idx patm) eos variant domain false
        = .ok (pickDS x idx r, ref') ∧
      ∀ n ∈ ["thetao", "so", "volcello", "rho", "areacello"], ref'.getVar n = (pickDS x idx ref).getVar n := by
  obtain ⟨dd, tc', zc', zb', pres, th, so, rho, e1, e2, e3, e4, e5, e6, e7, e8, e9⟩ := steric_ok_iff.1 h
  rw [hc] at e2
  cases e2
  cases e1
  simp only [stericResult, if_neg hd] at e9
  have hpx : (x, 1) ∈ pres.dims → idx.length = 1 := by
    intro hx
    simp only [pressureField, bind_ok, pure_ok] at e4
    obtain ⟨z, hz1, hz2⟩ := e4
    rw [← hz2] at hx
    rcases DA.mem_bdims hx with hx | hx
    · rcases DA.mem_bdims hx with hx | hx
      · exact absurd (List.mem_map_of_mem hx) (hzx z hz1)
      · simp at hx
    · exact absurd hx hp
  have v1 := (C34_iff d false strict _).1.1 e3
  have v2 := (C34_iff ref true strict .none).1.1 e6
  obtain ⟨a3, a2, -, -, -, -⟩ := v1
  obtain ⟨b3, b2, b4, b5, -, b6⟩ := v2
  obtain ⟨dth, hth, th4⟩ := rankOf_getVar (a3 "thetao" (by simp))
  obtain ⟨dso, hso, so4⟩ := rankOf_getVar (a3 "so" (by simp))
  obtain ⟨dvol, hvol, vol4⟩ := rankOf_getVar (a3 "volcello" (by simp))
  have e5' := e5
  simp only [chooseReference, setupReferenceState, hc, ok_bind, e4, bind_ok, pure_ok] at e5'
  obtain ⟨rth, g1, rso, g2, rvol, g3, rrho, g4, volo, g5, area, g6, g7⟩ := e5'
  subst g7
  have r1 := b3 "thetao" (by simp)
  have r2 := b3 "so" (by simp)
  have r3 := b3 "volcello" (by simp)
  have n1 := pick_refSlice ht (fun _ => h1) hth th4 g1 (by simpa [rankOf] using r1)
  have n2 := pick_refSlice ht (fun _ => h1) hso so4 g2 (by simpa [rankOf, List.lookup_cons] using r2)
  have n3 := pick_refSlice ht (fun _ => h1) hvol vol4 g3 (by simpa [rankOf, List.lookup_cons] using r3)
  have n4 := pick_calcRho (x := x) (idx := idx) g4 hpx
  have n5 : ∃ volo', calcVolo (pick x idx rvol) = .ok volo' ∧ volo'.dims = [] := by
    have : (pick x idx rvol).ndim = rvol.ndim := by unfold DA.ndim; rw [pick_dims, List.length_map]
    unfold calcVolo at g5 ⊢
    rw [this]
    simp only [bind_ok, pure_ok] at g5 ⊢
    obtain ⟨u, hu, hv⟩ := g5
    exact ⟨_, ⟨u, hu, rfl⟩, rfl⟩
  obtain ⟨volo', n5, n5d⟩ := n5
  have hvd : volo.dims = [] := by
    unfold calcVolo at g5
    simp only [bind_ok, pure_ok] at g5
    obtain ⟨u, hu, hv⟩ := g5
    rw [← hv]; rfl
  have n6 : (pickDS x idx d).getAttr "areacello" = .ok (pick x idx area) := by
    unfold DS.getAttr at g6 ⊢
    rw [pickDS_lookup]
    cases hl : d.vars.lookup "areacello" with
    | none => rw [hl] at g6; cases g6
    | some b => rw [hl] at g6; cases g6; rfl
  have p4 := pick_pressure (x := x) (idx := idx) hz e4
  have hset : chooseReference (pickDS x idx d) .none (pick x idx patm) eos cn = .ok
      ⟨[("thetao", pick x idx rth), ("so", pick x idx rso), ("volcello", pick x idx rvol),
        ("rho", pick x idx rrho), ("volo", volo'), ("masso", calcMasso (pick x idx rrho) (pick x idx rvol) tc),
        ("rhoga", calcMasso (pick x idx rrho) (pick x idx rvol) tc / volo'), ("areacello", pick x idx area)], []⟩ := by
    simp only [chooseReference, setupReferenceState, hc, ok_bind, p4, n1, n2, n3, n4, n5, n6]
    rfl
  refine ⟨_, steric_ok_iff.2 ⟨pickDS x idx d, tc, zc, zb, _, pick x idx th, pick x idx so, _, rfl, hc,
    validate_pick e3, p4, hset, ?_, ?_, pick_calcRho e8 hpx, ?_⟩, ?_⟩
  · refine (C34_iff _ true false .none).1.2 ⟨?_, ?_, ?_, ?_, ?_, ?_⟩
    · intro v hv
      simp only [List.mem_cons, List.not_mem_nil, or_false] at hv
      rcases hv with rfl | rfl | rfl
      · simpa [rankOf, List.lookup_cons, pick_dims] using r1
      · simpa [rankOf, List.lookup_cons, pick_dims] using r2
      · simpa [rankOf, List.lookup_cons, pick_dims] using r3
    · simpa [rankOf, List.lookup_cons, pick_dims] using b2
    · intro r hr
      simp [rankOf, List.lookup_cons] at hr
    · simp [extraVars]
    · intro h; cases h
    · intro _
      obtain ⟨c1, c2⟩ := b6 rfl
      refine ⟨by simpa [rankOf, List.lookup_cons, pick_dims] using c1, fun v hv => ?_⟩
      have m1 := c2 "masso" (by simp)
      have m2 : (calcMasso rrho rvol tc).dims.length = 0 := by
        simpa [rankOf, List.lookup_cons] using m1
      have m3 : (calcMasso (pick x idx rrho) (pick x idx rvol) tc).dims.length = 0 := by
        rw [calcMasso_pick_rank, m2]
      have m4 : (calcMasso (pick x idx rrho) (pick x idx rvol) tc).dims = [] := List.length_eq_zero_iff.1 m3
      simp only [List.mem_cons, List.not_mem_nil, or_false] at hv
      rcases hv with rfl | rfl | rfl
      · simp [rankOf, List.lookup_cons, m4]
      · simp [rankOf, List.lookup_cons, n5d]
      · simp [rankOf, List.lookup_cons, m4, n5d, DA.dims_div, DA.bdims]
  · have := pick_fields (x := x) (idx := idx) e7
    rw [← this]
    rfl
  · simp only [stericResult, if_neg hd]
    rw [← pick_local hs hz hb hi hzx hbx e9]
    rfl
  · intro n hn
    simp only [List.mem_cons, List.not_mem_nil, or_false] at hn
    rcases hn with rfl | rfl | rfl | rfl | rfl <;> rfl

/-- A single position never works without a supplied reference, if the cell volumes have the dimension. -/
theorem C94_single {i : Nat} (hc : defaultCoords cn = .ok (tc, zc, zb)) (ht : tc ≠ x) {vol : DA (Fl ℝ)}
    (hv : d.getVar "volcello" = .ok vol) (hx : x ∈ vol.dimNames) (y : DS (Fl ℝ) × DS (Fl ℝ)) :
    steric (pickDS x [i] d) .none cn none rhozero patm eos variant domain strict ≠ .ok y := by
  obtain ⟨r, ref⟩ := y
  intro h
  obtain ⟨dd, tc', zc', zb', pres, th, so, rho, e1, e2, e3, e4, e5, e6, e7, e8, e9⟩ := steric_ok_iff.1 h
  cases e1
  obtain ⟨a3, -⟩ := (C34_iff _ false strict _).1.1 e3
  have h4 := a3 "volcello" (by simp)
  have hv' := pickDS_getVar (x := x) (idx := [i]) hv
  rw [rankOf_of_getVar hv'] at h4
  obtain ⟨err, he⟩ := C31_singleton (d := pickDS x [i] d) (patm := patm) (eos := eos) (i := 0) hc hv'
    (by simpa using h4) (x := x) (by
      rw [pick_dims]
      obtain ⟨p, hp, hpx⟩ := List.mem_map.1 hx
      exact List.mem_map.2 ⟨p, hp, by unfold pickDim; rw [if_pos hpx]; rfl⟩) ht.symm
  have e5 : setupReferenceState (pickDS x [i] d) patm eos cn = .ok ref := e5
  rw [he] at e5
  cases e5

theorem exSound : Sound exD := by
  have hw : ∀ (l : List (String × Nat)) (g : Env → Fl ℝ), (∀ e e' : Env, (∀ d ∈ l.map Prod.fst, e d = e' d) →
      g e = g e') → (⟨l, g⟩ : DA (Fl ℝ)).WF := fun _ _ h => h
  intro p hp
  simp only [exD, List.mem_cons, List.not_mem_nil, or_false] at hp
  rcases hp with rfl | rfl | rfl | rfl | rfl | rfl | rfl <;> refine ⟨hw _ _ (fun e e' h => ?_), by decide⟩
  · simp only [h "time" (by decide)]
  · simp only [h "time" (by decide)]
  · simp only [h "xh" (by decide)]
  · rfl
  · simp only [h "xh" (by decide)]
  · simp only [h "z_l" (by decide)]
  · simp only [h "z_i" (by decide)]

/-- The example ocean with its two columns `xh` exchanged: the local result has them exchanged, with or without
its reference; one column alone is refused. -/
example (variant eos : String) (hv : variant ∈ ["thermosteric", "halosteric", "steric"])
    (he : CaseVariant eos "wright" ∨ CaseVariant eos "linear") :
    ∃ r ref, steric exD .none .none none (fin 1035) (DA.scalar (fin 101325)) eos variant "local" true
        = .ok (r, ref) ∧
      (∃ ref', steric (pickDS "xh" [1, 0] exD) .none .none none (fin 1035) (DA.scalar (fin 101325)) eos variant
        "local" false = .ok (pickDS "xh" [1, 0] r, ref')) ∧
      steric (pickDS "xh" [0] exD) (.dataset (pickDS "xh" [0] ref)) .none none (fin 1035)
        (DA.scalar (fin 101325)) eos variant "local" false = .ok (pickDS "xh" [0] r, pickDS "xh" [0] ref) ∧
      ∀ y, steric (pickDS "xh" [0] exD) .none .none none (fin 1035) (DA.scalar (fin 101325)) eos variant
        "local" false ≠ .ok y := by
  obtain ⟨⟨r, ref⟩, h⟩ := exRun variant "local" eos hv he
  have hzx : ∀ a, exD.getItem "z_l" = .ok a → "xh" ∉ a.dimNames := by
    intro a ha; cases ha; decide
  have hbx : ∀ a, exD.getItem "z_i" = .ok a → "xh" ∉ a.dimNames := by
    intro a ha; cases ha; decide
  have hi : ∀ idx : List Nat, (∀ i ∈ idx, i < 2) → ∀ a, exD.getVar "deptho" = .ok a → ∀ i ∈ idx, ∀ q ∈ a.dims,
      q.1 = "xh" → i < q.2 := by
    intro idx hidx a ha i hi q hq hx
    cases ha
    simp only [exDepth, List.mem_cons, List.not_mem_nil, or_false] at hq
    rcases hq with rfl | rfl
    · exact absurd hx (by decide)
    · exact hidx i hi
  refine ⟨r, ref, h, ?_, ?_, ?_⟩
  · obtain ⟨ref', h1, -⟩ := C94_tile_own (x := "xh") (idx := [1, 0]) h (by decide) exC exSound (by decide)
      (by decide) (by decide) (by decide) hzx hbx (hi _ (by decide)) (by simp)
    exact ⟨ref', h1⟩
  · exact C94_tile (x := "xh") (idx := [0]) (C32_feedback h) (by decide) exC exSound (by decide) (by decide)
      hzx hbx (hi _ (by decide)) (by simp)
  · exact C94_single exC (by decide) (vol := exV) rfl (by decide)

end Momlevel.Props
