import Verif.Props.Tiles
import Verif.Props.Dz
import Verif.Model.XGrid
import Verif.Model.Coriolis
import Verif.Model.N2Interfaces
import Verif.Model.AdjustN2

/-! # C96: diagnostics of a part of the domain -/

set_option linter.unusedSectionVars false

namespace Momlevel.Props
open Momlevel Momlevel.Fl Momlevel.Eos Momlevel.Spec

variable {K : Type} [Field K] [LinearOrder K] {x : String} {idx : List Nat} {eos fn : String}

theorem pick_applyEos {th so pres r : DA (Fl K)} (h : applyEos eos fn th so pres = .ok r)
    (h1 : (x, 1) ∈ pres.dims → idx.length = 1) :
    applyEos eos fn (pick x idx th) (pick x idx so) (pick x idx pres) = .ok (pick x idx r) := by
  simp only [applyEos, bind_ok] at h ⊢
  obtain ⟨f, h2, h3⟩ := h
  refine ⟨f, h2, ?_⟩
  split at h3
  · cases h3
  · rename_i hl
    rw [if_neg, pick_zip3, ← Except.ok.inj h3]
    · rfl
    · rintro ⟨hl1, hl2⟩
      refine hl ⟨hl1, ?_⟩
      obtain ⟨p, hp, hp2⟩ := List.any_eq_true.1 hl2
      rw [pick_dims] at hp
      obtain ⟨q, hq, rfl⟩ := List.mem_map.1 hp
      refine List.any_eq_true.2 ⟨q, hq, ?_⟩
      rw [pick_dimNames, pick_dimNames, pickDim_fst] at hp2
      have e1 : (pick x idx th).dims.isEmpty = th.dims.isEmpty := by rw [pick_dims, List.isEmpty_map]
      have e2 : (pick x idx so).dims.isEmpty = so.dims.isEmpty := by rw [pick_dims, List.isEmpty_map]
      rw [e1, e2] at hp2
      by_cases hx : q.1 = x
      · by_cases hq1 : q.2 = 1
        · have : idx.length = 1 := h1 (by rw [← hx, ← hq1]; exact hq)
          have : (pickDim x idx.length q).2 = q.2 := by
            unfold pickDim; rw [if_pos hx, hq1, this]
          rwa [this] at hp2
        · have : (q.2 != 1) = true := by simpa using hq1
          simp only [Bool.and_eq_true] at hp2 ⊢
          exact ⟨hp2.1, by rw [this]; rfl⟩
      · rwa [pickDim_of_ne hx] at hp2

/-- Density and the expansion coefficients of a part of the domain are that part of the whole. -/
theorem C96_eos {th so pres : DA (Fl K)} (h1 : (x, 1) ∈ pres.dims → idx.length = 1) :
    (∀ r, calcRho th so pres eos = .ok r →
      calcRho (pick x idx th) (pick x idx so) (pick x idx pres) eos = .ok (pick x idx r)) ∧
    (∀ r, calcAlpha th so pres eos = .ok r →
      calcAlpha (pick x idx th) (pick x idx so) (pick x idx pres) eos = .ok (pick x idx r)) ∧
    (∀ r, calcBeta th so pres eos = .ok r →
      calcBeta (pick x idx th) (pick x idx so) (pick x idx pres) eos = .ok (pick x idx r)) :=
  ⟨fun _ h => pick_applyEos h h1, fun _ h => pick_applyEos h h1, fun _ h => pick_applyEos h h1⟩

/-- Potential density. -/
theorem C96_pdens {th so patm r : DA (Fl K)} {level : Fl K} (h1 : (x, 1) ∈ patm.dims → idx.length = 1)
    (h : calcPdens th so level patm eos = .ok r) :
    calcPdens (pick x idx th) (pick x idx so) level (pick x idx patm) eos = .ok (pick x idx r) := by
  simp only [calcPdens, bind_ok] at h ⊢
  obtain ⟨u, hu, h⟩ := h
  refine ⟨u, hu, ?_⟩
  rw [← pick_scalar (x := x) (idx := idx) (level * (1.0e4 : Fl K)), pick_add]
  refine pick_applyEos h (fun hx => h1 ?_)
  rcases DA.mem_bdims hx with hx | hx
  · simp at hx
  · exact hx

/-- The inverse barometer effect. -/
theorem C96_barometer {tos sos pso r : DA (Fl K)} {g : Fl K} (h1 : (x, 1) ∈ pso.dims → idx.length = 1)
    (h : inverseBarometer tos sos pso g eos = .ok r) :
    inverseBarometer (pick x idx tos) (pick x idx sos) (pick x idx pso) g eos = .ok (pick x idx r) := by
  simp only [inverseBarometer, bind_ok, pure_ok] at h ⊢
  obtain ⟨rho, h2, h3⟩ := h
  refine ⟨_, pick_applyEos h2 h1, ?_⟩
  have hg : pick x idx rho * DA.scalar g = pick x idx (rho * DA.scalar g) := by
    rw [← pick_mul, pick_scalar]
  rw [← h3, hg, pick_map, pick_mul]

/-- The Coriolis parameter and the Rossby radius. -/
theorem C96_rotation :
    (∀ lat : DA (Fl ℝ), calcCoriolis (pick x idx lat) = pick x idx (calcCoriolis lat)) ∧
    (∀ c f : DA (Fl K), calcRossbyRd (pick x idx c) (pick x idx f) = pick x idx (calcRossbyRd c f)) :=
  ⟨fun _ => rfl, fun c f => pick_div c (f.map Fl.abs)⟩

theorem pick_differentiate {a r : DA (Fl K)} {zc : String} {z : Nat → Fl K} (hz : zc ≠ x)
    (h : differentiate a zc z = .ok r) : differentiate (pick x idx a) zc z = .ok (pick x idx r) := by
  unfold differentiate at h ⊢
  rw [pick_dimNames, pick_size a hz]
  split at h
  · rename_i hm
    rw [if_pos hm]
    split at h
    · cases h
    · rename_i hn
      rw [if_neg hn, ← Except.ok.inj h]
      congr 1
      show DA.mk _ _ = DA.mk _ _
      congr 1
      funext e
      simp only [Function.update_of_ne hz]
      congr 1
      funext k
      show a.get _ = a.get _
      rw [Function.update_of_ne hz.symm, Function.update_comm hz]
  · cases h

theorem pick_coordArray {a r : DA (Fl K)} {zc : String} {z : Nat → Fl K} (hz : zc ≠ x)
    (h : coordArray a zc z = .ok r) : coordArray (pick x idx a) zc z = .ok (pick x idx r) := by
  unfold coordArray at h ⊢
  rw [pick_dimNames, pick_size a hz]
  split at h
  · rename_i hm
    rw [if_pos hm, ← Except.ok.inj h]
    congr 1
    show DA.mk _ _ = DA.mk _ _
    congr 1
    · exact (map_pickDim_of_not (by simpa using hz.symm)).symm
    · funext e
      simp only [Function.update_of_ne hz]
  · cases h

/-- The stability angle. -/
theorem C96_stability {th so pres r : DA (Fl ℝ)} {z : Nat → Fl ℝ} {zc : String} (hz : zc ≠ x)
    (h1 : (x, 1) ∈ pres.dims → idx.length = 1) (h : calcStabilityAngle th so pres z eos zc = .ok r) :
    calcStabilityAngle (pick x idx th) (pick x idx so) (pick x idx pres) z eos zc = .ok (pick x idx r) := by
  simp only [calcStabilityAngle, bind_ok, pure_ok] at h ⊢
  obtain ⟨al, e1, be, e2, dt, e3, ds, e4, e5⟩ := h
  refine ⟨_, pick_applyEos e1 h1, _, pick_applyEos e2 h1, _, pick_differentiate hz e3, _,
    pick_differentiate hz e4, ?_⟩
  rw [← e5, pick_mul, pick_mul, pick_div, pick_map]

theorem pick_fillFirst {a r : DA (Fl K)} {v : Fl K} {d : String} {n : Nat} {rest : List (String × Nat)}
    (hd : a.dims = (d, n) :: rest) (hx : d ≠ x) (h : fillFirst a v = .ok r) :
    fillFirst (pick x idx a) v = .ok (pick x idx r) := by
  unfold fillFirst at h ⊢
  have hd' : (pick x idx a).dims = (d, n) :: rest.map (pickDim x idx.length) := by
    rw [pick_dims, hd, List.map_cons, pickDim_of_ne hx]
  rw [hd'] 
  rw [hd] at h
  simp only [] at h ⊢
  split at h
  · cases h
  · rename_i hn
    rw [if_neg hn, ← Except.ok.inj h]
    congr 1
    show DA.mk _ _ = DA.mk _ _
    congr 1
    · show _ = List.map (pickDim x idx.length) _
      rw [List.map_cons, pickDim_of_ne hx]
    · funext e
      simp only [Function.update_of_ne hx]
      rfl

theorem pick_ffill {a r : DA (Fl K)} {zc : String} (hz : zc ≠ x) (h : ffill a zc = .ok r) :
    ffill (pick x idx a) zc = .ok (pick x idx r) := by
  unfold ffill at h ⊢
  rw [pick_dimNames]
  split at h
  · rename_i hm
    rw [if_pos hm, ← Except.ok.inj h]
    congr 1
    show DA.mk _ _ = DA.mk _ _
    congr 1
    funext e
    simp only [Function.update_of_ne hz]
    congr 1
    funext k
    show a.get _ = a.get _
    rw [Function.update_of_ne hz.symm, Function.update_comm hz]
  · cases h

/-- Adjusted buoyancy frequency: along any dimension other than the vertical and the first one. -/
theorem C96_adjust {n2 r : DA (Fl K)} {zc d : String} {n : Nat} {rest : List (String × Nat)}
    (hd : n2.dims = (d, n) :: rest) (hx : d ≠ x) (hz : zc ≠ x) (h : adjustNegativeN2 n2 zc = .ok r) :
    adjustNegativeN2 (pick x idx n2) zc = .ok (pick x idx r) := by
  simp only [adjustNegativeN2, bind_ok, pure_ok] at h ⊢
  obtain ⟨a, h1, b, h2, h3⟩ := h
  refine ⟨pick x idx a, ?_, pick x idx b, pick_ffill hz h2, ?_⟩
  · rw [pick_map]
    exact pick_fillFirst (by exact hd) hx h1
  · rw [← h3, pick_map, pick_mul]

/-- Along the first dimension it is not true: the second time step on its own is adjusted otherwise than as part
of the whole. -/
theorem C96_adjust_first_counterexample :
    ∃ n2 r r' : DA (Fl ℚ), n2.dims = [("time", 2), ("z_l", 2)] ∧ adjustNegativeN2 n2 = .ok r ∧
      adjustNegativeN2 (pick "time" [1] n2) = .ok r' ∧
      r.get (fun d => if d = "time" then 1 else 0) = nan ∧ r'.get (fun _ => 0) = fin (1 / 10 ^ 8) := by
  refine ⟨⟨[("time", 2), ("z_l", 2)], fun _ => fin (-1)⟩, _, _, rfl, rfl, rfl, ?_, ?_⟩
  · simp [ffillAt, Fl.sel, Fl.le, ofSci]
    norm_num
  · simp [ffillAt, Fl.sel, Fl.le, ofSci, pick, fillna]
    norm_num

/-- Buoyancy frequency without adjustment. -/
theorem C96_n2 {th so patm r : DA (Fl K)} {z : Nat → Fl K} {g : Fl K} {zc : String} (hz : zc ≠ x)
    (h1 : (x, 1) ∈ patm.dims → idx.length = 1) (h : calcN2 th so z eos g patm zc = .ok r) :
    calcN2 (pick x idx th) (pick x idx so) z eos g (pick x idx patm) zc = .ok (pick x idx r) := by
  simp only [calcN2, bind_ok, pure_ok, Bool.false_eq_true, if_false] at h ⊢
  obtain ⟨zz, e0, al, e1, be, e2, dt, e3, ds, e4, e5⟩ := h
  have hp : (x, 1) ∈ (zz * DA.scalar (1.0e4 : Fl K) + patm).dims → idx.length = 1 := by
    intro hx
    unfold coordArray at e0
    split at e0
    · cases e0
      rcases DA.mem_bdims hx with hx | hx
      · rcases DA.mem_bdims hx with hx | hx
        · simp only [List.mem_singleton, Prod.mk.injEq] at hx
          exact absurd hx.1.symm hz
        · simp at hx
      · exact h1 hx
    · cases e0
  have hq : pick x idx zz * DA.scalar (1.0e4 : Fl K) + pick x idx patm
      = pick x idx (zz * DA.scalar (1.0e4 : Fl K) + patm) := by
    rw [← pick_add, ← pick_mul, pick_scalar]
  refine ⟨_, pick_coordArray hz e0, pick x idx al, ?_, pick x idx be, ?_, _, pick_differentiate hz e3, _,
    pick_differentiate hz e4, ?_⟩
  · rw [hq]; exact pick_applyEos e1 hp
  · rw [hq]; exact pick_applyEos e2 hp
  · rw [← e5, pick_mul, pick_mul, pick_sub, pick_map]

/-- Wave speed: along any dimension other than the vertical and the first one of `n2`. -/
theorem C96_wave {n2 dz r : DA (Fl ℝ)} {zc d : String} {n : Nat} {rest : List (String × Nat)}
    (hd : n2.dims = (d, n) :: rest) (hx : d ≠ x) (hz : zc ≠ x) (hl : "z_l" ≠ x)
    (h : calcWaveSpeed n2 dz zc = .ok r) :
    calcWaveSpeed (pick x idx n2) (pick x idx dz) zc = .ok (pick x idx r) := by
  simp only [calcWaveSpeed, bind_ok] at h ⊢
  obtain ⟨adj, h1, h2⟩ := h
  refine ⟨_, C96_adjust hd hx hl h1, ?_⟩
  rw [pick_map, pick_mul, pick_dimNames]
  split at h2
  · cases h2
  · rename_i hm
    rw [if_neg hm]
    simp only [bind_ok, pure_ok] at h2 ⊢
    obtain ⟨top, h3, h4⟩ := h2
    refine ⟨pick x idx top, ?_, ?_⟩
    · unfold first at h3 ⊢
      have hd' : (pick x idx n2).dims = (d, n) :: rest.map (pickDim x idx.length) := by
        rw [pick_dims, hd, List.map_cons, pickDim_of_ne hx]
      rw [hd']
      rw [hd] at h3
      simp only [] at h3 ⊢
      split at h3
      · cases h3
      · rename_i hn
        rw [if_neg hn, pick_isel n2 hx, ← Except.ok.inj h3]
    · rw [← h4, pick_sumDim _ hz, pick_map, ← pick_zip3, ← pick_div, pick_scalar, pick_scalar]

/-- Cell heights, with any `top`, `bottom` and `fraction`: along a dimension of the depth. -/
theorem C96_dz {lev intf dep r : DA (Fl K)} {top : Fl K} {bottom : Option (Fl K)} {fraction : Bool}
    (hl : intf.WF) (hlx : x ∉ lev.dimNames) (hw : dep.WF) (hn : dep.dimNames.Nodup)
    (hi : ∀ i ∈ idx, ∀ q ∈ dep.dims, q.1 = x → i < q.2)
    (h : calcDz lev intf dep top bottom fraction = .ok r) :
    calcDz lev intf (pick x idx dep) top bottom fraction = .ok (pick x idx r) := by
  have hlim : limitDepth (pick x idx dep) bottom = pick x idx (limitDepth dep bottom) := by
    unfold limitDepth
    cases bottom <;> rfl
  unfold calcDz at h ⊢
  rw [pick_map]
  simp only [bind_ok] at h
  obtain ⟨_, h1, _, h2, _, h3, h4⟩ := h
  have h1' : (dep.map (Fl.fillna (.fin 0))).all (fun d => Fl.le (.fin 0) d) = true := by
    unfold pyAssert at h1
    split at h1
    · assumption
    · cases h1
  have h1'' := pick_all (x := x) (idx := idx) (DA.WF_map hw _) (by exact hn) (by exact hi) h1'
  rw [h1'', h2, h3, ok_bind]
  have h0 : pyAssert true = .ok () := rfl
  rw [h0, ok_bind, ok_bind, hlim]
  generalize limitDepth dep bottom = L at h4
  split at h4
  · rename_i zn n zin m e1 e2
    simp only [] at h4 ⊢
    split at h4
    · cases h4
    · rename_i hmn
      rw [if_neg hmn]
      have hxz : zn ≠ x := by
        intro h; apply hlx; unfold DA.dimNames; rw [e1]; simp [h]
      have hsing : [(zn, n)] = [(zn, n)].map (pickDim x idx.length) := by
        rw [List.map_singleton, pickDim_of_ne hxz]
      have hb1 : DA.bdims (pick x idx L).dims [(zn, n)]
          = (DA.bdims L.dims [(zn, n)]).map (pickDim x idx.length) := by
        conv_lhs => rw [hsing]
        exact bdims_pickDim _ _ _
      have hb2 : DA.bdims [(zn, n)] (pick x idx L).dims
          = (DA.bdims [(zn, n)] L.dims).map (pickDim x idx.length) := by
        conv_lhs => rw [hsing]
        exact bdims_pickDim _ _ _
      have ht : ∀ k, (⟨DA.bdims (pick x idx L).dims [(zn, n)],
            fun e => intf.get (Function.update e zin (e zn + k))⟩ : DA (Fl K))
          = pick x idx ⟨DA.bdims L.dims [(zn, n)], fun e => intf.get (Function.update e zin (e zn + k))⟩ := by
        intro k
        rw [hb1]
        show DA.mk _ _ = DA.mk _ _
        congr 1
        funext e
        refine hl _ _ (fun y hy => ?_)
        have : y = zin := by unfold DA.dimNames at hy; rw [e2] at hy; simpa using hy
        rw [this, Function.update_self, Function.update_self, Function.update_of_ne hxz]
      have ht0 := ht 0
      have ht1 := ht 1
      simp only [Nat.add_zero] at ht0
      have hdp : (⟨DA.bdims [(zn, n)] (pick x idx L).dims, (pick x idx L).get⟩ : DA (Fl K))
          = pick x idx ⟨DA.bdims [(zn, n)] L.dims, L.get⟩ := by
        rw [hb2]
        rfl
      rw [ht0, ht1, hdp, ← pick_scalar (x := x) (idx := idx) top, pick_sub, pick_sub, pick_sub,
        pick_map, pick_map, pick_map, pick_zip, pick_zip, pick_map, pick_div]
      split at h4
      · rename_i hf
        rw [if_pos hf]; cases h4; rfl
      · rename_i hf
        rw [if_neg hf]; cases h4; rfl
  · cases h4

theorem dims_of_applyEos {th so pres r : DA (Fl K)} (h : applyEos eos fn th so pres = .ok r) :
    r.dims = DA.bdims (DA.bdims th.dims so.dims) pres.dims := by
  simp only [applyEos, bind_ok] at h
  obtain ⟨f, -, h⟩ := h
  split at h
  · cases h
  · cases h; rfl

/-- The same with the adjustment, along any dimension other than the vertical and the first one. -/
theorem C96_n2_adjusted {th so patm r : DA (Fl K)} {z : Nat → Fl K} {g : Fl K} {zc d : String} {n : Nat}
    {rest : List (String × Nat)} (hd : th.dims = (d, n) :: rest) (hx : d ≠ x) (hz : zc ≠ x) (hl : "z_l" ≠ x)
    (h1 : (x, 1) ∈ patm.dims → idx.length = 1) (h : calcN2 th so z eos g patm zc true = .ok r) :
    calcN2 (pick x idx th) (pick x idx so) z eos g (pick x idx patm) zc true = .ok (pick x idx r) := by
  have key : ∀ (t s p : DA (Fl K)), calcN2 t s z eos g p zc true
      = (calcN2 t s z eos g p zc false >>= fun m => adjustNegativeN2 m) := by
    intro t s p
    simp only [calcN2, if_true, Bool.false_eq_true, if_false, bind_assoc, pure_bind]
  rw [key, bind_ok] at h ⊢
  obtain ⟨m, h2, h3⟩ := h
  refine ⟨_, C96_n2 hz h1 h2, ?_⟩
  simp only [calcN2, bind_ok, pure_ok, Bool.false_eq_true, if_false] at h2
  obtain ⟨zz, e0, al, e1, be, e2, dt, e3, ds, e4, e5⟩ := h2
  have hm : ∃ rest', m.dims = (d, n) :: rest' := by
    rw [← e5]
    show ∃ rest', DA.bdims (DA.bdims al.dims dt.dims) (DA.bdims be.dims ds.dims) = _
    rw [dims_of_applyEos e1, hd]
    exact ⟨_, rfl⟩
  obtain ⟨rest', hm⟩ := hm
  exact C96_adjust hm hx hl h3

theorem pick_gridTransform (a : DA (Fl K)) {zc name : String} (z : Nat → Fl K) (m : Nat) (w : Nat → Fl K)
    (hz : zc ≠ x) (hn : name ≠ x) :
    gridTransform (pick x idx a) zc z name m w = pick x idx (gridTransform a zc z name m w) := by
  show DA.mk _ _ = DA.mk _ _
  congr 1
  · show _ = List.map (pickDim x idx.length) (a.dims.filter (fun p => p.1 != zc) ++ [(name, m)])
    rw [List.map_append, List.map_cons, pickDim_of_ne (by exact hn)]
    congr 1
    exact filter_map_pickDim _ _ (fun s => s != zc)
  · funext e
    show interpMasked _ z _ (w (e name)) = interpMasked (a.size zc) z _ (w (Function.update e x _ name))
    rw [pick_size a hz, Function.update_of_ne hn]
    congr 1
    funext k
    show a.get _ = a.get _
    rw [Function.update_of_ne hz.symm, Function.update_comm hz]

/-- Buoyancy frequency on interfaces. -/
theorem C96_n2_interfaces {refuses : Bool} {th so patm r : DA (Fl K)} {z w : Nat → Fl K} {g : Fl K}
    {zc name : String} {m : Nat} (hz : zc ≠ x) (hn : name ≠ x) (h1 : (x, 1) ∈ patm.dims → idx.length = 1)
    (h : calcN2Interfaces refuses th so z name m w eos g patm zc = .ok r) :
    calcN2Interfaces refuses (pick x idx th) (pick x idx so) z name m w eos g (pick x idx patm) zc
      = .ok (pick x idx r) := by
  unfold calcN2Interfaces at h ⊢
  rw [pick_dimNames, pick_dimNames]
  split at h
  · cases h
  · rename_i ha
    rw [if_neg ha]
    split at h
    · cases h
    · rename_i hb
      rw [if_neg hb]
      split at h
      · cases h
      · rename_i hc
        rw [if_neg hc, pick_gridTransform _ _ _ _ hz hn, pick_gridTransform _ _ _ _ hz hn]
        exact C96_n2 hn h1 h

theorem pick_toCorner {op : Fl K → Fl K → Fl K} {ax : XAxis} {a r : DA (Fl K)} (hc : ax.center ≠ x)
    (hq : ax.corner ≠ x) (h : toCorner op ax a = .ok r) :
    toCorner op ax (pick x idx a) = .ok (pick x idx r) := by
  unfold toCorner at h ⊢
  rw [pick_dimNames, pick_size a hc]
  split at h
  · rename_i hm
    rw [if_pos hm, ← Except.ok.inj h]
    simp only [Except.ok.injEq]
    show DA.mk _ _ = DA.mk _ _
    congr 1
    · show cornerDims ax (a.dims.map (pickDim x idx.length)) = (cornerDims ax a.dims).map (pickDim x idx.length)
      unfold cornerDims
      rw [List.map_map, List.map_map]
      refine List.map_congr_left (fun p _ => ?_)
      show (if (pickDim x idx.length p).1 = ax.center then _ else _) = pickDim x idx.length (if _ then _ else _)
      rw [pickDim_fst]
      by_cases hp : p.1 = ax.center
      · rw [if_pos hp, if_pos hp, pickDim_of_ne (p := p) (by rw [hp]; exact hc)]
        exact (pickDim_of_ne (by exact hq)).symm
      · rw [if_neg hp, if_neg hp]
    · funext e
      have hk : ∀ k, (pick x idx a).get (Function.update e ax.center k)
          = a.get (Function.update (Function.update e x (idx.getD (e x) 0)) ax.center k) := by
        intro k
        rw [pick_get, Function.update_of_ne hc.symm, Function.update_comm hc]
      simp only [hk, Function.update_of_ne hq]
  · cases h

theorem pickDS_names {V : Type} (d : DS V) : (pickDS x idx d).names = d.names := by
  unfold DS.names pickDS
  rw [List.map_map]
  rfl

theorem pickDS_dimNames {V : Type} (d : DS V) : (pickDS x idx d).dimNames = d.dimNames := by
  unfold DS.dimNames pickDS
  rw [List.flatMap_map]
  simp only [pick_dimNames]

theorem xgcm_ne {names : List String} {cd : Option (List (String × String))} {sym : Bool} {G : XGrid}
    (h : getXgcmGrid names cd sym = .ok G)
    (hx : x ∉ (cd.getD [("xcenter", "xh"), ("ycenter", "yh"), ("xcorner", "xq"), ("ycorner", "yq")]).map Prod.snd) :
    G.X.center ≠ x ∧ G.X.corner ≠ x ∧ G.Y.center ≠ x ∧ G.Y.corner ≠ x := by
  unfold getXgcmGrid at h
  simp only [bind_ok] at h
  obtain ⟨xc, h1, xq, h2, yc, h3, yq, h4, h5⟩ := h
  have key : ∀ {k v}, dictGet (cd.getD [("xcenter", "xh"), ("ycenter", "yh"), ("xcorner", "xq"), ("ycorner", "yq")]) k
      = .ok v → v ≠ x := by
    intro k v hv hvx
    unfold dictGet at hv
    split at hv
    · rename_i hl
      cases hv
      exact hx (List.mem_map.2 ⟨_, lookup_mem' hl, hvx⟩)
    · cases hv
  split at h5
  · cases h5
    exact ⟨key h1, key h2, key h3, key h4⟩
  · cases h5

/-- Relative vorticity: along any dimension that is not one of the grid's four (time, depth). -/
theorem C96_vorticity {d : DS (Fl K)} {vm cd : Option (List (String × String))} {sym : Bool} {r : DA (Fl K)}
    (hx : x ∉ (cd.getD [("xcenter", "xh"), ("ycenter", "yh"), ("xcorner", "xq"), ("ycorner", "yq")]).map Prod.snd)
    (h : calcRelVort d vm cd sym = .ok r) : calcRelVort (pickDS x idx d) vm cd sym = .ok (pick x idx r) := by
  unfold calcRelVort at h ⊢
  rw [pickDS_names, pickDS_dimNames]
  simp only [] at h ⊢
  split at h
  · cases h
  · rename_i hv
    rw [if_neg hv]
    simp only [bind_ok, pure_ok] at h ⊢
    obtain ⟨G, g0, n1, g1, u, g2, n2, g3, dx, g4, du, g5, n3, g6, v, g7, n4, g8, dy, g9, dv, g10, n5, g11, ar, g12,
      g13⟩ := h
    obtain ⟨c1, c2, c3, c4⟩ := xgcm_ne g0 hx
    refine ⟨G, g0, n1, g1, _, pickDS_getVar g2, n2, g3, _, pickDS_getVar g4, pick x idx du, ?_, n3, g6, _,
      pickDS_getVar g7, n4, g8, _, pickDS_getVar g9, pick x idx dv, ?_, n5, g11, _, pickDS_getVar g12, ?_⟩
    · rw [pick_mul]; exact pick_toCorner c3 c4 g5
    · rw [pick_mul]; exact pick_toCorner c1 c2 g10
    · rw [← g13]
      show (pick x idx (-du) + pick x idx dv) / _ = _
      rw [pick_add, pick_div]

/-- Potential vorticity, likewise. -/
theorem C96_pv {zeta f n2 r : DA (Fl K)} {g : Fl K} {cd : Option (List (String × String))} {sym interp : Bool}
    {units : String}
    (hx : x ∉ (cd.getD [("xcenter", "xh"), ("ycenter", "yh"), ("xcorner", "xq"), ("ycorner", "yq")]).map Prod.snd)
    (h : calcPv zeta f n2 g cd sym units interp = .ok r) :
    calcPv (pick x idx zeta) (pick x idx f) (pick x idx n2) g cd sym units interp = .ok (pick x idx r) := by
  unfold calcPv at h ⊢
  simp only [bind_ok] at h ⊢
  obtain ⟨m, h1, h2⟩ := h
  refine ⟨pick x idx m, ?_, ?_⟩
  · unfold pvN2 at h1 ⊢
    split at h1
    · rename_i hi
      rw [if_pos hi]
      simp only [bind_ok] at h1 ⊢
      obtain ⟨G, g0, m', g1, g2⟩ := h1
      obtain ⟨c1, c2, c3, c4⟩ := xgcm_ne g0 hx
      rw [pick_dimNames, pick_dimNames, pick_dimNames]
      exact ⟨G, g0, _, pick_toCorner c1 c2 g1, pick_toCorner c3 c4 g2⟩
    · rename_i hi
      rw [if_neg hi]
      cases h1; rfl
  · have hs : ∀ (a : DA (Fl K)) (v : Fl K), pick x idx a / DA.scalar v = pick x idx (a / DA.scalar v) := by
      intro a v; rw [← pick_div, pick_scalar]
    have hs' : ∀ (a : DA (Fl K)) (v : Fl K), pick x idx a * DA.scalar v = pick x idx (a * DA.scalar v) := by
      intro a v; rw [← pick_mul, pick_scalar]
    rw [pick_add, hs, pick_mul]
    split at h2
    · rename_i hu
      rw [if_pos hu]; cases h2; rfl
    · rename_i hu
      rw [if_neg hu]
      split at h2
      · rename_i hu2
        rw [if_pos hu2, hs, hs']; cases h2; rfl
      · cases h2

/-! Instances: three columns of four levels, of which the last and the first are taken, in that order. -/

/-- Temperatures by level and column. -/
def locT : DA (Fl ℚ) := ⟨[("z_l", 4), ("xh", 3)], fun e => fin (20 - 3 * (e "z_l" : ℚ) + e "xh")⟩

/-- Salinities. -/
def locS : DA (Fl ℚ) := ⟨[("z_l", 4), ("xh", 3)], fun e => fin (34 + (e "z_l" : ℚ) / 10)⟩

/-- Depths of the levels. -/
def locZ (k : Nat) : Fl ℚ := fin (10 * (k : ℚ) + 5)

example : ∃ r, calcRho locT locS (DA.scalar (fin 0)) "Wright" = .ok r ∧ r.dims = [("z_l", 4), ("xh", 3)] ∧
    calcRho (pick "xh" [2, 0] locT) (pick "xh" [2, 0] locS) (DA.scalar (fin 0)) "Wright"
      = .ok (pick "xh" [2, 0] r) := by
  have hr : ∃ r, calcRho locT locS (DA.scalar (fin 0)) "Wright" = .ok r ∧ r.dims = [("z_l", 4), ("xh", 3)] :=
    ⟨_, rfl, rfl⟩
  obtain ⟨r, h, hd⟩ := hr
  exact ⟨r, h, hd, (C96_eos (x := "xh") (idx := [2, 0]) (by simp)).1 r h⟩

example : ∃ r, calcPdens locT locS (fin 2000) (DA.scalar (fin 101325)) "Wright" = .ok r ∧
    calcPdens (pick "xh" [2, 0] locT) (pick "xh" [2, 0] locS) (fin 2000) (DA.scalar (fin 101325)) "Wright"
      = .ok (pick "xh" [2, 0] r) := by
  have hr : ∃ r, calcPdens locT locS (fin 2000) (DA.scalar (fin 101325)) "Wright" = .ok r := by
    unfold calcPdens
    have : (Fl.le (0.0 : Fl ℚ) (fin 2000) && Fl.le (fin 2000) (7500.0 : Fl ℚ)) = true := by
      simp [Fl.le, ofSci]; norm_num
    rw [this]
    exact ⟨_, rfl⟩
  obtain ⟨r, h⟩ := hr
  have hp := C96_pdens (x := "xh") (idx := [2, 0]) (by simp) h
  rw [pick_scalar] at hp
  exact ⟨r, h, hp⟩

example : ∃ r, inverseBarometer locT locS (DA.scalar (fin 101325)) (fin (49 / 5)) "Wright" = .ok r ∧
    inverseBarometer (pick "xh" [2, 0] locT) (pick "xh" [2, 0] locS) (DA.scalar (fin 101325)) (fin (49 / 5)) "Wright"
      = .ok (pick "xh" [2, 0] r) := by
  have hr : ∃ r, inverseBarometer locT locS (DA.scalar (fin 101325)) (fin (49 / 5)) "Wright" = .ok r := ⟨_, rfl⟩
  obtain ⟨r, h⟩ := hr
  have hp := C96_barometer (x := "xh") (idx := [2, 0]) (by simp) h
  rw [pick_scalar] at hp
  exact ⟨r, h, hp⟩

/-- Depths of three columns, the last of them dry. -/
def locD : DA (Fl ℚ) := ⟨[("xh", 3)], fun e => if e "xh" = 2 then nan else fin (60 + e "xh")⟩

theorem locBathy : Bathy locD where
  wf := fun e e' h => by
    have := h "xh" (by simp [locD, DA.dimNames])
    simp [locD, this]
  nodup := by simp [locD, DA.dimNames]
  vals := fun e _ => by
    by_cases h : e "xh" = 2
    · exact Or.inl (by simp [locD, h])
    · exact Or.inr ⟨60 + e "xh", by positivity, by simp [locD, h]⟩

example : ∃ r, calcDz wLevels wInterfaces locD (fin 40) (some (fin 60)) true = .ok r ∧
    calcDz wLevels wInterfaces (pick "xh" [2, 0] locD) (fin 40) (some (fin 60)) true = .ok (pick "xh" [2, 0] r) := by
  obtain ⟨r, h, -⟩ := calcDz_ok wGrid locBathy 40 (some 60) true (by simp [locD, DA.dimNames])
  have hw : wInterfaces.WF := fun e e' he => by
    rw [wGrid.iget, wGrid.iget, he "z_i" (by simp [wInterfaces, DA.dimNames])]
  refine ⟨r, h, C96_dz hw (by decide) locBathy.wf locBathy.nodup ?_ h⟩
  intro i hi q hq _
  simp [locD] at hq hi
  subst hq
  rcases hi with rfl | rfl <;> simp

example : ∃ r, calcN2 locT locS locZ "Wright" = .ok r ∧
    calcN2 (pick "xh" [2, 0] locT) (pick "xh" [2, 0] locS) locZ "Wright" = .ok (pick "xh" [2, 0] r) := by
  have hr : ∃ r, calcN2 locT locS locZ "Wright" = .ok r := ⟨_, rfl⟩
  obtain ⟨r, h⟩ := hr
  have hp := C96_n2 (x := "xh") (idx := [2, 0]) (by decide) (by simp) h
  rw [pick_scalar] at hp
  exact ⟨r, h, hp⟩

example : ∃ r, calcN2 locT locS locZ "Wright" (adjust_negative := true) = .ok r ∧
    calcN2 (pick "xh" [2, 0] locT) (pick "xh" [2, 0] locS) locZ "Wright" (adjust_negative := true)
      = .ok (pick "xh" [2, 0] r) := by
  have hr : ∃ r, calcN2 locT locS locZ "Wright" (adjust_negative := true) = .ok r := ⟨_, rfl⟩
  obtain ⟨r, h⟩ := hr
  have hp := C96_n2_adjusted (x := "xh") (idx := [2, 0]) (d := "z_l") rfl (by decide) (by decide) (by decide)
    (by simp) h
  rw [pick_scalar] at hp
  exact ⟨r, h, hp⟩

example : ∃ r, calcN2Interfaces false locT locS locZ "z_i" 5 (fun k => fin (10 * (k : ℚ))) "Wright" = .ok r ∧
    calcN2Interfaces false (pick "xh" [2, 0] locT) (pick "xh" [2, 0] locS) locZ "z_i" 5 (fun k => fin (10 * (k : ℚ)))
      "Wright" = .ok (pick "xh" [2, 0] r) := by
  have hr : ∃ r, calcN2Interfaces false locT locS locZ "z_i" 5 (fun k => fin (10 * (k : ℚ))) "Wright" = .ok r :=
    ⟨_, rfl⟩
  obtain ⟨r, h⟩ := hr
  have hp := C96_n2_interfaces (x := "xh") (idx := [2, 0]) (by decide) (by decide) (by simp) h
  rw [pick_scalar] at hp
  exact ⟨r, h, hp⟩

example : ∃ r, adjustNegativeN2 (locT.map (fun v => v - fin 15)) = .ok r ∧
    adjustNegativeN2 (pick "xh" [2, 0] (locT.map (fun v => v - fin 15))) = .ok (pick "xh" [2, 0] r) := by
  have hr : ∃ r, adjustNegativeN2 (locT.map (fun v => v - fin 15)) = .ok r := ⟨_, rfl⟩
  obtain ⟨r, h⟩ := hr
  exact ⟨r, h, C96_adjust (x := "xh") (idx := [2, 0]) (d := "z_l") rfl (by decide) (by decide) h⟩

/-- Temperatures and salinities as real numbers. -/
noncomputable def locTR : DA (Fl ℝ) := ⟨[("z_l", 4), ("xh", 3)], fun e => fin (20 - 3 * (e "z_l" : ℝ) + e "xh")⟩

example : ∃ r, calcWaveSpeed locTR locTR = .ok r ∧ r.dims = [("xh", 3)] ∧
    calcWaveSpeed (pick "xh" [2, 0] locTR) (pick "xh" [2, 0] locTR) = .ok (pick "xh" [2, 0] r) := by
  have hr : ∃ r, calcWaveSpeed locTR locTR = .ok r ∧ r.dims = [("xh", 3)] := ⟨_, rfl, rfl⟩
  obtain ⟨r, h, hd⟩ := hr
  exact ⟨r, h, hd, C96_wave (x := "xh") (idx := [2, 0]) (d := "z_l") rfl (by decide) (by decide) (by decide) h⟩

example : ∃ r, calcStabilityAngle locTR locTR (DA.scalar (fin 0)) (fun k => fin (10 * (k : ℝ))) "Wright" = .ok r ∧
    calcStabilityAngle (pick "xh" [2, 0] locTR) (pick "xh" [2, 0] locTR) (DA.scalar (fin 0))
      (fun k => fin (10 * (k : ℝ))) "Wright" = .ok (pick "xh" [2, 0] r) := by
  have hr : ∃ r, calcStabilityAngle locTR locTR (DA.scalar (fin 0)) (fun k => fin (10 * (k : ℝ))) "Wright" = .ok r :=
    ⟨_, rfl⟩
  obtain ⟨r, h⟩ := hr
  have hp := C96_stability (x := "xh") (idx := [2, 0]) (by decide) (by simp) h
  rw [pick_scalar] at hp
  exact ⟨r, h, hp⟩

/-- A dataset for vorticity, with two times. -/
def locV : DS (Fl ℚ) :=
  ⟨[("uo", ⟨[("time", 2), ("yh", 3), ("xq", 3)], fun e => fin ((e "yh" : ℚ) + e "time")⟩),
    ("vo", ⟨[("time", 2), ("yq", 3), ("xh", 3)], fun e => fin ((e "xh" : ℚ) * 2)⟩),
    ("dxCu", ⟨[("yh", 3), ("xq", 3)], fun _ => fin 10⟩), ("dyCv", ⟨[("yq", 3), ("xh", 3)], fun _ => fin 10⟩),
    ("areacello_bu", ⟨[("yq", 3), ("xq", 3)], fun _ => fin 100⟩)], []⟩

example : ∃ r, calcRelVort locV = .ok r ∧ calcRelVort (pickDS "time" [1] locV) = .ok (pick "time" [1] r) := by
  have hr : ∃ r, calcRelVort locV = .ok r := ⟨_, rfl⟩
  obtain ⟨r, h⟩ := hr
  exact ⟨r, h, C96_vorticity (x := "time") (idx := [1]) (by decide) h⟩

/-- Buoyancy frequency by time at the centres. -/
def locN : DA (Fl ℚ) := ⟨[("time", 2), ("yh", 3), ("xh", 3)], fun e => fin (1 + (e "time" : ℚ))⟩

/-- A corner field. -/
def locF : DA (Fl ℚ) := ⟨[("yq", 3), ("xq", 3)], fun e => fin (1 + (e "yq" : ℚ))⟩

example : ∃ r, calcPv locF locF locN = .ok r ∧
    calcPv (pick "time" [1] locF) (pick "time" [1] locF) (pick "time" [1] locN) = .ok (pick "time" [1] r) := by
  have hr : ∃ r, calcPv locF locF locN = .ok r := ⟨_, rfl⟩
  obtain ⟨r, h⟩ := hr
  exact ⟨r, h, C96_pv (x := "time") (idx := [1]) (by decide) h⟩

/-- `C96_rotation` at two of three latitudes. -/
example : calcCoriolis (pick "yh" [2, 0] (⟨[("yh", 3)], fun e => fin (30 * e "yh" : ℝ)⟩ : DA (Fl ℝ)))
    = pick "yh" [2, 0] (calcCoriolis ⟨[("yh", 3)], fun e => fin (30 * e "yh" : ℝ)⟩) :=
  (C96_rotation (K := ℝ)).1 _

end Momlevel.Props
