import Verif.Props.StericSuccess
import Verif.Props.Reorder

/-! # C99: the area mean of local heights and the global height -/

set_option linter.unusedSectionVars false

namespace Momlevel.Props
open Momlevel Momlevel.Fl Momlevel.Eos

/-- Cell volumes made of cell area times thickness above the sea floor: each is that product or missing, a column
without a top cell has no cells at all, areas are positive numbers, some cell has a positive volume. -/
structure FilledCells (tc zc : String) (n : Nat) (ifc : Nat → ℝ) (vol area depth : DA (Fl ℝ)) : Prop where
  area_pos : ∀ e, area.InBounds e → ∃ A, 0 < A ∧ area.get e = fin A
  cells : ∀ e, area.InBounds e → ∀ k < n, vol.get (cell0 tc zc e k) = nan ∨
    vol.get (cell0 tc zc e k) = fin (val0 (area.get e) * thickness ifc (val0 (depth.get e)) k)
  top : ∀ e, area.InBounds e → vol.get (cell0 tc zc e 0) = nan → ∀ k < n, vol.get (cell0 tc zc e k) = nan
  some_wet : ∃ e, area.InBounds e ∧ ∃ k < n, 0 < val0 (vol.get (cell0 tc zc e k))

section
variable {d rl rg refl refg : DS (Fl ℝ)} {cn : DictArg} {tc zc zb zid yc xc : String} {nt n ny nx : Nat}
    {lev ifc : Nat → ℝ} {th so vol area depth zi patm : DA (Fl ℝ)} {eos variant domain : String}
    {rhozero : Fl ℝ} {strict : Bool} {f : EosFn (Fl ℝ)} {ρ0 : ℝ}

theorem sumOver_levels (hz : zc ∉ [yc, xc]) (F : Env → ℝ) (e : Env) :
    Spec.sumOver [(zc, n), (yc, ny), (xc, nx)] F e
      = Spec.sumOver [(yc, ny), (xc, nx)] (fun a => ∑ k ∈ Finset.range n, F (Function.update a zc k)) e := by
  rw [sumOver_sum]
  show ∑ k ∈ Finset.range n, _ = _
  exact Finset.sum_congr rfl (fun k _ => (sumOver_update (by simpa using hz) e).symm)

/-- The mass at a time as a sum over the cells. -/
theorem masso_value {rho rvol : DA (Fl ℝ)} (hn : (rho * rvol).dimNames.Nodup) (hw : (rho * rvol).WF)
    (hd : (rho * rvol).dims.filter (fun p => p.1 != tc) = [(zc, n), (yc, ny), (xc, nx)]) {e : Env} {x : Env → ℝ}
    (hx : ∀ a, (∀ p ∈ [(zc, n), (yc, ny), (xc, nx)], a p.1 < p.2) → (∀ q, q ∉ [zc, yc, xc] → a q = e q) →
      rvol.get a = nan ∨ (∃ v, rvol.get a = fin v) ∧ rho.get a = fin (x a)) :
    (calcMasso rho rvol tc).get e
      = fin (Spec.sumOver [(zc, n), (yc, ny), (xc, nx)] (fun a => val0 (rvol.get a) * x a) e) := by
  have hnn : (([(zc, n), (yc, ny), (xc, nx)] : List (String × Nat)).map Prod.fst).Nodup := by
    rw [← hd]; exact hn.sublist (List.filter_sublist.map _)
  have key : ∀ a, (∀ p ∈ [(zc, n), (yc, ny), (xc, nx)], a p.1 < p.2) → (∀ q, q ∉ [zc, yc, xc] → a q = e q) →
      FN ((rho * rvol).get a) ∧ val0 ((rho * rvol).get a) = val0 (rvol.get a) * x a := by
    intro a h1 h2
    rw [DA.get_mul]
    rcases hx a h1 h2 with h | ⟨⟨v, h⟩, h'⟩
    · rw [h]
      cases rho.get a <;> simp
    · rw [h, h']
      simp [mul_comm]
  unfold calcMasso
  simp only
  rw [DA.get_sumDims hn hw]
  · rw [masso_dims_filter, hd]
    congr 1
    refine sumOver_congr hnn (fun a h1 h2 => (key a h1 (fun q hq => h2 q (by simpa using hq))).2)
  · intro a h1 h2
    have hmem : ∀ p : String × Nat, p ∈ [(zc, n), (yc, ny), (xc, nx)] →
        p ∈ (rho * rvol).dims ∧ p.1 ∈ (rho * rvol).dimNames.filter (fun x => x != tc) := by
      intro p hp
      rw [← hd] at hp
      have hp' := List.mem_filter.1 hp
      exact ⟨hp'.1, List.mem_filter.2 ⟨List.mem_map_of_mem hp'.1, hp'.2⟩⟩
    refine (key a (fun p hp => h1 p (hmem p hp).1 (hmem p hp).2) (fun q hq => h2 q (fun hq' => hq ?_))).1
    obtain ⟨hq1, hq2⟩ := List.mem_filter.1 hq'
    obtain ⟨p, hp, rfl⟩ := List.mem_map.1 hq1
    have : p ∈ [(zc, n), (yc, ny), (xc, nx)] := by
      rw [← hd]; exact List.mem_filter.2 ⟨hp, hq2⟩
    simp only [List.mem_cons, List.not_mem_nil, or_false] at this ⊢
    rcases this with rfl | rfl | rfl <;> simp

theorem log_between {u : ℝ} (hu : 0 < u) : 1 - u ≤ Real.log (1 / u) ∧ Real.log (1 / u) ≤ 1 / u - 1 := by
  constructor
  · rw [one_div, Real.log_inv]
    have := Real.log_le_sub_one_of_pos hu
    linarith
  · exact Real.log_le_sub_one_of_pos (by positivity)

section Filled
variable (names : [tc, zc, yc, xc].Nodup) (aread : area.dims = [(yc, ny), (xc, nx)])
    (C : FilledCells tc zc n ifc vol area depth)
include names aread C

theorem filled_area {e : Env} (h1 : e yc < ny) (h2 : e xc < nx) : area.InBounds e := by
  intro p hp
  rw [aread] at hp
  simp only [List.mem_cons, List.not_mem_nil, or_false] at hp
  rcases hp with rfl | rfl <;> assumption

theorem filled_vol {e : Env} (h0 : e zc < n) (h1 : e yc < ny) (h2 : e xc < nx) :
    vol.get (Function.update e tc 0) = nan ∨ ∃ v, vol.get (Function.update e tc 0) = fin v ∧ 0 ≤ v := by
  have hb := filled_area names aread C h1 h2
  obtain ⟨A, hA, hA'⟩ := C.area_pos e hb
  have := C.cells e hb (e zc) h0
  rw [show cell0 tc zc e (e zc) = Function.update e tc 0 by simp [cell0, cell]] at this
  rcases this with h | h
  · exact Or.inl h
  · refine Or.inr ⟨_, h, ?_⟩
    rw [hA']
    exact mul_nonneg hA.le (thickness_nonneg _ _ _)

/-- A sum over the cells, weighted by volume, of something positive in wet cells is positive. -/
theorem filled_pos (vold : vol.dims = [(tc, nt), (zc, n), (yc, ny), (xc, nx)]) (wvol : vol.WF) {e : Env}
    {y : Env → ℝ} (hy : ∀ i, i tc = e tc → i zc < n → i yc < ny → i xc < nx →
      vol.get (Function.update i tc 0) ≠ nan → 0 < y i) :
    0 < Spec.sumOver [(zc, n), (yc, ny), (xc, nx)] (fun a => val0 (vol.get (Function.update a tc 0)) * y a) e := by
  obtain ⟨b, hb, k, hk, hbk⟩ := C.some_wet
  have nd := names
  simp only [List.nodup_cons, List.mem_cons, not_or, List.not_mem_nil, or_false] at nd
  obtain ⟨⟨n1, n2, n3⟩, ⟨n4, n5⟩, n6, -⟩ := nd
  have hby : b yc < ny := hb (yc, ny) (by rw [aread]; simp)
  have hbx : b xc < nx := hb (xc, nx) (by rw [aread]; simp)
  have inb : ∀ {i : Env}, (∀ p ∈ [(zc, n), (yc, ny), (xc, nx)], i p.1 < p.2) → i zc < n ∧ i yc < ny ∧ i xc < nx :=
    fun h => ⟨h (zc, n) (by simp), h (yc, ny) (by simp), h (xc, nx) (by simp)⟩
  have tim : ∀ {i : Env}, (∀ q, q ∉ [(zc, n), (yc, ny), (xc, nx)].map Prod.fst → i q = e q) → i tc = e tc :=
    fun h => h tc (by simp [n1, n2, n3])
  have hn3 : ([(zc, n), (yc, ny), (xc, nx)].map Prod.fst).Nodup := by simp [n4, n5, n6]
  refine sumOver_pos hn3 (fun i h1 h2 => ?_)
    (b := fun q => if q = zc then k else if q = yc then b yc else if q = xc then b xc else e q) ?_ ?_ ?_
  · obtain ⟨i1, i2, i3⟩ := inb h1
    rcases filled_vol names aread C i1 i2 i3 with h | ⟨v, h, hv⟩
    · rw [h]; simp
    · rw [h]; exact mul_nonneg hv (hy i (tim h2) i1 i2 i3 (by rw [h]; simp)).le
  · intro p hp
    simp only [List.mem_cons, List.not_mem_nil, or_false] at hp
    rcases hp with rfl | rfl | rfl
    · simp [hk]
    · simp only [if_neg (Ne.symm n4), if_true]; exact hby
    · simp only [if_neg (Ne.symm n5), if_neg (Ne.symm n6), if_true]; exact hbx
  · intro q hq
    simp only [List.map_cons, List.map_nil, List.mem_cons, List.not_mem_nil, or_false, not_or] at hq
    simp [hq.1, hq.2.1, hq.2.2]
  · generalize hw : (fun q => if q = zc then k else if q = yc then b yc else if q = xc then b xc else e q) = w
    have hwq : ∀ q, w q = if q = zc then k else if q = yc then b yc else if q = xc then b xc else e q := by
      intro q; rw [← hw]
    have hwv : vol.get (Function.update w tc 0) = vol.get (cell0 tc zc b k) := by
      refine wvol _ _ (fun q hq => ?_)
      have hq' : q ∈ [tc, zc, yc, xc] := by
        unfold DA.dimNames at hq; rw [vold] at hq; exact hq
      simp only [List.mem_cons, List.not_mem_nil, or_false] at hq'
      rcases hq' with rfl | rfl | rfl | rfl
      · simp
      · simp [cell0, cell, hwq, Ne.symm n1]
      · simp [cell0, cell, hwq, Ne.symm n2, Ne.symm n4]
      · simp [cell0, cell, hwq, Ne.symm n3, Ne.symm n5, Ne.symm n6]
    have hnn : vol.get (Function.update w tc 0) ≠ nan := by
      intro h; rw [← hwv, h] at hbk; simp at hbk
    rw [hwv]
    refine mul_pos hbk (hy w ?_ ?_ ?_ ?_ hnn)
    · rw [hwq, if_neg n1, if_neg n2, if_neg n3]
    · rw [hwq, if_pos rfl]; exact hk
    · rw [hwq, if_neg (Ne.symm n4), if_pos rfl]; exact hby
    · rw [hwq, if_neg (Ne.symm n5), if_neg (Ne.symm n6), if_pos rfl]; exact hbx

theorem filled_area_pos {e : Env} : 0 < Spec.sumOver [(yc, ny), (xc, nx)] (fun a => val0 (area.get a)) e := by
  obtain ⟨b, hb, -⟩ := C.some_wet
  have nd := names
  simp only [List.nodup_cons, List.mem_cons, not_or, List.not_mem_nil, or_false] at nd
  obtain ⟨-, -, n6, -⟩ := nd
  have inb : ∀ {i : Env}, (∀ p ∈ [(yc, ny), (xc, nx)], i p.1 < p.2) → area.InBounds i :=
    fun h => by intro p hp; exact h p (by rw [← aread]; exact hp)
  have hb2 : ∀ p ∈ [(yc, ny), (xc, nx)], (fun q => if q = yc then b yc else if q = xc then b xc else e q) p.1 < p.2 := by
    intro p hp
    simp only [List.mem_cons, List.not_mem_nil, or_false] at hp
    rcases hp with rfl | rfl
    · simp only [if_true]; exact hb (yc, ny) (by rw [aread]; simp)
    · simp only [if_neg (Ne.symm n6), if_true]; exact hb (xc, nx) (by rw [aread]; simp)
  refine sumOver_pos (by simp [n6]) (fun i h1 h2 => ?_)
    (b := fun q => if q = yc then b yc else if q = xc then b xc else e q) hb2 ?_ ?_
  · obtain ⟨B, hB, h⟩ := C.area_pos i (inb h1)
    rw [h]; exact hB.le
  · intro q hq
    simp only [List.map_cons, List.map_nil, List.mem_cons, List.not_mem_nil, or_false, not_or] at hq
    simp [hq.1, hq.2]
  · obtain ⟨B, hB, h⟩ := C.area_pos (fun q => if q = yc then b yc else if q = xc then b xc else e q)
      (inb (i := fun q => if q = yc then b yc else if q = xc then b xc else e q) hb2)
    rw [h]; exact hB

end Filled

theorem WF_slice {u v : DA (Fl ℝ)} (hu : u.WF) (hvd : v.dims = u.dims.filter (fun p => p.1 != tc))
    (hvg : ∀ e, v.get e = u.get (Function.update e tc 0)) : v.WF := by
  intro e e' he
  rw [hvg, hvg]
  refine hu _ _ (fun q hq => ?_)
  by_cases hqt : q = tc
  · subst hqt; simp
  · rw [Function.update_of_ne hqt, Function.update_of_ne hqt]
    refine he q ?_
    obtain ⟨p, hp, rfl⟩ := List.mem_map.1 hq
    refine List.mem_map_of_mem ?_
    rw [hvd]
    exact List.mem_filter.2 ⟨hp, by simpa using hqt⟩

/-- Dimensions of the product of a density and the reference volumes. -/
theorem product_dims (names : [tc, zc, yc, xc].Nodup) {A B P : List (String × Nat)}
    (hA : A = [(tc, nt), (zc, n), (yc, ny), (xc, nx)] ∨ A = [(zc, n), (yc, ny), (xc, nx)])
    (hB : B = [(tc, nt), (zc, n), (yc, ny), (xc, nx)] ∨ B = [(zc, n), (yc, ny), (xc, nx)])
    (hP : ∀ p ∈ P, p ∈ [(zc, n), (yc, ny), (xc, nx)]) :
    ((DA.bdims (DA.bdims (DA.bdims A B) P) [(zc, n), (yc, ny), (xc, nx)]).map Prod.fst).Nodup ∧
    (DA.bdims (DA.bdims (DA.bdims A B) P) [(zc, n), (yc, ny), (xc, nx)]).filter (fun p => p.1 != tc)
      = [(zc, n), (yc, ny), (xc, nx)] := by
  have nd := names
  simp only [List.nodup_cons, List.mem_cons, not_or, List.not_mem_nil, or_false] at nd
  obtain ⟨⟨n1, n2, n3⟩, ⟨n4, n5⟩, n6, -⟩ := nd
  have key : ∀ Q : List (String × Nat), (∀ p ∈ [(zc, n), (yc, ny), (xc, nx)], p ∈ Q) →
      DA.bdims (DA.bdims Q P) [(zc, n), (yc, ny), (xc, nx)] = Q := by
    intro Q hQ
    rw [DA.bdims_eq_left (fun p hp => hQ p (hP p hp)), DA.bdims_eq_left hQ]
  have e1 : DA.bdims [(zc, n), (yc, ny), (xc, nx)] [(tc, nt), (zc, n), (yc, ny), (xc, nx)]
      = [(zc, n), (yc, ny), (xc, nx), (tc, nt)] := by
    simp [DA.bdims, n1, n2, n3]
  have e2 : DA.bdims [(tc, nt), (zc, n), (yc, ny), (xc, nx)] [(zc, n), (yc, ny), (xc, nx)]
      = [(tc, nt), (zc, n), (yc, ny), (xc, nx)] := DA.bdims_eq_left (fun p hp => List.mem_cons_of_mem _ hp)
  have f1 : ([(tc, nt), (zc, n), (yc, ny), (xc, nx)] : List (String × Nat)).filter (fun p => p.1 != tc)
      = [(zc, n), (yc, ny), (xc, nx)] := by
    simp [Ne.symm n1, Ne.symm n2, Ne.symm n3]
  rcases hA with rfl | rfl <;> rcases hB with rfl | rfl
  · rw [DA.bdims_eq_left (fun p hp => hp), key _ (fun p hp => List.mem_cons_of_mem _ hp)]
    exact ⟨names, f1⟩
  · rw [e2, key _ (fun p hp => List.mem_cons_of_mem _ hp)]
    exact ⟨names, f1⟩
  · rw [e1, key _ (fun p hp => by simp at hp ⊢; tauto)]
    simp [n4, n5, n6, Ne.symm n1, Ne.symm n2, Ne.symm n3]
  · rw [DA.bdims_eq_left (fun p hp => hp), key _ (fun p hp => hp)]
    simp [n4, n5, n6, Ne.symm n1, Ne.symm n2, Ne.symm n3]

/-- The global result in terms of the densities of the wet cells. -/
theorem global_value (g : GoodData d tc zc zb zid yc xc nt n ny nx lev ifc th so vol area depth zi patm)
    (hc : defaultCoords cn = .ok (tc, zc, zb))
    (hG : steric d .none cn none rhozero patm eos variant "global" strict = .ok (rg, refg))
    (wth : th.WF) (wso : so.WF) (wvol : vol.WF) (warea : area.WF) (wpat : patm.WF)
    (C : FilledCells tc zc n ifc vol area depth) (hf : eosFuncFromStr eos "density" = .ok f) {x x0 : Env → ℝ}
    (hx : ∀ e, e tc < nt → e zc < n → e yc < ny → e xc < nx → vol.get (Function.update e tc 0) ≠ nan →
      f (th.get (if variant = "halosteric" then Function.update e tc 0 else e))
        (so.get (if variant = "thermosteric" then Function.update e tc 0 else e))
        (fin (lev (e zc) * 10 ^ 4) + patm.get e) = fin (x e) ∧ 0 < x e)
    (hx0 : ∀ e, e tc < nt → e zc < n → e yc < ny → e xc < nx → vol.get (Function.update e tc 0) ≠ nan →
      f (th.get (Function.update e tc 0)) (so.get (Function.update e tc 0))
        (fin (lev (e zc) * 10 ^ 4) + patm.get e) = fin (x0 e) ∧ 0 < x0 e) :
    ∃ b rhoga, rg.getVar variant = .ok b ∧ refg.getVar "rhoga" = .ok rhoga ∧
      ∀ e, e tc < nt → ∀ A V m m0 : ℝ,
        A = Spec.sumOver [(yc, ny), (xc, nx)] (fun a => val0 (area.get a)) e →
        V = Spec.sumOver [(zc, n), (yc, ny), (xc, nx)] (fun a => val0 (vol.get (Function.update a tc 0))) e →
        m = Spec.sumOver [(zc, n), (yc, ny), (xc, nx)]
          (fun a => val0 (vol.get (Function.update a tc 0)) * x a) e →
        m0 = Spec.sumOver [(zc, n), (yc, ny), (xc, nx)]
          (fun a => val0 (vol.get (Function.update a tc 0)) * x0 a) e →
        0 < A → 0 < V → 0 < m → 0 < m0 →
        rhoga.get e = fin (m0 / V) ∧ b.get e = fin (V / A * Real.log (m0 / m)) := by
  obtain ⟨dd, tc', zc', zb', pres, th', so', rho, h1, h2, h3, h4, h5, h6, h7, h8, h9⟩ := steric_ok_iff.1 hG
  rw [hc] at h2
  cases h2
  have h1 : d = dd := Except.ok.inj h1
  subst h1
  obtain ⟨f0, hf0, ⟨D⟩⟩ := refData_of hc h3 h4 h5 h6
  have : f0 = f := Except.ok.inj (hf0.symm.trans hf)
  subst this
  obtain ⟨f', hf', hrho⟩ := calcRho_ok h8
  rw [hf] at hf'
  cases hf'
  simp only [stericResult, if_true] at h9
  obtain ⟨L⟩ := globalRun_of h9
  have t1 : D.th = th := Except.ok.inj (D.hth.symm.trans g.hth)
  have t2 : D.so = so := Except.ok.inj (D.hso.symm.trans g.hso)
  have t3 : D.vol = vol := Except.ok.inj (D.hvol.symm.trans g.hvol)
  have t4 : D.area = area := Except.ok.inj (D.harea.symm.trans g.harea)
  have t5 : L.rvol = D.rvol := Except.ok.inj (L.hrvol.symm.trans D.rhvol)
  have t6 : L.volo = D.volo := Except.ok.inj (L.hvolo.symm.trans D.rhvolo)
  have t7 : L.area = area := (Except.ok.inj (L.harea.symm.trans D.rharea)).trans t4
  have t8 : L.rhoga = calcMasso D.rrho D.rvol tc / D.volo := Except.ok.inj (L.hrhoga.symm.trans D.rhrhoga)
  have hv := variant_mem h7
  have hne : variant ≠ "reference_height" := by
    rintro rfl; simp at hv
  have nd := g.names
  simp only [List.nodup_cons, List.mem_cons, not_or, List.not_mem_nil, or_false] at nd
  obtain ⟨⟨n1, n2, n3⟩, ⟨n4, n5⟩, n6, -⟩ := nd
  obtain ⟨z, zi', g1, g2, g3⟩ := g.grid.grid
  have f1 : ([(tc, nt), (zc, n), (yc, ny), (xc, nx)] : List (String × Nat)).filter (fun p => p.1 != tc)
      = [(zc, n), (yc, ny), (xc, nx)] := by
    simp [Ne.symm n1, Ne.symm n2, Ne.symm n3]
  have rvd : D.rvol.dims = [(zc, n), (yc, ny), (xc, nx)] := by rw [D.vol_dims, t3, g.vold, f1]
  have rtd : D.rth.dims = [(zc, n), (yc, ny), (xc, nx)] := by rw [D.th_dims, t1, g.thd, f1]
  have rsd : D.rso.dims = [(zc, n), (yc, ny), (xc, nx)] := by rw [D.so_dims, t2, g.sod, f1]
  simp only [pressureField, g1, ok_bind, pure_ok] at h4
  have hpd : ∀ p ∈ pres.dims, p ∈ [(zc, n), (yc, ny), (xc, nx)] := by
    intro p hp
    rw [← h4] at hp
    rcases DA.mem_bdims hp with hp | hp
    · rcases DA.mem_bdims hp with hp | hp
      · rw [g3.ldims] at hp; simp only [List.mem_singleton] at hp; simp [hp]
      · simp at hp
    · exact g.patmd p hp
  have hpg : ∀ e, pres.get e = z.get e * (1.0e4 : Fl ℝ) + patm.get e := by intro e; rw [← h4]; rfl
  have hpw : pres.WF := by
    intro e e' he
    rw [hpg, hpg, g3.lget, g3.lget]
    have e1 : e zc = e' zc := by
      refine he zc ?_
      rw [← h4]
      exact memL (memL (by rw [g3.ldims]; simp))
    rw [e1, wpat e e' (fun q hq => he q (by rw [← h4]; exact memR hq))]
  have hpv : ∀ e, pres.get e = fin (lev (e zc) * 10 ^ 4) + patm.get e := by
    intro e
    rw [hpg, g3.lget, ofSci, fin_mul]
    norm_num
  have wrv : D.rvol.WF := WF_slice (t3 ▸ wvol) D.vol_dims D.vol_get
  have wrt : D.rth.WF := WF_slice (t1 ▸ wth) D.th_dims D.th_get
  have wrs : D.rso.WF := WF_slice (t2 ▸ wso) D.so_dims D.so_get
  have hfields : th'.WF ∧ so'.WF ∧
      (∀ e, th'.get e = th.get (if variant = "halosteric" then Function.update e tc 0 else e)) ∧
      (∀ e, so'.get e = so.get (if variant = "thermosteric" then Function.update e tc 0 else e)) ∧
      (th'.dims = [(tc, nt), (zc, n), (yc, ny), (xc, nx)] ∨ th'.dims = [(zc, n), (yc, ny), (xc, nx)]) ∧
      (so'.dims = [(tc, nt), (zc, n), (yc, ny), (xc, nx)] ∨ so'.dims = [(zc, n), (yc, ny), (xc, nx)]) := by
    rcases stericFields_ok h7 with ⟨hvar, p, q⟩ | ⟨hvar, p, q⟩ | ⟨hvar, p, q⟩
    · rw [g.hth] at p; rw [D.rhso] at q
      cases p; cases q
      exact ⟨wth, wrs, fun e => by simp [hvar], fun e => by simp [hvar, D.so_get, t2], Or.inl g.thd, Or.inr rsd⟩
    · rw [g.hso] at q; rw [D.rhth] at p
      cases p; cases q
      exact ⟨wrt, wso, fun e => by simp [hvar, D.th_get, t1], fun e => by simp [hvar], Or.inr rtd, Or.inl g.sod⟩
    · rw [g.hso] at q; rw [g.hth] at p
      cases p; cases q
      exact ⟨wth, wso, fun e => by simp [hvar], fun e => by simp [hvar], Or.inl g.thd, Or.inl g.sod⟩
  obtain ⟨wt, ws, gt', gs', dt', ds'⟩ := hfields
  have wrho : rho.WF := by rw [hrho]; exact WF_zip3 wt ws hpw _
  have wrr : D.rrho.WF := by rw [D.rho_eq]; exact WF_zip3 wrt wrs hpw _
  have pd1 := product_dims g.names dt' ds' hpd
  have pd0 := product_dims (nt := nt) g.names (Or.inr rtd) (Or.inr rsd) hpd
  have dd1 : (rho * D.rvol).dims = DA.bdims (DA.bdims (DA.bdims th'.dims so'.dims) pres.dims)
      [(zc, n), (yc, ny), (xc, nx)] := by
    rw [hrho, ← rvd]; rfl
  have dd0 : (D.rrho * D.rvol).dims = DA.bdims (DA.bdims (DA.bdims D.rth.dims D.rso.dims) pres.dims)
      [(zc, n), (yc, ny), (xc, nx)] := by
    rw [D.rho_eq, ← rvd]; rfl
  have hn3 : (([(zc, n), (yc, ny), (xc, nx)] : List (String × Nat)).map Prod.fst).Nodup := by simp [n4, n5, n6]
  have inb : ∀ {i : Env}, (∀ p ∈ [(zc, n), (yc, ny), (xc, nx)], i p.1 < p.2) → i zc < n ∧ i yc < ny ∧ i xc < nx :=
    fun h => ⟨h (zc, n) (by simp), h (yc, ny) (by simp), h (xc, nx) (by simp)⟩
  have volFN : ∀ e, e zc < n → e yc < ny → e xc < nx →
      D.rvol.get e = nan ∨ ∃ v, D.rvol.get e = fin v := by
    intro e h1 h2 h3
    rw [D.vol_get, t3]
    rcases filled_vol g.names g.aread C h1 h2 h3 with h | ⟨v, h, -⟩
    · exact Or.inl h
    · exact Or.inr ⟨v, h⟩
  refine ⟨L.res, L.rhoga, getVar_lookup.2 (L.hres hne), L.hrhoga, fun e het A V m m0 hA hV hm hm0 pA pV pm pm0 => ?_⟩
  have vV : D.volo.get e = fin V := by
    have hv3 := D.hvolo
    have : (D.rvol.ndim == 3) = true := by simp [DA.ndim, rvd]
    simp only [calcVolo, this, pyAssert_true, ok_bind, pure_ok] at hv3
    rw [hV, ← hv3, DA.get_sumAll (by unfold DA.dimNames; rw [rvd]; exact hn3) wrv, rvd]
    · simp only [D.vol_get, t3]
    · intro a ha
      obtain ⟨i1, i2, i3⟩ := inb (fun p hp => ha p (by rw [rvd]; exact hp))
      rcases volFN a i1 i2 i3 with h | ⟨v, h⟩ <;> rw [h] <;> simp
  have vm : (calcMasso rho D.rvol tc).get e = fin m := by
    rw [hm, masso_value (by unfold DA.dimNames; rw [dd1]; exact pd1.1) (WF_zip wrho wrv _) (by rw [dd1]; exact pd1.2)
      (x := x)]
    · simp only [D.vol_get, t3]
    · intro a ha ha'
      obtain ⟨i1, i2, i3⟩ := inb ha
      rcases volFN a i1 i2 i3 with h | ⟨v, h⟩
      · exact Or.inl h
      · refine Or.inr ⟨⟨v, h⟩, ?_⟩
        have hne : vol.get (Function.update a tc 0) ≠ nan := by rw [← t3, ← D.vol_get, h]; simp
        have := (hx a (by rw [ha' tc (by simp [n1, n2, n3])]; exact het) i1 i2 i3 hne).1
        rw [hrho, DA.get_zip3, gt', gs', hpv, this]
  have vm0 : (calcMasso D.rrho D.rvol tc).get e = fin m0 := by
    rw [hm0, masso_value (by unfold DA.dimNames; rw [dd0]; exact pd0.1) (WF_zip wrr wrv _) (by rw [dd0]; exact pd0.2)
      (x := x0)]
    · simp only [D.vol_get, t3]
    · intro a ha ha'
      obtain ⟨i1, i2, i3⟩ := inb ha
      rcases volFN a i1 i2 i3 with h | ⟨v, h⟩
      · exact Or.inl h
      · refine Or.inr ⟨⟨v, h⟩, ?_⟩
        have hne : vol.get (Function.update a tc 0) ≠ nan := by rw [← t3, ← D.vol_get, h]; simp
        have := (hx0 a (by rw [ha' tc (by simp [n1, n2, n3])]; exact het) i1 i2 i3 hne).1
        rw [D.rho_eq, DA.get_zip3, D.th_get, D.so_get, hpv, t1, t2, this]
  have vA : area.sumAll.get e = fin A := by
    rw [hA, DA.get_sumAll (by unfold DA.dimNames; rw [g.aread]; simp [n6]) warea, g.aread]
    intro a ha
    obtain ⟨A, -, h⟩ := C.area_pos a ha
    rw [h]; simp
  have vg : L.rhoga.get e = fin (m0 / V) := by
    rw [t8, DA.get_div, vm0, vV, fin_div_of_ne _ pV.ne']
  refine ⟨vg, ?_⟩
  rw [L.res_get, L.height_get, vg, t5, vm, t6, vV, t7, vA, fin_div_of_ne _ pA.ne', fin_div_of_ne _ pV.ne',
    fin_div_of_ne _ (by positivity)]
  have hpos : 0 < m0 / V / (m / V) := by positivity
  show fin (V / A) * (if 0 < m0 / V / (m / V) then fin (Real.log (m0 / V / (m / V))) else _) = _
  rw [if_pos hpos, fin_mul]
  congr 3
  field_simp

/-- The area integral of the local heights. -/
theorem local_integral (g : GoodData d tc zc zb zid yc xc nt n ny nx lev ifc th so vol area depth zi patm)
    (hc : defaultCoords cn = .ok (tc, zc, zb))
    (hL : steric d .none cn none rhozero patm eos variant domain strict = .ok (rl, refl)) (hd : domain ≠ "global")
    (hρ : rhozero = fin ρ0)
    (C : FilledCells tc zc n ifc vol area depth) (hf : eosFuncFromStr eos "density" = .ok f) {x x0 : Env → ℝ}
    (hx : ∀ e, e tc < nt → e zc < n → e yc < ny → e xc < nx → vol.get (Function.update e tc 0) ≠ nan →
      f (th.get (if variant = "halosteric" then Function.update e tc 0 else e))
        (so.get (if variant = "thermosteric" then Function.update e tc 0 else e))
        (fin (lev (e zc) * 10 ^ 4) + patm.get e) = fin (x e))
    (hx0 : ∀ e, e tc < nt → e zc < n → e yc < ny → e xc < nx → vol.get (Function.update e tc 0) ≠ nan →
      f (th.get (Function.update e tc 0)) (so.get (Function.update e tc 0))
        (fin (lev (e zc) * 10 ^ 4) + patm.get e) = fin (x0 e)) :
    ∃ a, rl.getVar variant = .ok a ∧ ρ0 ≠ 0 ∧ ∀ e, e tc < nt →
      Spec.sumOver [(yc, ny), (xc, nx)] (fun i => val0 (area.get i) * val0 (a.get i)) e
        = -(1 / ρ0) * (Spec.sumOver [(zc, n), (yc, ny), (xc, nx)]
          (fun a => val0 (vol.get (Function.update a tc 0)) * x a) e - Spec.sumOver [(zc, n), (yc, ny), (xc, nx)]
          (fun a => val0 (vol.get (Function.update a tc 0)) * x0 a) e) := by
  obtain ⟨a, a1, hρ0, a2⟩ := local_value hL hd hc g.grid hρ g.hth g.hso g.hvol hf
    (fun e k => fin (lev k * 10 ^ 4) + patm.get (cell zc e k)) (fun _ _ _ => rfl)
  have nd := g.names
  simp only [List.nodup_cons, List.mem_cons, not_or, List.not_mem_nil, or_false] at nd
  obtain ⟨⟨n1, n2, n3⟩, ⟨n4, n5⟩, n6, -⟩ := nd
  refine ⟨a, a1, hρ0, fun e het => ?_⟩
  rw [sumOver_levels (by simp [n4, n5]), sumOver_levels (by simp [n4, n5])]
  have hsub : ∀ F G : Env → ℝ, Spec.sumOver [(yc, ny), (xc, nx)] F e - Spec.sumOver [(yc, ny), (xc, nx)] G e
      = Spec.sumOver [(yc, ny), (xc, nx)] (fun i => F i - G i) e := by
    intro F G
    simp only [Spec.sumOver, Finset.sum_sub_distrib]
  rw [hsub, ← sumOver_mul]
  refine sumOver_congr (by simp [n6]) (fun i h1 h2 => ?_)
  have iy : i yc < ny := h1 (yc, ny) (by simp)
  have ix : i xc < nx := h1 (xc, nx) (by simp)
  have it : i tc < nt := by rw [h2 tc (by simp [n2, n3])]; exact het
  have hb := filled_area g.names g.aread C iy ix
  have hdb : depth.InBounds i := by
    intro p hp; rw [g.depthd, ← g.aread] at hp; exact hb p hp
  have wet : ∀ k < n, ∀ y : Env, y = cell zc i k → y tc < nt ∧ y zc < n ∧ y yc < ny ∧ y xc < nx := by
    rintro k hk y rfl
    simp [cell, n1, Ne.symm n4, Ne.symm n5, hk, iy, ix, it]
  have A := a2 i hdb (fun k => x (cell zc i k)) (fun k => x0 (cell zc i k))
    (fun k hk hw => by
      obtain ⟨w1, w2, w3, w4⟩ := wet k hk _ rfl
      have := hx (cell zc i k) w1 w2 w3 w4 hw
      rwa [show (cell zc i k) zc = k by simp [cell]] at this)
    (fun k hk hw => by
      obtain ⟨w1, w2, w3, w4⟩ := wet k hk _ rfl
      have := hx0 (cell zc i k) w1 w2 w3 w4 hw
      rwa [show (cell zc i k) zc = k by simp [cell]] at this)
  rw [← Finset.sum_sub_distrib, A]
  by_cases ht : vol.get (cell0 tc zc i 0) = nan
  · rw [if_pos ht]
    have : ∀ k ∈ Finset.range n, val0 (vol.get (cell0 tc zc i k)) * x (cell zc i k)
        - val0 (vol.get (cell0 tc zc i k)) * x0 (cell zc i k) = 0 := by
      intro k hk
      rw [C.top i hb ht k (Finset.mem_range.1 hk)]
      simp
    rw [Finset.sum_eq_zero this]
    simp
  · rw [if_neg ht]
    show val0 (area.get i) * (-(1 / ρ0) * _) = _
    rw [mul_left_comm, Finset.mul_sum]
    congr 1
    refine Finset.sum_congr rfl (fun k hk => ?_)
    rcases C.cells i hb k (Finset.mem_range.1 hk) with h | h
    · rw [if_pos h]
      show _ = val0 (vol.get (cell0 tc zc i k)) * _ - val0 (vol.get (cell0 tc zc i k)) * _
      rw [h]; simp
    · rw [if_neg (by rw [h]; simp)]
      show _ = val0 (vol.get (cell0 tc zc i k)) * _ - val0 (vol.get (cell0 tc zc i k)) * _
      rw [h]
      show _ = _ * thickness ifc (val0 (depth.get i)) k * x (cell zc i k) - _
      simp only [val0]
      ring

/-- The global height `G` lies between the area mean `M` of the local heights scaled with the mean density of the
reference, `ρ₀ M / g`, and scaled with the mean density of the time, `ρ₀ M / g'`. -/
theorem C99_mean (g : GoodData d tc zc zb zid yc xc nt n ny nx lev ifc th so vol area depth zi patm)
    (hc : defaultCoords cn = .ok (tc, zc, zb))
    (hL : steric d .none cn none rhozero patm eos variant domain strict = .ok (rl, refl)) (hd : domain ≠ "global")
    {rz : Fl ℝ} {strict' : Bool}
    (hG : steric d .none cn none rz patm eos variant "global" strict' = .ok (rg, refg))
    (hρ : rhozero = fin ρ0) (wth : th.WF) (wso : so.WF) (wvol : vol.WF) (warea : area.WF) (wpat : patm.WF)
    (C : FilledCells tc zc n ifc vol area depth) (hf : eosFuncFromStr eos "density" = .ok f) {x x0 : Env → ℝ}
    (hx : ∀ e, e tc < nt → e zc < n → e yc < ny → e xc < nx → vol.get (Function.update e tc 0) ≠ nan →
      f (th.get (if variant = "halosteric" then Function.update e tc 0 else e))
        (so.get (if variant = "thermosteric" then Function.update e tc 0 else e))
        (fin (lev (e zc) * 10 ^ 4) + patm.get e) = fin (x e) ∧ 0 < x e)
    (hx0 : ∀ e, e tc < nt → e zc < n → e yc < ny → e xc < nx → vol.get (Function.update e tc 0) ≠ nan →
      f (th.get (Function.update e tc 0)) (so.get (Function.update e tc 0))
        (fin (lev (e zc) * 10 ^ 4) + patm.get e) = fin (x0 e) ∧ 0 < x0 e) :
    ∃ a b rhoga, rl.getVar variant = .ok a ∧ rg.getVar variant = .ok b ∧ refg.getVar "rhoga" = .ok rhoga ∧
      ∀ e, e tc < nt → ∃ A V M G gr gt : ℝ, 0 < A ∧ 0 < V ∧ 0 < gr ∧ 0 < gt ∧
        A = Spec.sumOver [(yc, ny), (xc, nx)] (fun i => val0 (area.get i)) e ∧
        V = Spec.sumOver [(zc, n), (yc, ny), (xc, nx)] (fun i => val0 (vol.get (Function.update i tc 0))) e ∧
        M * A = Spec.sumOver [(yc, ny), (xc, nx)] (fun i => val0 (area.get i) * val0 (a.get i)) e ∧
        gt * V = Spec.sumOver [(zc, n), (yc, ny), (xc, nx)]
          (fun i => val0 (vol.get (Function.update i tc 0)) * x i) e ∧
        b.get e = fin G ∧ rhoga.get e = fin gr ∧
        ρ0 * M = V / A * (gr - gt) ∧ G = V / A * Real.log (gr / gt) ∧
        ρ0 * M / gr ≤ G ∧ G ≤ ρ0 * M / gt := by
  obtain ⟨a, a1, hρ0, a2⟩ := local_integral g hc hL hd hρ C hf (fun e h1 h2 h3 h4 h5 => (hx e h1 h2 h3 h4 h5).1)
    (fun e h1 h2 h3 h4 h5 => (hx0 e h1 h2 h3 h4 h5).1)
  obtain ⟨b, rhoga, b1, b2, b3⟩ := global_value g hc hG wth wso wvol warea wpat C hf hx hx0
  refine ⟨a, b, rhoga, a1, b1, b2, fun e het => ?_⟩
  have pm : 0 < Spec.sumOver [(zc, n), (yc, ny), (xc, nx)]
      (fun a => val0 (vol.get (Function.update a tc 0)) * x a) e :=
    filled_pos g.names g.aread C g.vold wvol (fun i h0 h1 h2 h3 h4 => (hx i (h0 ▸ het) h1 h2 h3 h4).2)
  have pm0 : 0 < Spec.sumOver [(zc, n), (yc, ny), (xc, nx)]
      (fun a => val0 (vol.get (Function.update a tc 0)) * x0 a) e :=
    filled_pos g.names g.aread C g.vold wvol (fun i h0 h1 h2 h3 h4 => (hx0 i (h0 ▸ het) h1 h2 h3 h4).2)
  have pV : 0 < Spec.sumOver [(zc, n), (yc, ny), (xc, nx)] (fun a => val0 (vol.get (Function.update a tc 0))) e := by
    have := filled_pos g.names g.aread C g.vold wvol (e := e) (y := fun _ => 1) (fun _ _ _ _ _ _ => one_pos)
    simpa using this
  have pA : 0 < Spec.sumOver [(yc, ny), (xc, nx)] (fun a => val0 (area.get a)) e :=
    filled_area_pos g.names g.aread C
  obtain ⟨v1, v2⟩ := b3 e het _ _ _ _ rfl rfl rfl rfl pA pV pm pm0
  have v3 := a2 e het
  generalize Spec.sumOver [(zc, n), (yc, ny), (xc, nx)]
      (fun a => val0 (vol.get (Function.update a tc 0)) * x a) e = m at *
  generalize Spec.sumOver [(zc, n), (yc, ny), (xc, nx)]
      (fun a => val0 (vol.get (Function.update a tc 0)) * x0 a) e = m0 at *
  generalize Spec.sumOver [(zc, n), (yc, ny), (xc, nx)] (fun a => val0 (vol.get (Function.update a tc 0))) e = V at *
  generalize Spec.sumOver [(yc, ny), (xc, nx)] (fun a => val0 (area.get a)) e = A at *
  generalize Spec.sumOver [(yc, ny), (xc, nx)] (fun i => val0 (area.get i) * val0 (a.get i)) e = I at *
  have e1 : ρ0 * (I / A) = V / A * (m0 / V - m / V) := by
    rw [v3]; field_simp; ring
  have e2 : m0 / V / (m / V) = m0 / m := by field_simp
  have hl := log_between (u := m / m0) (by positivity)
  rw [one_div_div] at hl
  refine ⟨A, V, I / A, V / A * Real.log (m0 / m), m0 / V, m / V, pA, pV, by positivity, by positivity, rfl, rfl,
    by field_simp, by field_simp, v2, v1, e1, by rw [e2], ?_, ?_⟩
  · rw [e1]
    have : V / A * (m0 / V - m / V) / (m0 / V) = V / A * (1 - m / m0) := by field_simp
    rw [this]
    exact mul_le_mul_of_nonneg_left hl.1 (by positivity)
  · rw [e1]
    have : V / A * (m0 / V - m / V) / (m / V) = V / A * (m0 / m - 1) := by field_simp
    rw [this]
    exact mul_le_mul_of_nonneg_left hl.2 (by positivity)

end
/-- The dataset `exD` with volumes that are area times thickness. -/
noncomputable def mhV : DA (Fl ℝ) := ⟨exDims, fun e => if e "xh" = 0 then fin (90277730000000 * 1000) else nan⟩
noncomputable def mhD : DS (Fl ℝ) := ⟨[("thetao", exT), ("so", exS), ("volcello", mhV), ("areacello", exA),
  ("deptho", exDepth), ("z_l", exZ), ("z_i", exZi)], ["z_l", "z_i"]⟩

theorem mhGood : GoodData mhD "time" "z_l" "z_i" "z_i" "yh" "xh" 2 2 2 2 (fun k => 500 + 1000 * (k : ℝ))
    (fun k => 1000 * (k : ℝ)) exT exS mhV exA exDepth exZi (DA.scalar (fin 101325)) where
  names := by decide
  hnt := by norm_num
  hn := by norm_num
  hny := by norm_num
  hnx := by norm_num
  hth := rfl
  hso := rfl
  hvol := rfl
  harea := rfl
  hzb := rfl
  thd := rfl
  sod := rfl
  vold := rfl
  aread := rfl
  depthd := rfl
  grid :=
    { grid := exGrid.grid
      hdepth := rfl
      bathy := exGrid.bathy
      hz := exGrid.hz
      coord := by simp [mhD, DS.names] }
  alone := by simp [mhD, exZ, exZi, DA.dimNames]
  patmd := by simp

theorem mhFilled : FilledCells "time" "z_l" 2 (fun k => 1000 * (k : ℝ)) mhV exA exDepth where
  area_pos := fun e _ => ⟨90277730000000, by norm_num, rfl⟩
  cells := by
    intro e _ k hk
    by_cases h : e "xh" = 0
    · right
      have hv : mhV.get (cell0 "time" "z_l" e k) = fin (90277730000000 * 1000) := by simp [mhV, h]
      rw [hv]
      have : k = 0 ∨ k = 1 := by omega
      rcases this with rfl | rfl <;> norm_num [exA, exDepth, h, thickness, Spec.overlap]
    · left
      simp [mhV, h]
  top := by
    intro e _ h k _
    by_cases h' : e "xh" = 0
    · simp [mhV, h'] at h
    · simp [mhV, h']
  some_wet := ⟨fun _ => 0, by simp [DA.InBounds, exA], 0, by norm_num, by simp [mhV]⟩

/-- The bounds of `C99_mean` for this dataset, Wright's equation and the steric variant. -/
example : ∃ rl refl rg refg a b rhoga,
    steric mhD .none .none none (fin 1035) (DA.scalar (fin 101325)) "Wright" "steric" "local" true
      = .ok (rl, refl) ∧
    steric mhD .none .none none (fin 1035) (DA.scalar (fin 101325)) "Wright" "steric" "global" true
      = .ok (rg, refg) ∧
    rl.getVar "steric" = .ok a ∧ rg.getVar "steric" = .ok b ∧ refg.getVar "rhoga" = .ok rhoga ∧
    ∀ e, e "time" < 2 → ∃ M G gr gt : ℝ, 0 < gr ∧ 0 < gt ∧ b.get e = fin G ∧ rhoga.get e = fin gr ∧
      M * (4 * 90277730000000) = Spec.sumOver [("yh", 2), ("xh", 2)] (fun i => 90277730000000 * val0 (a.get i)) e ∧
      1035 * M / gr ≤ G ∧ G ≤ 1035 * M / gt := by
  have run := fun domain => C30_success (domain := domain) (variant := "steric") (eos := "Wright")
    (rhozero := fin 1035) (strict := true) mhGood exC (by simp) (Or.inl wright_case) (by simp) (fun _ => exArea)
  obtain ⟨⟨rl, refl⟩, hL⟩ := run "local"
  obtain ⟨⟨rg, refg⟩, hG⟩ := run "global"
  have ocean : ∀ t k : Nat, t < 2 → k < 2 → Spec.Wright.Ocean (10 + 5 * (t : ℝ)) (34 + (t : ℝ))
      ((500 + 1000 * (k : ℝ)) * 10 ^ 4 + 101325) := by
    intro t k ht hk
    have h1 : t = 0 ∨ t = 1 := by omega
    have h2 : k = 0 ∨ k = 1 := by omega
    rcases h1 with rfl | rfl <;> rcases h2 with rfl | rfl <;> norm_num [Spec.Wright.Ocean]
  have pos : ∀ {T S p : ℝ}, Spec.Wright.Ocean T S p → 0 < Spec.Wright.rho T S p := by
    intro T S p h
    have := (C03_pos h).2
    rwa [C01_density_formula] at this
  obtain ⟨a, b, rhoga, h1, h2, h3, h4⟩ := C99_mean mhGood exC hL (by decide) hG rfl (fun e e' h => by
      have := h "time" (by simp [exT, exDims, DA.dimNames]); simp [exT, this]) (fun e e' h => by
      have := h "time" (by simp [exS, exDims, DA.dimNames]); simp [exS, this]) (fun e e' h => by
      have := h "xh" (by simp [mhV, exDims, DA.dimNames]); simp [mhV, this]) (fun _ _ _ => rfl)
      (fun _ _ _ => rfl) mhFilled (wright_eos wright_case)
      (x := fun e => Spec.Wright.rho (10 + 5 * (e "time" : ℝ)) (34 + (e "time" : ℝ))
        ((500 + 1000 * (e "z_l" : ℝ)) * 10 ^ 4 + 101325))
      (x0 := fun e => Spec.Wright.rho 10 34 ((500 + 1000 * (e "z_l" : ℝ)) * 10 ^ 4 + 101325))
      (fun e h1 h2 h3 h4 h5 => by
        have := ocean _ _ h1 h2
        refine ⟨?_, pos this⟩
        rw [if_neg (by decide), if_neg (by decide), DA.get_scalar, fin_add]
        exact wright_float this)
      (fun e h1 h2 h3 h4 h5 => by
        have := ocean 0 _ (by norm_num) h2
        simp only [Nat.cast_zero, mul_zero, add_zero] at this
        refine ⟨?_, pos this⟩
        rw [DA.get_scalar, fin_add]
        have e1 : exT.get (Function.update e "time" 0) = fin 10 := by simp [exT]
        have e2 : exS.get (Function.update e "time" 0) = fin 34 := by simp [exS]
        rw [e1, e2]
        exact wright_float this)
  refine ⟨rl, refl, rg, refg, a, b, rhoga, hL, hG, h1, h2, h3, fun e he => ?_⟩
  obtain ⟨A, V, M, G, gr, gt, -, -, p1, p2, q1, -, q2, -, q3, q4, -, -, q5, q6⟩ := h4 e he
  refine ⟨M, G, gr, gt, p1, p2, q3, q4, ?_, q5, q6⟩
  have hA : A = 4 * 90277730000000 := by
    rw [q1]; simp [Spec.sumOver, exA]; norm_num
  rw [← hA, q2]
  rfl

end Momlevel.Props
