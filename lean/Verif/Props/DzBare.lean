import Verif.Model.DzBare
import Verif.Props.NoDepths
import Verif.Props.Dz

/-! # C138: layer thicknesses and local sea level without depths -/

set_option linter.unusedSectionVars false

namespace Momlevel.Props
open Momlevel Momlevel.Fl Momlevel.Eos Momlevel.Spec

section
variable {levels interfaces depth : DA (Fl ℝ)} {z zi : String} {n m : ℕ} {lev ifc : ℕ → ℝ}

/-- Levels and interfaces as in `DzGrid`, of unrelated lengths. -/
structure BareGrid (levels interfaces : DA (Fl ℝ)) (z zi : String) (n m : ℕ) (lev ifc : ℕ → ℝ) : Prop where
  ldims : levels.dims = [(z, n)]
  lget : ∀ e, levels.get e = fin (lev (e z))
  lnonneg : ∀ k < n, 0 ≤ lev k
  idims : interfaces.dims = [(zi, m + 1)]
  iget : ∀ e, interfaces.get e = fin (ifc (e zi))
  inonneg : 0 ≤ ifc 0
  imono : ∀ k < m, ifc k ≤ ifc (k + 1)

/-- `calc_dz` of levels without coordinates is that of levels along "dim_0", repeated at every level. -/
theorem C138_repeated (g : BareGrid levels interfaces z zi n m lev ifc) (hb : Bathy depth)
    (hz : z ∉ depth.dimNames) (h0 : "dim_0" ∉ depth.dimNames) (hz0 : z ≠ "dim_0")
    (top : ℝ) (bottom : Option ℝ) (fraction : Bool) :
    ∃ r r', calcDzBare levels interfaces depth (fin top) (bottom.map fin) fraction = .ok r ∧
      calcDz ⟨[("dim_0", m)], fun _ => fin 0⟩ interfaces depth (fin top) (bottom.map fin) fraction = .ok r' ∧
      r.dims = depth.dims ++ [("dim_0", m), (z, n)] ∧ r'.dims = depth.dims ++ [("dim_0", m)] ∧
      ∀ e, r.get e = r'.get e := by
  have g' : DzGrid (⟨[("dim_0", m)], fun _ => fin 0⟩ : DA (Fl ℝ)) interfaces "dim_0" zi m (fun _ => 0) ifc :=
    ⟨rfl, fun _ => rfl, fun _ _ => le_rfl, g.idims, g.iget, g.inonneg, g.imono⟩
  obtain ⟨r', h1, h2, -⟩ := calcDz_ok g' hb top bottom fraction h0
  have a1 : (depth.map (Fl.fillna (.fin 0))).all (fun d => Fl.le (.fin 0) d) = true := by
    rw [DA.all_iff (DA.WF_map hb.wf _) hb.nodup]
    intro e he
    rcases hb.vals e he with h | ⟨x, hx, h⟩
    · simp [h]
    · simpa [h] using hx
  have a2 := all_levels g.ldims g.lget g.lnonneg
  have a2' : (⟨[("dim_0", m)], fun _ => fin 0⟩ : DA (Fl ℝ)).all (fun d => Fl.le (.fin 0) d) = true :=
    all_levels g'.ldims g'.lget g'.lnonneg
  have a3 := all_levels g.idims g.iget (fun k hk => g'.ifc_nonneg k (by omega))
  have hdm : ∀ b : Option (Fl ℝ), (limitDepth depth b).dims = depth.dims := by
    intro b; cases b <;> rfl
  have b1 : DA.bdims depth.dims [("dim_0", m)] = depth.dims ++ [("dim_0", m)] := by
    apply DA.bdims_disjoint
    intro p hp
    simp only [List.mem_singleton] at hp
    subst hp
    exact h0
  have b2 : DA.bdims [(z, n)] depth.dims = (z, n) :: depth.dims := by
    have := DA.bdims_disjoint (a := [(z, n)]) (b := depth.dims) (by
      intro p hp hq
      simp only [List.map_cons, List.map_nil, List.mem_singleton] at hq
      exact hz (hq ▸ List.mem_map_of_mem hp))
    simpa using this
  have b3 : DA.bdims ((z, n) :: depth.dims) (depth.dims ++ [("dim_0", m)])
      = (z, n) :: (depth.dims ++ [("dim_0", m)]) := by
    unfold DA.bdims
    have hnil : depth.dims.filter (fun p => !(((z, n) :: depth.dims).map Prod.fst).contains p.1) = [] := by
      rw [List.filter_eq_nil_iff]
      intro p hp
      have : p.1 ∈ ((z, n) :: depth.dims).map Prod.fst := List.mem_map_of_mem (List.mem_cons_of_mem _ hp)
      rw [List.contains_iff_mem.2 this]
      simp
    rw [List.filter_append, hnil]
    · have : ("dim_0" == z) = false := beq_eq_false_iff_ne.2 (Ne.symm hz0)
      have h0' : ∀ x, ("dim_0", x) ∉ depth.dims := fun x hx => h0 (List.mem_map_of_mem hx)
      simp [h0', Ne.symm hz0]
  have b4 : DA.bdims ((z, n) :: (depth.dims ++ [("dim_0", m)])) (depth.dims ++ [("dim_0", m)])
      = (z, n) :: (depth.dims ++ [("dim_0", m)]) := by
    apply DA.bdims_eq_left
    intro p hp
    exact List.mem_cons_of_mem _ hp
  have b5 : DA.bdims (depth.dims ++ [("dim_0", m)]) ((z, n) :: (depth.dims ++ [("dim_0", m)]))
      = depth.dims ++ [("dim_0", m), (z, n)] := by
    unfold DA.bdims
    have hzm : ((depth.dims ++ [("dim_0", m)]).map Prod.fst).contains z = false := by
      have : z ∉ (depth.dims ++ [("dim_0", m)]).map Prod.fst := by
        rw [List.map_append, List.mem_append]
        rintro (h | h)
        · exact hz h
        · simp only [List.map_cons, List.map_nil, List.mem_singleton] at h
          exact hz0 h
      simpa using this
    rw [List.filter_cons, if_pos (by simpa using hzm), List.filter_eq_nil_iff.2]
    · simp
    · intro p hp
      have : p.1 ∈ (depth.dims ++ [("dim_0", m)]).map Prod.fst := List.mem_map_of_mem hp
      rw [List.contains_iff_mem.2 this]
      simp
  have b6 : DA.bdims (depth.dims ++ [("dim_0", m)]) (depth.dims ++ [("dim_0", m)])
      = depth.dims ++ [("dim_0", m)] := DA.bdims_eq_left (fun _ h => h)
  have b7 : DA.bdims (depth.dims ++ [("dim_0", m)]) [] = depth.dims ++ [("dim_0", m)] :=
    DA.bdims_eq_left (by simp)
  have b8 : DA.bdims (depth.dims ++ [("dim_0", m), (z, n)]) (depth.dims ++ [("dim_0", m)])
      = depth.dims ++ [("dim_0", m), (z, n)] := by
    apply DA.bdims_eq_left
    intro p hp
    simp only [List.mem_append, List.mem_cons, List.not_mem_nil, or_false] at hp ⊢
    tauto
  have hne : ¬ (m + 1 - 1 ≠ m) := by simp
  have hm1 : m + 1 - 1 = m := by simp
  cases fraction with
  | false =>
    simp only [calcDz, a1, a2', a3, pyAssert_true, ok_bind, g.idims, if_neg hne, Bool.false_eq_true, if_false] at h1
    refine ⟨_, r', by
      simp only [calcDzBare, a1, a2, a3, pyAssert_true, ok_bind, g.ldims, g.idims, Bool.false_eq_true, if_false]
      rfl, ?_, ?_, h2, ?_⟩
    · simp only [calcDz, a1, a2', a3, pyAssert_true, ok_bind, g.idims, if_neg hne, Bool.false_eq_true, if_false]
      exact h1
    · simp only [DA.dims_zip, DA.dims_map, DA.dims_sub, DA.dims_scalar, hdm, hm1, b1, b2, b3, b4, b5, b6, b7]
    · intro e
      cases h1
      rfl
  | true =>
    simp only [calcDz, a1, a2', a3, pyAssert_true, ok_bind, g.idims, if_neg hne, if_true] at h1
    refine ⟨_, r', by
      simp only [calcDzBare, a1, a2, a3, pyAssert_true, ok_bind, g.ldims, g.idims, if_true]
      rfl, ?_, ?_, h2, ?_⟩
    · simp only [calcDz, a1, a2', a3, pyAssert_true, ok_bind, g.idims, if_neg hne, if_true]
      exact h1
    · simp only [DA.dims_zip, DA.dims_map, DA.dims_sub, DA.dims_div, DA.dims_scalar, hdm, hm1, b1, b2, b3, b4, b5, b6, b7,
        b8]
    · intro e
      cases h1
      rfl

/-- With the default arguments: a four-dimensional array whose values do not depend on the level. -/
theorem C138_dz (g : BareGrid levels interfaces z zi n m lev ifc) (hb : Bathy depth)
    (hz : z ∉ depth.dimNames) (h0 : "dim_0" ∉ depth.dimNames) (hz0 : z ≠ "dim_0") :
    ∃ r, calcDzBare levels interfaces depth = .ok r ∧ r.dims = depth.dims ++ [("dim_0", m), (z, n)] ∧
      ∀ e, depth.InBounds e → e "dim_0" < m → r.get e
        = fin (Spec.overlap (ifc (e "dim_0")) (ifc (e "dim_0" + 1)) (ifc 0) (val0 (depth.get e))) := by
  have g' : DzGrid (⟨[("dim_0", m)], fun _ => fin 0⟩ : DA (Fl ℝ)) interfaces "dim_0" zi m (fun _ => 0) ifc :=
    ⟨rfl, fun _ => rfl, fun _ _ => le_rfl, g.idims, g.iget, g.inonneg, g.imono⟩
  obtain ⟨r, r', h1, h2, h3, -, h4⟩ := C138_repeated g hb hz h0 hz0 0 none false
  obtain ⟨r'', k1, -, k2⟩ := C08_cell g' hb h0
  cases h2.symm.trans k1
  refine ⟨r, h1, h3, fun e he hk => ?_⟩
  obtain ⟨v, v1, v2, -⟩ := k2 e he hk
  rw [h4, v1, v2]

end

variable {d r ref : DS (Fl ℝ)} {reference : RefArg ℝ} {cn : DictArg} {rhozero : Fl ℝ} {patm : DA (Fl ℝ)}
  {eos variant : String} {strict : Bool} {tc zc zb : String}

theorem stericBare_ok (h : stericBare d reference cn rhozero patm eos variant strict = .ok (r, ref))
    (hc : defaultCoords cn = .ok (tc, zc, zb)) :
    ∃ pres th so rho, validateDataset d false strict (.list [zb, "deptho"]) = .ok () ∧
      pressureField d zc patm = .ok pres ∧ chooseReference d reference patm eos cn = .ok ref ∧
      validateDataset ref true strict = .ok () ∧ stericFields d ref variant = .ok (th, so) ∧
      calcRho th so pres eos = .ok rho ∧ stericLocalBare d ref rho tc zc zb rhozero variant = .ok r := by
  simp only [stericBare, hc, ok_bind, bind_ok, pure_ok] at h
  obtain ⟨⟨⟩, h3, pres, h4, ref', h5, ⟨⟩, h6, ⟨th, so⟩, h7, rho, h8, r', h9, h10⟩ := h
  cases h10
  exact ⟨pres, th, so, rho, h3, h4, h5, h6, h7, h8, h9⟩

theorem size_bare (l : List (String × ℕ)) (z : String) (n m : ℕ) (hz : z ∉ l.map Prod.fst) (hz0 : z ≠ "dim_0")
    (k : List (String × ℕ)) (g : Env → Fl ℝ) :
    (⟨DA.bdims (l ++ [("dim_0", m), (z, n)]) k, g⟩ : DA (Fl ℝ)).size z = n := by
  have := size_append_single (l ++ [("dim_0", m)]) z n (by
    rw [List.map_append, List.mem_append]
    rintro (h | h)
    · exact hz h
    · simp only [List.map_cons, List.map_nil, List.mem_singleton] at h
      exact hz0 h) k g
  simpa using this

/-- Local sea level without depths: the result has the extra dimension "dim_0", and its entry number `j` there is
the thickness of layer `j` times the sum of the density changes of all levels. -/
theorem C138_local (h : stericBare d reference cn rhozero patm eos variant strict = .ok (r, ref))
    (hc : defaultCoords cn = .ok (tc, zc, zb)) {n m : ℕ} {ifc : ℕ → ℝ} {zid : String} {zi depth : DA (Fl ℝ)}
    (hn : (d.vars.flatMap (fun p => p.2.dims)).lookup zc = some n) (hzc : d.vars.lookup zc = none)
    (hzi : d.vars.lookup zb = some zi) (idims : zi.dims = [(zid, m + 1)]) (iget : ∀ e, zi.get e = fin (ifc (e zid)))
    (i0 : 0 ≤ ifc 0) (imono : ∀ k < m, ifc k ≤ ifc (k + 1)) (hdep : d.vars.lookup "deptho" = some depth)
    (hb : Bathy depth) (hz : zc ∉ depth.dimNames) (h0 : "dim_0" ∉ depth.dimNames) (hz0 : zc ≠ "dim_0")
    (ht0 : tc ≠ "dim_0") {ρ0 : ℝ} (hρ : rhozero = fin ρ0) :
    ∃ a dr vol, r.getVar variant = .ok a ∧ r.getVar "delta_rho" = .ok dr ∧ ref.getVar "volcello" = .ok vol ∧
      ρ0 ≠ 0 ∧ ("dim_0", m) ∈ a.dims ∧
      ∀ e, depth.InBounds e → e "dim_0" < m → (∀ k < n, FN (dr.get (Function.update e zc k))) →
        a.get e = if vol.get (Function.update e zc 0) = nan then nan else
          fin (-(1 / ρ0) * (thickness ifc (val0 (depth.get e)) (e "dim_0")
            * ∑ k ∈ Finset.range n, val0 (dr.get (Function.update e zc k)))) := by
  obtain ⟨pres, th, so, rho, -, -, -, -, h7, -, h9⟩ := stericBare_ok h hc
  have hv := variant_mem h7
  have hne : (variant == "delta_rho") = false := by
    rw [beq_eq_false_iff_ne]
    rintro rfl; simp at hv
  have ez : d.getItem zc = .ok ⟨[(zc, n)], fun e => fin (e zc)⟩ := by
    unfold DS.getItem; rw [hzc, hn]
  have ezi : d.getItem zb = .ok zi := by unfold DS.getItem; rw [hzi]
  have edep : d.getVar "deptho" = .ok depth := by unfold DS.getVar; rw [hdep]
  obtain ⟨dz, k1, k2, k3⟩ := C138_dz (z := zc) (n := n) (lev := fun k => (k : ℝ))
    (levels := ⟨[(zc, n)], fun e => fin (e zc)⟩)
    ⟨rfl, fun _ => rfl, fun k _ => Nat.cast_nonneg k, idims, iget, i0, imono⟩ hb hz h0 hz0
  simp only [stericLocalBare, bind_ok, pure_ok, ez, ezi, edep, Except.ok.injEq] at h9
  obtain ⟨rvol, h1, rrho, h2, dr, h3, z', rfl, zi', rfl, dep', rfl, dz', hdz, ⟨⟩, -, coef, h8, tot, h9, sl, h10,
    top, h11, rfl⟩ := h9
  rw [k1] at hdz
  cases hdz
  obtain ⟨t1, t2, t3⟩ := transposeE_ok h3
  obtain ⟨s1, rfl⟩ := sumDimE_ok h9
  obtain ⟨-, u2, u3⟩ := transposeE_ok h10
  obtain ⟨-, rfl⟩ := iselE_ok h11
  obtain ⟨hρ0, hcoef⟩ := (coef_fin h8).1 ρ0 hρ
  have hsz : (dz * dr).size zc = n := by
    have : (dz * dr) = ⟨DA.bdims (depth.dims ++ [("dim_0", m), (zc, n)]) dr.dims, (dz * dr).get⟩ := by
      rw [← k2]; rfl
    rw [this]
    exact size_bare _ _ _ _ hz hz0 _ _
  refine ⟨DA.zip (fun s v => Fl.sel (Fl.notnull v) s .nan) sl (rvol.isel zc 0), dr, rvol, ?_, rfl, h1, hρ0, ?_, ?_⟩
  · rw [getVar_lookup]
    simp [List.lookup_cons, hne]
  · have a1 : ("dim_0", m) ∈ (dz * dr).dims := by
      show ("dim_0", m) ∈ DA.bdims dz.dims dr.dims
      unfold DA.bdims
      rw [k2]
      simp
    have a2 : ("dim_0", m) ∈ ((dz * dr).sumDim zc).dims := by
      show ("dim_0", m) ∈ (dz * dr).dims.filter _
      rw [List.mem_filter]
      exact ⟨a1, by simpa using Ne.symm hz0⟩
    have a3 : ("dim_0", m) ∈ sl.dims := by
      rw [u3]
      show ("dim_0", m) ∈ _ ++ _
      rw [List.mem_append, List.mem_filter, List.mem_filter]
      exact .inr ⟨a2, by simpa using Ne.symm ht0⟩
    show ("dim_0", m) ∈ DA.bdims sl.dims _
    unfold DA.bdims
    exact List.mem_append_left _ a3
  · intro e he hj hFN
    have hg : (DA.zip (fun s v => Fl.sel (Fl.notnull v) s .nan) sl (rvol.isel zc 0)).get e
        = Fl.sel (Fl.notnull (rvol.get (Function.update e zc 0))) (coef * nansumN n (fun k =>
          dz.get (Function.update e zc k) * dr.get (Function.update e zc k))) .nan := by
      show Fl.sel _ (sl.get e) .nan = _
      rw [u2, ← hsz]; rfl
    rw [hg]
    by_cases hx : rvol.get (Function.update e zc 0) = nan
    · simp [hx, notnull]
    · rw [if_neg hx]
      have : notnull (rvol.get (Function.update e zc 0)) = true := by
        unfold notnull; rw [(isnull_false_iff _).2 hx]; rfl
      rw [this, sel_true, hcoef]
      have hterm : ∀ k, dz.get (Function.update e zc k) * dr.get (Function.update e zc k)
          = fin (thickness ifc (val0 (depth.get e)) (e "dim_0")) * dr.get (Function.update e zc k) := by
        intro k
        have hj' : (Function.update e zc k) "dim_0" = e "dim_0" := Function.update_of_ne (Ne.symm hz0) _ _
        rw [k3 (Function.update e zc k) (inBounds_upd hz he k) (by rw [hj']; exact hj), hj', depth_upd hb.wf hz]
        rfl
      rw [nansumN_eq]
      · have hs : ∀ k ∈ Finset.range n, val0 (dz.get (Function.update e zc k) * dr.get (Function.update e zc k))
            = thickness ifc (val0 (depth.get e)) (e "dim_0") * val0 (dr.get (Function.update e zc k)) := by
          intro k hk
          rw [hterm k]
          rcases hFN k (Finset.mem_range.1 hk) with h0 | ⟨x, h0⟩ <;> rw [h0] <;> simp
        rw [Finset.sum_congr rfl hs, fin_mul, ← Finset.mul_sum, neg_div]
      · intro k hk
        rw [hterm k]
        rcases hFN k hk with h0 | ⟨x, h0⟩ <;> rw [h0] <;> simp

/-- The run without depths succeeds where the run with the depths 0, 1, 2, … metres does, with the same reference
state and the same change of density. -/
theorem C138_numbers {r' : DS (Fl ℝ)} {n m : ℕ}
    (h : steric (numbered d zc n) reference cn none rhozero patm eos variant "local" strict = .ok (r', ref))
    (hc : defaultCoords cn = .ok (tc, zc, zb)) {ifc : ℕ → ℝ} {zid : String} {zi depth : DA (Fl ℝ)}
    (hn : (d.vars.flatMap (fun p => p.2.dims)).lookup zc = some n) (hzc : d.vars.lookup zc = none)
    (hnames : zc ∉ ["thetao", "so", "volcello", "areacello", "deptho", zb])
    (hzi : d.vars.lookup zb = some zi) (idims : zi.dims = [(zid, m + 1)]) (iget : ∀ e, zi.get e = fin (ifc (e zid)))
    (i0 : 0 ≤ ifc 0) (imono : ∀ k < m, ifc k ≤ ifc (k + 1)) (hdep : d.vars.lookup "deptho" = some depth)
    (hb : Bathy depth) (hz : zc ∉ depth.dimNames) (h0 : "dim_0" ∉ depth.dimNames) (hz0 : zc ≠ "dim_0")
    (htz : tc ≠ zc) (hco : ∀ p ∈ d.vars, p.1 ∈ d.coords → p.2.dimNames = [] ∨ ∃ x ∈ p.2.dimNames, x ≠ zc)
    (hsc : (d.vars.filter (fun p => d.coords.contains p.1 && p.2.dimNames.isEmpty)).length ≠ 1) :
    ∃ r, stericBare d reference cn rhozero patm eos variant strict = .ok (r, ref) ∧
      r.getVar "delta_rho" = r'.getVar "delta_rho" := by
  simp only [List.mem_cons, List.not_mem_nil, or_false, not_or] at hnames
  obtain ⟨z1, z2, z3, z4, z5, z6⟩ := hnames
  have ll : ∀ x, x ≠ zc → (numbered d zc n).vars.lookup x = d.vars.lookup x := fun x hx => numbered_lookup x hx
  have hp : ∀ p, pressureField (numbered d zc n) zc p = pressureField d zc p := by
    intro p
    unfold pressureField
    rw [numbered_getItem hzc hn]
  have rk : ∀ x, x ≠ zc → rankOf (numbered d zc n) x = rankOf d x := by
    intro x hx
    unfold rankOf
    rw [ll x hx]
  have hv : validateDataset (numbered d zc n) false strict (.list [zb, "deptho"]) = .ok ()
      → validateDataset d false strict (.list [zb, "deptho"]) = .ok () := by
    rw [(C34_iff _ false strict _).1, (C34_iff _ false strict _).1]
    rintro ⟨a1, a2, a3, a4, a5, a6⟩
    refine ⟨?_, ?_, ?_, ?_, ?_, by simp⟩
    · intro v hv
      rw [← rk v]
      · exact a1 v hv
      · rintro rfl
        simp only [List.mem_cons, List.not_mem_nil, or_false] at hv
        tauto
    · rw [← rk _ (Ne.symm z4)]; exact a2
    · rw [← rk _ (Ne.symm z5)]; exact a3
    · intro v hv
      rw [← rk v]
      · exact a4 v hv
      · rintro rfl
        simp only [extraVars, List.mem_cons, List.not_mem_nil, or_false] at hv
        tauto
    · rw [← ll _ (Ne.symm z4)]; exact a5
  have hg : ∀ x, x ≠ zc → (numbered d zc n).getVar x = d.getVar x := by
    intro x hx
    unfold DS.getVar
    rw [numbered_lookup x hx]
  have hs : ∀ x i, x ≠ zc → refSlice (numbered d zc n) x tc i = refSlice d x tc i := by
    intro x i hx
    unfold refSlice
    rw [hg x hx]
  have hr : ∀ i, setupReferenceState (numbered d zc n) patm eos cn i = setupReferenceState d patm eos cn i := by
    intro i
    simp only [setupReferenceState, hc, ok_bind, hp, hs _ _ (Ne.symm z1), hs _ _ (Ne.symm z2), hs _ _ (Ne.symm z3),
      DS.getAttr, ll _ (Ne.symm z4)]
  have hch : chooseReference (numbered d zc n) reference patm eos cn = chooseReference d reference patm eos cn := by
    cases reference <;> simp only [chooseReference, hr]
  have hf : ∀ ref, stericFields (numbered d zc n) ref variant = stericFields d ref variant := by
    intro ref
    simp only [stericFields, hg _ (Ne.symm z1), hg _ (Ne.symm z2)]
  obtain ⟨d', tc', zc', zb', pres, th, so, rho, p1, p2, p3, p4, p5, p6, p7, p8, p9⟩ := steric_ok_iff.1 h
  cases p1
  rw [hc] at p2
  cases p2
  rw [if_neg (by decide)] at p3
  rw [hp] at p4
  rw [hch] at p5
  rw [hf] at p7
  have ez : d.getItem zc = .ok ⟨[(zc, n)], fun e => fin (e zc)⟩ := by
    unfold DS.getItem; rw [hzc, hn]
  have ezi : d.getItem zb = .ok zi := by unfold DS.getItem; rw [hzi]
  have edep : d.getVar "deptho" = .ok depth := by unfold DS.getVar; rw [hdep]
  obtain ⟨dz, k1, k2, -⟩ := C138_dz (z := zc) (n := n) (lev := fun k => (k : ℝ))
    (levels := ⟨[(zc, n)], fun e => fin (e zc)⟩)
    ⟨rfl, fun _ => rfl, fun k _ => Nat.cast_nonneg k, idims, iget, i0, imono⟩ hb hz h0 hz0
  have hbc : bareCoords d zc = .ok () := by
    have hcs : d.vars.filter (fun p => d.coords.contains p.1 && p.2.dimNames.all (fun x => x == zc))
        = d.vars.filter (fun p => d.coords.contains p.1 && p.2.dimNames.isEmpty) := by
      apply List.filter_congr
      intro p hp
      by_cases hq : p.1 ∈ d.coords
      · rcases hco p hp hq with h1 | ⟨x, hx, hne⟩
        · simp [h1]
        · have e1 : p.2.dimNames.all (fun x => x == zc) = false := by
            rw [List.all_eq_false]
            exact ⟨x, hx, by simpa using hne⟩
          have e2 : p.2.dimNames.isEmpty = false := by
            cases hd : p.2.dimNames with
            | nil => rw [hd] at hx; simp at hx
            | cons _ _ => rfl
          rw [e1, e2]
      · simp [hq]
    unfold bareCoords
    simp only [hcs]
    rw [if_neg]
    simp only [Bool.or_eq_true, List.any_eq_true, beq_iff_eq, not_or, not_exists, not_and]
    refine ⟨?_, hsc⟩
    intro p hp
    have := (List.mem_filter.1 hp).2
    simp only [Bool.and_eq_true, List.isEmpty_iff] at this
    simp [this.2]
  simp only [stericResult, if_neg (show ¬ "local" = "global" by decide), stericLocal, bind_ok, pure_ok] at p9
  obtain ⟨rvol, q1, rrho, q2, dr, q3, z', -, zi', -, dep', -, dz', -, ⟨⟩, -, coef, q8, tot, q9, sl, q10,
    top, q11, rfl⟩ := p9
  have ht : tc ∈ dr.dimNames := by
    obtain ⟨t1, -, rfl⟩ := transposeE_ok q3
    unfold DA.dimNames DA.transposeFirst
    rw [List.map_append, List.mem_append]
    left
    obtain ⟨p, hp, hpt⟩ := List.mem_map.1 t1
    exact List.mem_map.2 ⟨p, List.mem_filter.2 ⟨hp, by simpa using hpt⟩, hpt⟩
  have hzin : zc ∈ (dz * dr).dimNames := by
    refine memL ?_
    rw [k2]; simp
  have hs2 : (dz * dr).sumDimE zc = .ok ((dz * dr).sumDim zc) := if_pos hzin
  have htin : tc ∈ (((dz * dr).sumDim zc).map (fun s => coef * s)).dimNames := by
    have : tc ∈ (dz * dr).dimNames := memR ht
    obtain ⟨p, hp, hpt⟩ := List.mem_map.1 this
    exact List.mem_map.2 ⟨p, List.mem_filter.2 ⟨hp, by rw [hpt]; simpa using htz⟩, hpt⟩
  have ht2 : (((dz * dr).sumDim zc).map (fun s => coef * s)).transposeE tc
      = .ok ((((dz * dr).sumDim zc).map (fun s => coef * s)).transposeFirst tc) := if_pos htin
  have hrun : stericBare d reference cn rhozero patm eos variant strict = .ok
      (⟨[("delta_rho", dr), (variant, DA.zip (fun s v => Fl.sel (Fl.notnull v) s .nan)
        ((((dz * dr).sumDim zc).map (fun s => coef * s)).transposeFirst tc) top)], []⟩, ref) := by
    simp only [stericBare, hc, ok_bind, hv p3, p4, p5, p6, p7, p8, stericLocalBare, q1, q2, q3, ez, ezi, edep, k1, hbc,
      q8, hs2, ht2, q11]
    rfl
  exact ⟨_, hrun, rfl⟩

/-- The run without depths fails if a coordinate lies along the vertical dimension alone, and if exactly one
coordinate is a scalar. -/
theorem C138_coordinates (hc : defaultCoords cn = .ok (tc, zc, zb))
    (h : (∃ p ∈ d.vars, p.1 ∈ d.coords ∧ p.2.dimNames ≠ [] ∧ ∀ x ∈ p.2.dimNames, x = zc) ∨
      (d.vars.filter (fun p => d.coords.contains p.1 && p.2.dimNames.isEmpty)).length = 1) :
    ∀ x, stericBare d reference cn rhozero patm eos variant strict ≠ .ok x := by
  have hbc : bareCoords d zc = .error .valueError := by
    unfold bareCoords
    rw [if_pos]
    rw [Bool.or_eq_true]
    by_cases hex : ∃ p ∈ d.vars, p.1 ∈ d.coords ∧ p.2.dimNames ≠ [] ∧ ∀ x ∈ p.2.dimNames, x = zc
    · obtain ⟨p, hp, h1, h2, h3⟩ := hex
      left
      rw [List.any_eq_true]
      refine ⟨p, List.mem_filter.2 ⟨hp, ?_⟩, by simpa using h2⟩
      simp only [Bool.and_eq_true, List.contains_iff_mem, List.all_eq_true, beq_iff_eq]
      exact ⟨h1, h3⟩
    · right
      have h1 := h.resolve_left hex
      have hcs : d.vars.filter (fun p => d.coords.contains p.1 && p.2.dimNames.all (fun x => x == zc))
          = d.vars.filter (fun p => d.coords.contains p.1 && p.2.dimNames.isEmpty) := by
        apply List.filter_congr
        intro p hp
        by_cases hq : p.1 ∈ d.coords
        · by_cases hd : p.2.dimNames = []
          · simp [hd]
          · have e1 : p.2.dimNames.all (fun x => x == zc) = false := by
              by_contra hne
              rw [Bool.not_eq_false, List.all_eq_true] at hne
              exact hex ⟨p, hp, hq, hd, fun x hx => by simpa using hne x hx⟩
            have e2 : p.2.dimNames.isEmpty = false := by
              cases he : p.2.dimNames with
              | nil => exact absurd he hd
              | cons _ _ => rfl
            rw [e1, e2]
        · simp [hq]
      rw [hcs, h1]
      rfl
  intro x hx
  simp only [stericBare, hc, ok_bind, bind_ok, pure_ok, stericLocalBare, hbc, reduceCtorEq, false_and, exists_false,
    and_false] at hx

/-- Non-vacuity: the two runs on the ocean of `exBare`. -/
theorem exBare_run : ∃ r ref, stericBare exBare .none .none (fin 1035) (DA.scalar (fin 101325)) "Wright" "steric" true
    = .ok (r, ref) := by
  obtain ⟨⟨r', ref⟩, h⟩ : ∃ x, steric (numbered exBare "z_l" 2) .none .none none (fin 1035) (DA.scalar (fin 101325))
      "Wright" "steric" "local" true = .ok x :=
    C30_success exBare_good rfl (by simp) (.inl wright_case) (by simp) (fun _ => exArea)
  obtain ⟨r, hr, -⟩ := C138_numbers (m := 2) (ifc := fun k => 1000 * (k : ℝ)) (zid := "z_i") (zi := exZi)
    (depth := exDepth) h exC rfl rfl (by decide) rfl rfl (fun _ => rfl) (by simp)
    (by intro k _; push_cast; linarith) rfl exGrid.bathy exGrid.hz (by decide) (by decide) (by decide) (by
      intro p hp hc
      simp only [exBare, List.mem_cons, List.not_mem_nil, or_false] at hp hc
      rcases hp with rfl | rfl | rfl | rfl | rfl | rfl <;> simp at hc
      exact .inr ⟨"z_i", by simp [exZi, DA.dimNames], by decide⟩) (by decide)
  exact ⟨r, ref, hr⟩

/-- The ocean of `exBare` with a scalar coordinate beside it. -/
example (x : DS (Fl ℝ) × DS (Fl ℝ)) : stericBare ⟨("height", DA.scalar (fin 0)) :: exBare.vars, "height" :: exBare.coords⟩
    .none .none (fin 1035) (DA.scalar (fin 101325)) "Wright" "steric" true ≠ .ok x :=
  C138_coordinates exC (.inr rfl) x

/-- The ocean of `exBare` with the numbers of the layers as a coordinate of another name. -/
example (x : DS (Fl ℝ) × DS (Fl ℝ)) :
    stericBare ⟨("layer", ⟨[("z_l", 2)], fun e => fin (e "z_l")⟩) :: exBare.vars, "layer" :: exBare.coords⟩
    .none .none (fin 1035) (DA.scalar (fin 101325)) "Wright" "steric" true ≠ .ok x :=
  C138_coordinates exC (.inl ⟨_, List.mem_cons_self, List.mem_cons_self, by simp [DA.dimNames], by simp [DA.dimNames]⟩) x

example : ∃ r ref a, stericBare exBare .none .none (fin 1035) (DA.scalar (fin 101325)) "Wright" "steric" true
    = .ok (r, ref) ∧ r.getVar "steric" = .ok a ∧ ("dim_0", 2) ∈ a.dims := by
  obtain ⟨r, ref, h⟩ := exBare_run
  obtain ⟨a, dr, vol, h1, -, -, -, h2, -⟩ := C138_local (n := 2) (m := 2) (ifc := fun k => 1000 * (k : ℝ)) (zid := "z_i")
    (zi := exZi) (depth := exDepth) (ρ0 := 1035) h exC rfl rfl rfl rfl (fun _ => rfl) (by simp)
    (by intro k _; push_cast; linarith) rfl exGrid.bathy exGrid.hz (by decide) (by decide) (by decide) rfl
  exact ⟨r, ref, a, h, h1, h2⟩

/-- Three levels and two layers 0–1000–2000 m over the sea floor of `exDepth`. -/
example : ∃ r, calcDzBare (⟨[("z_l", 3)], fun e => fin (e "z_l")⟩ : DA (Fl ℝ)) exZi exDepth = .ok r ∧
    r.dims = exDepth.dims ++ [("dim_0", 2), ("z_l", 3)] := by
  obtain ⟨r, h1, h2, -⟩ := C138_dz (z := "z_l") (n := 3) (m := 2) (lev := fun k => (k : ℝ)) (depth := exDepth)
    (ifc := fun k => 1000 * (k : ℝ)) (zi := "z_i") (interfaces := exZi)
    (levels := (⟨[("z_l", 3)], fun e => fin (e "z_l")⟩ : DA (Fl ℝ)))
    ⟨rfl, fun _ => rfl, fun k _ => Nat.cast_nonneg k, rfl, fun _ => rfl, by simp,
      by intro k _; push_cast; linarith⟩ exGrid.bathy exGrid.hz (by decide) (by decide)
  exact ⟨r, h1, h2⟩

example : ∃ r', calcDz (⟨[("dim_0", 2)], fun _ => fin 0⟩ : DA (Fl ℝ)) exZi exDepth (fin 0) (some (fin 1500)) true
    = .ok r' := by
  obtain ⟨r, r', -, h2, -⟩ := C138_repeated (z := "z_l") (n := 3) (m := 2) (lev := fun k => (k : ℝ))
    (depth := exDepth) (ifc := fun k => 1000 * (k : ℝ)) (zi := "z_i") (interfaces := exZi)
    (levels := (⟨[("z_l", 3)], fun e => fin (e "z_l")⟩ : DA (Fl ℝ)))
    ⟨rfl, fun _ => rfl, fun k _ => Nat.cast_nonneg k, rfl, fun _ => rfl, by simp,
      by intro k _; push_cast; linarith⟩ exGrid.bathy exGrid.hz (by decide) (by decide) 0 (some 1500) true
  exact ⟨r', h2⟩

end Momlevel.Props
