import Verif.Lemmas.Steric
import Verif.Props.Dz
import Verif.Props.Eos
import Verif.Spec.Pressure

/-! # C24–C29: steric sea level -/

set_option linter.unusedSectionVars false

namespace Momlevel.Props
open Momlevel Momlevel.Fl Momlevel.Eos

variable {d r ref : DS (Fl ℝ)} {reference : RefArg ℝ} {cn : DictArg}
  {vm : Option (List (String × String))} {rhozero : Fl ℝ} {patm : DA (Fl ℝ)}
  {eos variant domain : String} {strict : Bool} {tc zc zb : String}

/-- At time index 0 the fields used by any variant are those of the reference. -/
theorem fields_at_zero {dd : DS (Fl ℝ)} {pres : DA (Fl ℝ)} {f : EosFn (Fl ℝ)}
    (D : RefData dd ref tc pres f) {th so : DA (Fl ℝ)}
    (h : stericFields dd ref variant = .ok (th, so)) :
    (∀ e, e tc = 0 → th.get e = D.rth.get e ∧ so.get e = D.rso.get e) ∧
    th.dims.filter (fun p => p.1 != tc) = D.rth.dims ∧
    so.dims.filter (fun p => p.1 != tc) = D.rso.dims := by
  have idem : ∀ l : List (String × Nat), (l.filter (fun p => p.1 != tc)).filter (fun p => p.1 != tc)
      = l.filter (fun p => p.1 != tc) := fun l => by rw [List.filter_filter]; simp
  have upd : ∀ e : Env, e tc = 0 → Function.update e tc 0 = e := fun e he => by
    rw [← he, Function.update_eq_self]
  have h1 : ∀ e, e tc = 0 → D.th.get e = D.rth.get e := fun e he => by rw [D.th_get, upd e he]
  have h2 : ∀ e, e tc = 0 → D.so.get e = D.rso.get e := fun e he => by rw [D.so_get, upd e he]
  have hth := D.hth
  have hso := D.hso
  have rth := D.rhth
  have rso := D.rhso
  rcases stericFields_ok h with ⟨-, a, b⟩ | ⟨-, a, b⟩ | ⟨-, a, b⟩
  · rw [hth] at a; rw [rso] at b
    cases a; cases b
    exact ⟨fun e he => ⟨h1 e he, rfl⟩, D.th_dims.symm, by rw [D.so_dims, idem]⟩
  · rw [rth] at a; rw [hso] at b
    cases a; cases b
    exact ⟨fun e he => ⟨rfl, h2 e he⟩, by rw [D.th_dims, idem], D.so_dims.symm⟩
  · rw [hth] at a; rw [hso] at b
    cases a; cases b
    exact ⟨fun e he => ⟨h1 e he, h2 e he⟩, D.th_dims.symm, D.so_dims.symm⟩

theorem upd_comm_zero {tc zc : String} (htz : tc ≠ zc) {e : Env} (he : e tc = 0) (k : Nat) :
    (Function.update e zc k) tc = 0 := by rw [Function.update_of_ne htz, he]

/-! ## C24 -/

/-- Local results vanish at the reference time: with no reference supplied, at time index 0 the
height is exactly 0 where the top reference cell has a volume and missing elsewhere; the density
change is 0 or missing.  Every dataset, variant, equation of state, option. -/
theorem C24_local (h : steric d .none cn vm rhozero patm eos variant domain strict = .ok (r, ref))
    (hd : domain ≠ "global") (hρ : rhozero ≠ nan) (hc : defaultCoords cn = .ok (tc, zc, zb))
    (htz : tc ≠ zc) :
    ∃ a dr vol, r.getVar variant = .ok a ∧ r.getVar "delta_rho" = .ok dr ∧
      ref.getVar "volcello" = .ok vol ∧
      ∀ e, e tc = 0 → (a.get e = if vol.get (Function.update e zc 0) = nan then nan else fin 0) ∧
        (dr.get e = fin 0 ∨ dr.get e = nan) := by
  obtain ⟨dd, tc', zc', zb', pres, th, so, rho, h1, h2, h3, h4, h5, h6, h7, h8, h9⟩ := steric_ok_iff.1 h
  rw [hc] at h2
  cases h2
  obtain ⟨f, hf, ⟨D⟩⟩ := refData_of hc h3 h4 h5 h6
  simp only [stericResult, if_neg hd] at h9
  obtain ⟨L⟩ := localRun_of h9
  obtain ⟨f', hf', hrho⟩ := calcRho_ok h8
  rw [hf] at hf'
  cases hf'
  have hrr : L.rrho = D.rrho := Except.ok.inj (L.hrrho.symm.trans D.rhrho)
  have hv := variant_mem h7
  have hne : variant ≠ "delta_rho" := by
    rintro rfl; simp at hv
  have hdr : ∀ e, e tc = 0 → (L.dr.get e = fin 0 ∨ L.dr.get e = nan) := by
    intro e he
    obtain ⟨k1, k2⟩ := (fields_at_zero D h7).1 e he
    have e1 : rho.get e = D.rrho.get e := by
      rw [hrho, D.rho_eq]; simp only [DA.get_zip3, k1, k2]
    rw [L.dr_get, hrr, e1]
    cases notnull (L.rvol.get e)
    · right; rfl
    · exact sub_self_cases _
  refine ⟨L.res, L.dr, L.rvol, getVar_lookup.2 (L.hres hne), getVar_lookup.2 L.hdr, L.hrvol,
    fun e he => ⟨?_, hdr e he⟩⟩
  rw [L.res_get, nansumN_zero]
  · obtain ⟨y, hy⟩ := (coef_fin L.hcoef).2 hρ
    rw [hy, fin_mul, mul_zero]
    by_cases hx : L.rvol.get (Function.update e zc 0) = nan
    · simp [hx, notnull]
    · rw [if_neg hx]
      have : notnull (L.rvol.get (Function.update e zc 0)) = true := by
        unfold notnull; rw [(isnull_false_iff _).2 hx]; rfl
      rw [this]; rfl
  · intro k
    rcases hdr _ (upd_comm_zero htz he k) with hk | hk
    · rw [hk]; exact mul_zero_cases _
    · rw [hk]; right; simp

/-- At time index 0 the mass of the reference volume is the reference mass. -/
theorem masso_at_zero {dd : DS (Fl ℝ)} {pres : DA (Fl ℝ)} {f : EosFn (Fl ℝ)}
    (D : RefData dd ref tc pres f) {th so : DA (Fl ℝ)}
    (h : stericFields dd ref variant = .ok (th, so)) {e : Env} (he : e tc = 0) :
    (calcMasso (DA.zip3 f th so pres) D.rvol tc).get e = (calcMasso D.rrho D.rvol tc).get e := by
  obtain ⟨k1, k2, k3⟩ := fields_at_zero D h
  refine calcMasso_congr ?_ (fun m hm => ?_)
  · have idem : ∀ l : List (String × Nat), (l.filter (fun p => p.1 != tc)).filter (fun p => p.1 != tc)
      = l.filter (fun p => p.1 != tc) := fun l => by rw [List.filter_filter]; simp
    rw [D.rho_eq]
    show (DA.bdims (DA.bdims (DA.bdims th.dims so.dims) pres.dims) D.rvol.dims).filter _
      = (DA.bdims (DA.bdims (DA.bdims D.rth.dims D.rso.dims) pres.dims) D.rvol.dims).filter _
    simp only [filter_bdims, k2, k3]
    rw [show D.rth.dims.filter (fun p => p.1 != tc) = D.rth.dims by rw [D.th_dims, idem],
      show D.rso.dims.filter (fun p => p.1 != tc) = D.rso.dims by rw [D.so_dims, idem]]
  · rw [D.rho_eq]
    obtain ⟨a, b⟩ := k1 m (hm.trans he)
    simp only [DA.get_zip3, a, b]

/-- Global results vanish at the reference time, whenever the reference mean density is a non-zero
number and the reference height is a number. -/
theorem C24_global (h : steric d .none cn vm rhozero patm eos variant "global" strict = .ok (r, ref))
    (hc : defaultCoords cn = .ok (tc, zc, zb)) :
    ∃ a height rhoga, r.getVar variant = .ok a ∧ r.getVar "reference_height" = .ok height ∧
      ref.getVar "rhoga" = .ok rhoga ∧
      ∀ e, e tc = 0 → ∀ g H, rhoga.get e = fin g → g ≠ 0 → height.get e = fin H → a.get e = fin 0 := by
  obtain ⟨dd, tc', zc', zb', pres, th, so, rho, h1, h2, h3, h4, h5, h6, h7, h8, h9⟩ := steric_ok_iff.1 h
  rw [hc] at h2
  cases h2
  obtain ⟨f, hf, ⟨D⟩⟩ := refData_of hc h3 h4 h5 h6
  simp only [stericResult, if_true] at h9
  obtain ⟨L⟩ := globalRun_of h9
  obtain ⟨f', hf', hrho⟩ := calcRho_ok h8
  rw [hf] at hf'
  cases hf'
  have hv := variant_mem h7
  have hne : variant ≠ "reference_height" := by
    rintro rfl; simp at hv
  have hvol : L.rvol = D.rvol := Except.ok.inj (L.hrvol.symm.trans D.rhvol)
  have hvolo : L.volo = D.volo := Except.ok.inj (L.hvolo.symm.trans D.rhvolo)
  have hga : L.rhoga = calcMasso D.rrho D.rvol tc / D.volo :=
    Except.ok.inj (L.hrhoga.symm.trans D.rhrhoga)
  refine ⟨L.res, L.height, L.rhoga, getVar_lookup.2 (L.hres hne), getVar_lookup.2 L.hheight, L.hrhoga,
    fun e he g H hg hg0 hH => ?_⟩
  have hg' : (calcMasso D.rrho D.rvol tc).get e / D.volo.get e = fin g := by
    rw [hga] at hg; exact hg
  have e1 : (calcMasso rho D.rvol tc).get e = (calcMasso D.rrho D.rvol tc).get e := by
    rw [hrho]; exact masso_at_zero D h7 he
  rw [L.res_get, hH, hg, hvol, e1, hvolo, hg', fin_div_of_ne _ hg0, div_self hg0]
  show fin H * (if (0 : ℝ) < 1 then fin (Real.log 1) else _) = _
  rw [if_pos one_pos, Real.log_one, fin_mul, mul_zero]

/-! ## The local result as an explicit sum -/

/-- The vertical grid of a dataset: `n` layers between non-decreasing interfaces, bathymetry finite
or missing; the vertical coordinate has values. -/
structure OceanGrid (d : DS (Fl ℝ)) (zc zb zid : String) (n : Nat) (lev ifc : Nat → ℝ)
    (depth : DA (Fl ℝ)) : Prop where
  grid : ∃ z zi, d.getItem zc = .ok z ∧ d.getItem zb = .ok zi ∧ DzGrid z zi zc zid n lev ifc
  hdepth : d.getVar "deptho" = .ok depth
  bathy : Bathy depth
  hz : zc ∉ depth.dimNames
  coord : zc ∈ d.names

theorem inBounds_upd {depth : DA (Fl ℝ)} {zc : String} (hz : zc ∉ depth.dimNames) {e : Env}
    (he : depth.InBounds e) (k : Nat) : depth.InBounds (Function.update e zc k) := by
  intro p hp
  have : p.1 ≠ zc := fun h => hz (h ▸ List.mem_map_of_mem hp)
  rw [Function.update_of_ne this]
  exact he p hp

theorem depth_upd {depth : DA (Fl ℝ)} (hw : depth.WF) {zc : String} (hz : zc ∉ depth.dimNames)
    (e : Env) (k : Nat) : depth.get (Function.update e zc k) = depth.get e :=
  hw _ _ (fun x hx => Function.update_of_ne (fun h : x = zc => hz (h ▸ hx)) _ _)

theorem size_append_single {V : Type*} (l : List (String × Nat)) (z : String) (n : Nat)
    (hz : z ∉ l.map Prod.fst) (m : List (String × Nat)) (g : Env → V) :
    (⟨DA.bdims (l ++ [(z, n)]) m, g⟩ : DA V).size z = n := by
  unfold DA.size DA.bdims
  have : l.find? (fun p => p.1 == z) = none := by
    rw [List.find?_eq_none]
    intro p hp
    simp only [beq_iff_eq]
    intro h
    exact hz (h ▸ List.mem_map_of_mem hp)
  simp [List.find?_append, this]

/-- Thickness of layer `k` above the sea floor at depth `D`. -/
noncomputable def thickness (ifc : Nat → ℝ) (D : ℝ) (k : Nat) : ℝ :=
  Spec.overlap (ifc k) (ifc (k + 1)) (ifc 0) D

theorem thickness_nonneg (ifc : Nat → ℝ) (D : ℝ) (k : Nat) : 0 ≤ thickness ifc D k := by
  unfold thickness Spec.overlap; exact le_max_left _ _

/-- Local sea level is `-(1/ρ₀) Σ_k thickness_k Δρ_k` over the layers above the sea floor (missing
density changes count as zero), and missing where the top reference cell has no volume. -/
theorem C25_formula (h : steric d reference cn none rhozero patm eos variant domain strict = .ok (r, ref))
    (hd : domain ≠ "global") (hc : defaultCoords cn = .ok (tc, zc, zb))
    {zid : String} {n : Nat} {lev ifc : Nat → ℝ} {depth : DA (Fl ℝ)}
    (G : OceanGrid d zc zb zid n lev ifc depth) {ρ0 : ℝ} (hρ : rhozero = fin ρ0) :
    ∃ a dr vol, r.getVar variant = .ok a ∧ r.getVar "delta_rho" = .ok dr ∧
      ref.getVar "volcello" = .ok vol ∧ ρ0 ≠ 0 ∧
      ∀ e, depth.InBounds e → (∀ k < n, FN (dr.get (Function.update e zc k))) →
        a.get e = if vol.get (Function.update e zc 0) = nan then nan else
          fin (-(1 / ρ0) * ∑ k ∈ Finset.range n,
            thickness ifc (val0 (depth.get e)) k * val0 (dr.get (Function.update e zc k))) := by
  obtain ⟨dd, tc', zc', zb', pres, th, so, rho, h1, h2, h3, h4, h5, h6, h7, h8, h9⟩ := steric_ok_iff.1 h
  rw [hc] at h2
  cases h2
  have h1 : d = dd := Except.ok.inj h1
  subst h1
  simp only [stericResult, if_neg hd] at h9
  obtain ⟨L⟩ := localRun_of h9
  have hv := variant_mem h7
  have hne : variant ≠ "delta_rho" := by
    rintro rfl; simp at hv
  obtain ⟨z, zi, g1, g2, g3⟩ := G.grid
  have e1 : L.z = z := Except.ok.inj (L.hz.symm.trans g1)
  have e2 : L.zi = zi := Except.ok.inj (L.hzi.symm.trans g2)
  have e3 : L.depth = depth := Except.ok.inj (L.hdepth.symm.trans G.hdepth)
  obtain ⟨dz, k1, k2, k3⟩ := C08_cell g3 G.bathy G.hz
  have e4 : L.dz = dz := by
    have := L.hdz
    rw [e1, e2, e3, k1] at this
    exact (Except.ok.inj this).symm
  obtain ⟨hρ0, hcoef⟩ := (coef_fin L.hcoef).1 ρ0 hρ
  have hn : L.n = n := by
    rw [L.hn, e4]
    have : (dz * L.dr) = ⟨DA.bdims (depth.dims ++ [(zc, n)]) L.dr.dims, (dz * L.dr).get⟩ := by
      rw [← k2]; rfl
    rw [this]
    exact size_append_single _ _ _ G.hz _ _
  refine ⟨L.res, L.dr, L.rvol, getVar_lookup.2 (L.hres hne), getVar_lookup.2 L.hdr, L.hrvol, hρ0,
    fun e he hFN => ?_⟩
  rw [L.res_get]
  by_cases hx : L.rvol.get (Function.update e zc 0) = nan
  · simp [hx, notnull]
  · rw [if_neg hx]
    have : notnull (L.rvol.get (Function.update e zc 0)) = true := by
      unfold notnull; rw [(isnull_false_iff _).2 hx]; rfl
    rw [this, sel_true, hn, hcoef]
    have hterm : ∀ k < n, L.dz.get (Function.update e zc k) * L.dr.get (Function.update e zc k)
        = fin (thickness ifc (val0 (depth.get e)) k) * L.dr.get (Function.update e zc k) := by
      intro k hk
      obtain ⟨v, v1, v2, -⟩ := k3 (Function.update e zc k) (inBounds_upd G.hz he k)
        (by rw [Function.update_self]; exact hk)
      rw [e4, v1, v2, Function.update_self, depth_upd G.bathy.wf G.hz]
      rfl
    rw [nansumN_eq]
    · rw [fin_mul]
      congr 1
      rw [neg_div]
      congr 1
      refine Finset.sum_congr rfl (fun k hk => ?_)
      rw [hterm k (Finset.mem_range.1 hk)]
      rcases hFN k (Finset.mem_range.1 hk) with h0 | ⟨x, h0⟩ <;> rw [h0] <;> simp
    · intro k hk
      rw [hterm k hk]
      rcases hFN k hk with h0 | ⟨x, h0⟩ <;> rw [h0] <;> simp

/-! ## C25 -/

/-- The local height is missing exactly where the top reference cell has no volume. -/
theorem C25_missing (h : steric d reference cn none rhozero patm eos variant domain strict = .ok (r, ref))
    (hd : domain ≠ "global") (hc : defaultCoords cn = .ok (tc, zc, zb))
    {zid : String} {n : Nat} {lev ifc : Nat → ℝ} {depth : DA (Fl ℝ)}
    (G : OceanGrid d zc zb zid n lev ifc depth) {ρ0 : ℝ} (hρ : rhozero = fin ρ0) :
    ∃ a dr vol, r.getVar variant = .ok a ∧ r.getVar "delta_rho" = .ok dr ∧
      ref.getVar "volcello" = .ok vol ∧
      ∀ e, depth.InBounds e → (∀ k < n, FN (dr.get (Function.update e zc k))) →
        (a.get e = nan ↔ vol.get (Function.update e zc 0) = nan) := by
  obtain ⟨a, dr, vol, k1, k2, k3, -, k4⟩ := C25_formula h hd hc G hρ
  refine ⟨a, dr, vol, k1, k2, k3, fun e he hF => ?_⟩
  rw [k4 e he hF]
  split
  · rename_i hx; simp [hx]
  · rename_i hx; simp [hx]

theorem isDepth_of {z : DA (Fl ℝ)} (h : d.getItem zc = .ok z) : Spec.IsDepth d zc z := by
  unfold DS.getItem at h
  split at h
  · next a ha => cases h; exact .inl ha
  · next ha =>
    split at h
    · next n hn => cases h; exact .inr ⟨ha, n, hn, rfl⟩
    · cases h

theorem isPressure_of {pres : DA (Fl ℝ)} (h : pressureField d zc patm = .ok pres) :
    Spec.IsPressure d zc patm pres := by
  simp only [pressureField, bind_ok, pure_ok] at h
  obtain ⟨z, hz, rfl⟩ := h
  refine ⟨z, isDepth_of hz, ?_⟩
  rw [show (1.0e4 : Fl ℝ) = fin 10000 by rw [ofSci]; norm_num]

theorem of_isPressure {pres : DA (Fl ℝ)} (h : Spec.IsPressure d zc patm pres) :
    pressureField d zc patm = .ok pres := by
  obtain ⟨z, hz, rfl⟩ := h
  have : d.getItem zc = .ok z := by
    unfold DS.getItem
    rcases hz with hz | ⟨h0, n, hn, rfl⟩
    · rw [hz]
    · rw [h0, hn]
  rw [show (fin 10000 : Fl ℝ) = (1.0e4 : Fl ℝ) by rw [ofSci]; norm_num]
  simp only [pressureField, this, ok_bind]
  rfl

/-- The density change: current minus reference density where the reference cell has a volume,
missing elsewhere.  Hence it is missing exactly when the reference volume or a density is. -/
theorem C25_delta_rho
    (h : steric d reference cn none rhozero patm eos variant domain strict = .ok (r, ref))
    (hd : domain ≠ "global") (hc : defaultCoords cn = .ok (tc, zc, zb)) :
    ∃ (dr vol rrho : DA (Fl ℝ)) (rho : Env → Fl ℝ) (f : EosFn (Fl ℝ)) (th so z : DA (Fl ℝ)),
      r.getVar "delta_rho" = .ok dr ∧ ref.getVar "volcello" = .ok vol ∧
      ref.getVar "rho" = .ok rrho ∧ eosFuncFromStr eos "density" = .ok f ∧
      (variant = "thermosteric" ∧ d.getVar "thetao" = .ok th ∧ ref.getVar "so" = .ok so ∨
       variant = "halosteric" ∧ ref.getVar "thetao" = .ok th ∧ d.getVar "so" = .ok so ∨
       variant = "steric" ∧ d.getVar "thetao" = .ok th ∧ d.getVar "so" = .ok so) ∧
      Spec.IsDepth d zc z ∧
      (∀ e, rho e = f (th.get e) (so.get e) (z.get e * fin 10000 + patm.get e)) ∧
      (∀ e, vol.get e = nan → dr.get e = nan) ∧
      (∀ e, vol.get e ≠ nan → dr.get e = rho e - rrho.get e) ∧
      (∀ e, FN (rho e) → FN (rrho.get e) →
        (dr.get e = nan ↔ vol.get e = nan ∨ rho e = nan ∨ rrho.get e = nan)) := by
  obtain ⟨dd, tc', zc', zb', pres, th, so, rho, h1, h2, h3, h4, h5, h6, h7, h8, h9⟩ := steric_ok_iff.1 h
  have h1 : d = dd := Except.ok.inj h1
  subst h1
  rw [hc] at h2
  cases h2
  simp only [stericResult, if_neg hd] at h9
  obtain ⟨L⟩ := localRun_of h9
  obtain ⟨f, hf, rfl⟩ := calcRho_ok h8
  obtain ⟨z, hz, rfl⟩ := isPressure_of h4
  have a1 : ∀ e, L.rvol.get e = nan → L.dr.get e = nan := fun e he => by
    rw [L.dr_get, he]; rfl
  have a2 : ∀ e, L.rvol.get e ≠ nan → L.dr.get e
      = f (th.get e) (so.get e) (z.get e * fin 10000 + patm.get e) - L.rrho.get e := fun e he => by
    have : notnull (L.rvol.get e) = true := by
      unfold notnull; rw [(isnull_false_iff _).2 he]; rfl
    rw [L.dr_get, this]; rfl
  refine ⟨L.dr, L.rvol, L.rrho, fun e => f (th.get e) (so.get e) (z.get e * fin 10000 + patm.get e), f, th, so, z,
    getVar_lookup.2 L.hdr, L.hrvol, L.hrrho, hf, ?_, hz, fun e => rfl, a1, a2, fun e f1 f2 => ?_⟩
  · unfold stericFields at h7
    split at h7
    · next hv =>
      simp only [bind_ok, pure_ok] at h7
      obtain ⟨t, ht, s, hs, he⟩ := h7
      cases he
      exact .inl ⟨hv, ht, hs⟩
    · split at h7
      · next hv =>
        simp only [bind_ok, pure_ok] at h7
        obtain ⟨t, ht, s, hs, he⟩ := h7
        cases he
        exact .inr (.inl ⟨hv, ht, hs⟩)
      · split at h7
        · next hv =>
          simp only [bind_ok, pure_ok] at h7
          obtain ⟨t, ht, s, hs, he⟩ := h7
          cases he
          exact .inr (.inr ⟨hv, ht, hs⟩)
        · cases h7
  · by_cases hx : L.rvol.get e = nan
    · simp [hx, a1 e hx]
    · rw [a2 e hx]
      rcases f1 with f1 | ⟨x, f1⟩ <;> rcases f2 with f2 | ⟨y, f2⟩ <;> simp [f1, f2, hx]

end Momlevel.Props
