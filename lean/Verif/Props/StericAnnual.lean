import Verif.Props.Annual
import Verif.Props.StericSuccess

/-! # C66: `steric(..., annual=True)` -/

set_option linter.unusedSectionVars false

namespace Momlevel.Props
open Momlevel Momlevel.Fl Momlevel.Spec

section
variable {d : Timed (DS (Fl ℝ))} {reference : RefArg ℝ} {cn : DictArg}
    {vm : Option (List (String × String))} {rhozero : Fl ℝ} {patm : DA (Fl ℝ)}
    {eos variant domain : String} {strict : Bool} {r ref : DS (Fl ℝ)} {R : Timed (DS (Fl ℝ))}

theorem renameAxes_none (l : List (String × TimeAxis)) : renameAxes l none = l := by
  simp [renameAxes]

theorem steric_coords
    (h : steric d.obj reference cn vm rhozero patm eos variant domain strict = .ok (r, ref)) :
    r.coords = [] := by
  obtain ⟨d', tc, zc, zb, pres, th, so, rho, -, -, -, -, -, -, -, -, h9⟩ := steric_ok_iff.1 h
  unfold stericResult at h9
  split at h9
  · simp only [stericGlobal, bind_ok, pure_ok] at h9
    obtain ⟨_, -, _, -, _, -, _, -, rfl⟩ := h9
    rfl
  · simp only [stericLocal, bind_ok, pure_ok] at h9
    obtain ⟨_, -, _, -, _, -, _, -, _, -, _, -, _, -, _, -, _, -, _, -, _, -, _, -, rfl⟩ := h9
    rfl

theorem lookup_filter_key {A : Type} (l : List (String × A)) (P : String → Bool) (k : String)
    (hk : P k = true) : (l.filter (fun p => P p.1)).lookup k = l.lookup k := by
  induction l with
  | nil => rfl
  | cons p l ih =>
    by_cases hp : k = p.1
    · have : P p.1 = true := hp ▸ hk
      rw [List.filter_cons_of_pos (by simpa using this)]
      obtain ⟨a, b⟩ := p
      simp only at hp
      subst hp
      simp [List.lookup]
    · obtain ⟨a, b⟩ := p
      simp only at hp
      have h1 : (k == a) = false := by simpa using hp
      by_cases hP : P a = true
      · rw [List.filter_cons_of_pos (by simpa using hP)]
        simp only [List.lookup, h1, ih]
      · rw [List.filter_cons_of_neg (by simpa using hP), ih]
        simp only [List.lookup, h1]

theorem lookup_filter_none {A : Type} (l : List (String × A)) (P : String → Bool) (k : String)
    (hk : l.lookup k = none) : (l.filter (fun p => P p.1)).lookup k = none := by
  rw [List.lookup_eq_none_iff] at hk ⊢
  intro p hp
  exact hk p (List.mem_filter.1 hp).1

/-- The shape of the results.  Local: `delta_rho` with time first, then the vertical and the horizontal
dimensions, and the height without the vertical.  Global: a number and a time series. -/
theorem C25_shape {d : DS (Fl ℝ)} {tc zc zb zid yc xc : String} {nt n ny nx : Nat}
    {lev ifc : Nat → ℝ} {th so vol area depth zi : DA (Fl ℝ)}
    (g : GoodData d tc zc zb zid yc xc nt n ny nx lev ifc th so vol area depth zi patm)
    (hc : defaultCoords cn = .ok (tc, zc, zb))
    (h : steric d .none cn none rhozero patm eos variant domain strict = .ok (r, ref)) :
    (domain ≠ "global" → ∃ dr a, r.vars = [("delta_rho", dr), (variant, a)] ∧
      dr.dims = [(tc, nt), (zc, n), (yc, ny), (xc, nx)] ∧ a.dims = [(tc, nt), (yc, ny), (xc, nx)]) ∧
    (domain = "global" → ∃ hh a, r.vars = [("reference_height", hh), (variant, a)] ∧
      hh.dims = [] ∧ a.dims = [(tc, nt)]) := by
  obtain ⟨dd, tc', zc', zb', pres, t, s, rho, h1, h2, h3, h4, h5, h6, h7, h8, h9⟩ := steric_ok_iff.1 h
  rw [hc] at h2
  cases h2
  cases h1
  obtain ⟨f, hf, ⟨D⟩⟩ := refData_of hc h3 h4 h5 h6
  have nd := g.names
  simp only [List.nodup_cons, List.mem_cons, not_or, List.not_mem_nil, or_false] at nd
  obtain ⟨⟨n1, n2, n3⟩, ⟨n4, n5⟩, n6, -⟩ := nd
  have dth : D.th = th := Except.ok.inj (D.hth.symm.trans g.hth)
  have dso : D.so = so := Except.ok.inj (D.hso.symm.trans g.hso)
  have dvol : D.vol = vol := Except.ok.inj (D.hvol.symm.trans g.hvol)
  have k1 : D.rth.dims = [(zc, n), (yc, ny), (xc, nx)] := by
    rw [D.th_dims, dth, g.thd]; simp [Ne.symm n1, Ne.symm n2, Ne.symm n3]
  have k2 : D.rso.dims = [(zc, n), (yc, ny), (xc, nx)] := by
    rw [D.so_dims, dso, g.sod]; simp [Ne.symm n1, Ne.symm n2, Ne.symm n3]
  have k3 : D.rvol.dims = [(zc, n), (yc, ny), (xc, nx)] := by
    rw [D.vol_dims, dvol, g.vold]; simp [Ne.symm n1, Ne.symm n2, Ne.symm n3]
  obtain ⟨z, zi', g1, g2, g3⟩ := g.grid.grid
  have hpd : ∀ p ∈ pres.dims, p ∈ [(zc, n), (yc, ny), (xc, nx)] := by
    simp only [pressureField, g1, ok_bind, pure_ok] at h4
    subst h4
    intro p hp
    rcases DA.mem_bdims hp with hp | hp
    · rcases DA.mem_bdims hp with hp | hp
      · rw [g3.ldims] at hp; simp only [List.mem_singleton] at hp; simp [hp]
      · simp at hp
    · exact g.patmd p hp
  have k4 : D.rrho.dims = [(zc, n), (yc, ny), (xc, nx)] := by
    rw [D.rho_eq]
    show DA.bdims (DA.bdims D.rth.dims D.rso.dims) pres.dims = _
    rw [k1, k2, DA.bdims_eq_left (fun p hp => hp), DA.bdims_eq_left hpd]
  have e1 : DA.bdims [(tc, nt), (zc, n), (yc, ny), (xc, nx)] [(zc, n), (yc, ny), (xc, nx)]
      = [(tc, nt), (zc, n), (yc, ny), (xc, nx)] :=
    DA.bdims_eq_left (fun p hp => List.mem_cons_of_mem _ hp)
  have e2 : DA.bdims [(zc, n), (yc, ny), (xc, nx)] [(tc, nt), (zc, n), (yc, ny), (xc, nx)]
      = [(zc, n), (yc, ny), (xc, nx), (tc, nt)] := by
    simp [DA.bdims, n1, n2, n3]
  have e3 : DA.bdims [(zc, n), (yc, ny), (xc, nx)] [(zc, n), (yc, ny), (xc, nx), (tc, nt)]
      = [(zc, n), (yc, ny), (xc, nx), (tc, nt)] := by
    simp [DA.bdims, n1, n2, n3]
  have e4 : DA.bdims [(zc, n), (yc, ny), (xc, nx), (tc, nt)] [(zc, n), (yc, ny), (xc, nx)]
      = [(zc, n), (yc, ny), (xc, nx), (tc, nt)] := by
    simp [DA.bdims]
  have k5 : rho.dims = [(tc, nt), (zc, n), (yc, ny), (xc, nx)] ∨
      rho.dims = [(zc, n), (yc, ny), (xc, nx), (tc, nt)] := by
    obtain ⟨f', -, rfl⟩ := calcRho_ok h8
    show DA.bdims (DA.bdims t.dims s.dims) pres.dims = _ ∨ DA.bdims (DA.bdims t.dims s.dims) pres.dims = _
    rcases stericFields_ok h7 with ⟨-, a, b⟩ | ⟨-, a, b⟩ | ⟨-, a, b⟩
    · left
      have a' : t = th := Except.ok.inj (a.symm.trans g.hth)
      have b' : s = D.rso := Except.ok.inj (b.symm.trans D.rhso)
      rw [a', b', g.thd, k2, e1, DA.bdims_eq_left (fun p hp => List.mem_cons_of_mem _ (hpd p hp))]
    · right
      have a' : t = D.rth := Except.ok.inj (a.symm.trans D.rhth)
      have b' : s = so := Except.ok.inj (b.symm.trans g.hso)
      rw [a', b', g.sod, k1, e2]
      refine DA.bdims_eq_left (fun p hp => ?_)
      have := hpd p hp
      simp only [List.mem_cons, List.not_mem_nil, or_false] at this
      rcases this with h | h | h <;> rw [h] <;> simp
    · left
      have a' : t = th := Except.ok.inj (a.symm.trans g.hth)
      have b' : s = so := Except.ok.inj (b.symm.trans g.hso)
      rw [a', b', g.thd, g.sod, DA.bdims_eq_left (fun p hp => hp),
        DA.bdims_eq_left (fun p hp => List.mem_cons_of_mem _ (hpd p hp))]
  constructor
  · intro hd
    simp only [stericResult, if_neg hd, stericLocal, bind_ok, pure_ok] at h9
    obtain ⟨rvol, q1, rrho, q2, dr, q3, z', q4, zi'', q5, depth', q6, dz, q7, _, -, coef, q8, tot, q9, sl, q10,
      top, q11, rfl⟩ := h9
    cases q1.symm.trans D.rhvol
    cases q2.symm.trans D.rhrho
    cases q4.symm.trans g1
    cases q5.symm.trans g2
    cases q6.symm.trans g.grid.hdepth
    obtain ⟨-, -, rfl⟩ := transposeE_ok q3
    obtain ⟨-, rfl⟩ := sumDimE_ok q9
    obtain ⟨-, -, rfl⟩ := transposeE_ok q10
    obtain ⟨-, rfl⟩ := iselE_ok q11
    obtain ⟨dz', u1, u2, -⟩ := C08_cell g3 g.grid.bathy g.grid.hz
    cases q7.symm.trans u1
    have e5 : DA.bdims D.rvol.dims (DA.bdims rho.dims D.rrho.dims)
        = [(zc, n), (yc, ny), (xc, nx), (tc, nt)] := by
      rw [k3, k4]
      rcases k5 with k5 | k5
      · rw [k5, e1, e2]
      · rw [k5, e4, e3]
    have e6 : ∀ (G : Env → Fl ℝ), (DA.transposeFirst ⟨DA.bdims D.rvol.dims
        (DA.bdims rho.dims D.rrho.dims), G⟩ tc).dims = [(tc, nt), (zc, n), (yc, ny), (xc, nx)] := by
      intro G
      rw [e5]
      simp [DA.transposeFirst, Ne.symm n1, Ne.symm n2, Ne.symm n3]
    refine ⟨_, _, rfl, e6 _, ?_⟩
    have e7 : (DA.zip (fun v d => Fl.sel (Fl.notnull v) d .nan) D.rvol
        (rho - D.rrho)).transposeFirst tc = ⟨[(tc, nt), (zc, n), (yc, ny), (xc, nx)],
        (DA.zip (fun v d => Fl.sel (Fl.notnull v) d .nan) D.rvol (rho - D.rrho)).get⟩ := by
      have := e6 (DA.zip (fun v d => Fl.sel (Fl.notnull v) d .nan) D.rvol (rho - D.rrho)).get
      rw [← this]
      rfl
    rw [e7]
    have e8 : ∀ G : Env → Fl ℝ, (dz * (⟨[(tc, nt), (zc, n), (yc, ny), (xc, nx)], G⟩ : DA (Fl ℝ))).dims
        = [(yc, ny), (xc, nx), (zc, n), (tc, nt)] := by
      intro G
      rw [DA.dims_mul, u2, g.depthd]
      simp [DA.bdims, n1, n2, n3]
    show DA.bdims ((List.filter _ (List.filter _ _)) ++ (List.filter _ (List.filter _ _)))
      (List.filter _ _) = _
    rw [e8, k3]
    simp [DA.bdims, n1, Ne.symm n2, Ne.symm n3, Ne.symm n4, Ne.symm n5]
  · intro hd
    simp only [stericResult, if_pos hd, stericGlobal, bind_ok, pure_ok] at h9
    obtain ⟨rvol, q1, rhoga, q2, volo, q3, area', q4, rfl⟩ := h9
    cases q1.symm.trans D.rhvol
    cases q2.symm.trans D.rhrhoga
    cases q3.symm.trans D.rhvolo
    have hv : D.volo.dims = [] := by
      have := D.hvolo
      simp only [calcVolo, bind_ok, pure_ok] at this
      obtain ⟨-, -, h⟩ := this
      rw [← h]; rfl
    have hh : (D.volo / area'.sumAll).dims = [] := by rw [DA.dims_div, hv]; rfl
    have m1 : (calcMasso D.rrho D.rvol tc).dims = [] := by
      have : (D.rrho * D.rvol).dims = [(zc, n), (yc, ny), (xc, nx)] := by
        rw [DA.dims_mul, k4, k3, DA.bdims_eq_left (fun p hp => hp)]
      show (D.rrho * D.rvol).dims.filter _ = []
      rw [DA.dimNames, this]
      simp [Ne.symm n1, Ne.symm n2, Ne.symm n3]
    have m2 : (calcMasso rho D.rvol tc).dims = [(tc, nt)] := by
      show (rho * D.rvol).dims.filter _ = _
      have : (rho * D.rvol).dims = rho.dims := by
        rw [DA.dims_mul, k3]
        rcases k5 with k5 | k5
        · rw [k5, e1]
        · rw [k5, e4]
      rw [DA.dimNames, this]
      rcases k5 with k5 | k5 <;> rw [k5] <;>
        simp [n1, n2, n3, Ne.symm n1, Ne.symm n2, Ne.symm n3]
    refine ⟨_, _, rfl, hh, ?_⟩
    show DA.bdims (D.volo / area'.sumAll).dims (DA.bdims (DA.bdims _ _) (DA.bdims _ _)) = _
    rw [hh, m1, m2, hv]
    rfl

/-- Without `annual` the result is that of the monthly computation. -/
theorem C66_off
    (h : stericAnnual d reference cn vm rhozero patm eos variant domain strict false = .ok (R, ref)) :
    steric d.obj reference cn vm rhozero patm eos variant domain strict = .ok (R.obj, ref) := by
  simp only [stericAnnual, bind_ok] at h
  obtain ⟨⟨r', ref'⟩, h1, h2⟩ := h
  simp only [Bool.false_eq_true, if_false, pure_ok, Prod.mk.injEq] at h2
  obtain ⟨rfl, rfl⟩ := h2
  exact h1

theorem annualAverage_axes {tc : String} {l l' : List (String × TimeAxis)} (b : DA (Fl ℝ))
    (h : l.lookup tc = l'.lookup tc) : annualAverage ⟨b, l⟩ tc = annualAverage ⟨b, l'⟩ tc := by
  simp only [annualAverage, Timed.axis, dictGet, h]

/-- With `annual=True` the reference state is that of the monthly computation, and every result
variable is the annual average (C38) of the variable of the monthly computation with the same name. -/
theorem C66_value
    (h : stericAnnual d reference cn none rhozero patm eos variant domain strict true = .ok (R, ref)) :
    ∃ r, steric d.obj reference cn none rhozero patm eos variant domain strict = .ok (r, ref) ∧
      R.obj.vars.map Prod.fst = (r.vars.map Prod.fst).filter (fun n => n ∉ r.dimNames) ∧
      ∀ n a, (n, a) ∈ R.obj.vars → ∃ b, (n, b) ∈ r.vars ∧
        annualAverage ⟨b, d.axes⟩ "time" = .ok ⟨a, R.axes⟩ := by
  simp only [stericAnnual, bind_ok] at h
  obtain ⟨⟨r, ref'⟩, h1, h2⟩ := h
  simp only [if_true, bind_ok, pure_ok, Prod.mk.injEq] at h2
  obtain ⟨R', h3, rfl, rfl⟩ := h2
  have hc := steric_coords h1
  obtain ⟨c1, c2⟩ := (C38_dataset _ _ _).1 _ h3
  refine ⟨r, h1, ?_, fun n a hna => ?_⟩
  · rw [c1]
    simp only [hc]
    refine List.filter_congr (fun n _ => ?_)
    simp
  · obtain ⟨b, hb, hab⟩ := c2 n a hna
    refine ⟨b, hb, ?_⟩
    rw [← hab]
    rw [renameAxes_none] at hab ⊢
    simp only at hab ⊢
    by_cases ht : "time" ∈ r.dimNames
    · exact annualAverage_axes _ (lookup_filter_key d.axes (fun s => r.dimNames.contains s) "time"
        (by simpa using ht)).symm
    · have hn : (d.axes.filter (fun p => r.dimNames.contains p.1)).lookup "time" = none := by
        rw [List.lookup_eq_none_iff]
        intro p hp
        have := (List.mem_filter.1 hp).2
        rw [List.contains_iff_mem] at this
        have hh : "time" ≠ p.1 := fun hh => ht (hh ▸ this)
        simpa using hh
      rw [(C38_no_axis _ _).1 hn] at hab
      cases hab

/-- Whenever the monthly computation succeeds for a series along "time", the annual one succeeds exactly
if every year has twelve samples; otherwise it raises an AssertionError. -/
theorem C66_complete {ax : TimeAxis}
    (h : steric d.obj reference cn none rhozero patm eos variant domain strict = .ok (r, ref))
    (hax : d.axes.lookup "time" = some ax) (hne : ax.stamps ≠ [])
    (hname : ∀ p ∈ r.vars, p.1 ∉ r.dimNames) (ht : ∃ p ∈ r.vars, "time" ∈ p.2.dimNames) :
    ((∀ s ∈ ax.stamps, (inYear ax.stamps s.date.year).card = 12) →
      ∃ R, stericAnnual d reference cn none rhozero patm eos variant domain strict true
        = .ok (R, ref)) ∧
    (¬ (∀ s ∈ ax.stamps, (inYear ax.stamps s.date.year).card = 12) →
      stericAnnual d reference cn none rhozero patm eos variant domain strict true
        = .error .assertionError) := by
  have hc := steric_coords h
  obtain ⟨p, hp, htp⟩ := ht
  have htr : "time" ∈ r.dimNames := List.mem_flatMap.2 ⟨p, hp, htp⟩
  have hl : (d.axes.filter (fun p => r.dimNames.contains p.1)).lookup "time" = some ax := by
    rw [lookup_filter_key d.axes (fun s => r.dimNames.contains s) "time" (by simpa using htr), hax]
  have hv : averagedVars r (fun _ => false) "time" = .ok r.vars := by
    unfold averagedVars
    have : r.vars.filter (fun p => !(r.dimNames.contains p.1 || r.coords.contains p.1 || false))
        = r.vars := by
      rw [List.filter_eq_self]
      intro q hq
      have := hname q hq
      simp [hc, this]
    simp only [this]
    rw [if_pos]
    rw [List.any_eq_true]
    exact ⟨p, hp, by simpa using htp⟩
  have key := C38_twelve (x := ⟨p.2, d.axes⟩) (tc := "time") hax hne
  have e1 : stericAnnual d reference cn none rhozero patm eos variant domain strict true =
      (annualCheck ax >>= fun _ => pure ((⟨⟨r.vars.map (fun p => (p.1, annualReduce p.2 ax "time")),
        []⟩, [("time", annualAxis ax)]⟩ : Timed (DS (Fl ℝ))), ref)) := by
    simp only [stericAnnual, h, ok_bind, renameAxes_none, if_true, annualAverageDS,
      axis_ok (x := (⟨r, d.axes.filter (fun p => r.dimNames.contains p.1)⟩ : Timed (DS (Fl ℝ)))) hl hne,
      hv, bind_assoc, pure_bind]
  have e2 : annualAverage (⟨p.2, d.axes⟩ : Timed (DA (Fl ℝ))) "time" =
      (annualCheck ax >>= fun _ => pure ⟨annualReduce p.2 ax "time", [("time", annualAxis ax)]⟩) := by
    simp only [annualAverage, axis_ok (x := (⟨p.2, d.axes⟩ : Timed (DA (Fl ℝ)))) hax hne, ok_bind]
  rw [e1]
  rw [e2] at key
  cases hcheck : annualCheck ax with
  | ok u =>
    rw [hcheck] at key
    refine ⟨fun _ => ⟨_, rfl⟩, fun h => ?_⟩
    have := key.2 h
    cases this
  | error e =>
    rw [hcheck] at key
    refine ⟨fun h => ?_, fun h => ?_⟩
    rotate_left
    · have := key.2 h
      rw [error_bind] at this ⊢
      exact congrArg _ (Except.error.inj this)
    obtain ⟨_, h⟩ := key.1 h
    cases h

/-- Defect: `annual_average` is called without the name of the time coordinate.  If the time coordinate
is not called "time", `annual=True` raises a KeyError although the computation itself succeeded. -/
theorem C66_other_time_name
    (h : steric d.obj reference cn none rhozero patm eos variant domain strict = .ok (r, ref))
    (hax : d.axes.lookup "time" = none) :
    stericAnnual d reference cn none rhozero patm eos variant domain strict true
      = .error .keyError := by
  simp only [stericAnnual, h, ok_bind, renameAxes_none, if_true, annualAverageDS, Timed.axis, dictGet,
    lookup_filter_none d.axes (fun s => r.dimNames.contains s) "time" hax, error_bind]

/-- Renaming (`varname_map`) renames the time coordinate too. -/
theorem C66_rename {d' : DS (Fl ℝ)} {m : List (String × String)} {annual : Bool}
    (h : d.obj.rename (some m) = .ok d') :
    stericAnnual d reference cn (some m) rhozero patm eos variant domain strict annual =
    stericAnnual ⟨d', d.axes.map (fun p => ((m.lookup p.1).getD p.1, p.2))⟩ reference cn none rhozero
      patm eos variant domain strict annual := by
  have : steric d.obj reference cn (some m) rhozero patm eos variant domain strict =
      steric d' reference cn none rhozero patm eos variant domain strict := by
    simp only [steric, h, ok_bind, show d'.rename none = .ok d' from rfl]
  simp only [stericAnnual, this, renameAxes_none]
  rfl

end

/-! #### A concrete year of monthly data -/

noncomputable section

def yrDims (t : String) : List (String × Nat) := [(t, 12), ("z_l", 2), ("yh", 2), ("xh", 2)]
def yrT (t : String) : DA (Fl ℝ) := ⟨yrDims t, fun e => fin (10 + (e t : ℝ))⟩
def yrS (t : String) : DA (Fl ℝ) := ⟨yrDims t, fun e => fin (34 + (e t : ℝ))⟩
def yrV (t : String) : DA (Fl ℝ) := ⟨yrDims t, fun e => if e "xh" = 0 then fin 1 else nan⟩
def yrD (t : String) : DS (Fl ℝ) := ⟨[("thetao", yrT t), ("so", yrS t), ("volcello", yrV t),
  ("areacello", exA), ("deptho", exDepth), ("z_l", exZ), ("z_i", exZi)], ["z_l", "z_i"]⟩

theorem yrGood (t : String) (h : t ∉ ["z_l", "yh", "xh"]) :
    GoodData (yrD t) t "z_l" "z_i" "z_i" "yh" "xh" 12 2 2 2 (fun k => 500 + 1000 * (k : ℝ))
    (fun k => 1000 * (k : ℝ)) (yrT t) (yrS t) (yrV t) exA exDepth exZi (DA.scalar (fin 101325)) where
  names := by
    have : (["z_l", "yh", "xh"] : List String).Nodup := by decide
    exact List.nodup_cons.2 ⟨h, this⟩
  hnt := by norm_num
  hn := by norm_num
  hny := by norm_num
  hnx := by norm_num
  hth := rfl
  hso := rfl
  hvol := rfl
  harea := rfl
  hzb := rfl
  thd := rfl
  sod := rfl
  vold := rfl
  aread := rfl
  depthd := rfl
  grid := ⟨by
      refine ⟨exZ, exZi, rfl, rfl, rfl, fun e => rfl, fun k _ => by positivity, rfl, fun e => rfl,
        by simp, ?_⟩
      intro k _
      push_cast
      linarith, rfl, exGrid.bathy, exGrid.hz, by simp [yrD, DS.names]⟩
  alone := by simp [yrD, exZ, exZi, DA.dimNames]
  patmd := by simp

/-- The hypotheses of `C66_value` and `C66_complete` are met. -/
example : ∃ R ref, stericAnnual ⟨yrD "time", [("time", exAxis)]⟩ .none .none none (fin 1035)
    (DA.scalar (fin 101325)) "Wright" "steric" "local" true true = .ok (R, ref) := by
  obtain ⟨⟨r, ref⟩, h⟩ := C30_success (cn := .none) (variant := "steric") (domain := "local")
    (eos := "Wright") (rhozero := fin 1035) (strict := true)
    (yrGood "time" (by decide)) rfl (by simp) (Or.inl wright_case) (by simp) (fun _ => exArea)
  obtain ⟨dr, a, hr, hd1, hd2⟩ := (C25_shape (yrGood "time" (by decide)) rfl h).1 (by decide)
  have hdim : r.dimNames = ["time", "z_l", "yh", "xh", "time", "yh", "xh"] := by
    simp [DS.dimNames, DA.dimNames, hr, hd1, hd2]
  obtain ⟨R, hR⟩ := (C66_complete (d := ⟨yrD "time", [("time", exAxis)]⟩) h rfl (by decide)
    (fun p hp => by
      rw [hr] at hp
      rw [hdim]
      simp only [List.mem_cons, List.not_mem_nil, or_false] at hp
      rcases hp with rfl | rfl <;> simp)
    ⟨("delta_rho", dr), by rw [hr]; simp, by simp [DA.dimNames, hd1]⟩).1 (by decide)
  exact ⟨R, ref, hR⟩

/-- With the time coordinate called "t": the monthly computation succeeds, the annual one does not. -/
theorem C66_counterexample : ∃ (d : Timed (DS (Fl ℝ))) (cn : DictArg) (ax : TimeAxis),
    d.axes = [("t", ax)] ∧ (∀ s ∈ ax.stamps, (inYear ax.stamps s.date.year).card = 12) ∧
    (∃ x, steric d.obj .none cn none (fin 1035) (DA.scalar (fin 101325)) = .ok x) ∧
    stericAnnual d .none cn none (fin 1035) (DA.scalar (fin 101325)) (annual := true)
      = .error .keyError := by
  obtain ⟨⟨r, ref⟩, h⟩ := C30_success (cn := .dict [("t", "t")]) (variant := "steric")
    (domain := "local") (eos := "Wright") (rhozero := fin 1035) (strict := true)
    (yrGood "t" (by decide)) rfl (by simp) (Or.inl wright_case) (by simp) (fun _ => exArea)
  exact ⟨⟨yrD "t", [("t", exAxis)]⟩, .dict [("t", "t")], exAxis, rfl, by decide, ⟨_, h⟩,
    C66_other_time_name h rfl⟩

/-- `C66_off`: without the annual flag the result is that of `steric`. -/
example {R : Timed (DS (Fl ℝ))} {ref : DS (Fl ℝ)}
    (h : stericAnnual ⟨yrD "time", [("time", exAxis)]⟩ .none .none none (fin 1035) (DA.scalar (fin 101325)) "Wright"
      "steric" "local" true false = .ok (R, ref)) :
    steric (yrD "time") .none .none none (fin 1035) (DA.scalar (fin 101325)) "Wright" "steric" "local" true
      = .ok (R.obj, ref) :=
  C66_off h

end

end Momlevel.Props
