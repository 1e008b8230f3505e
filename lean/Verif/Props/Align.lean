import Verif.Lemmas.Labels
import Verif.Props.StericSuccess

/-!
# C81–C83: labels of a supplied reference

C81: `steric` with labels is the `steric` of the other properties when the labels agree.
C82, C83: what happens when they do not.
-/

set_option linter.unusedSectionVars false

namespace Momlevel.Props
open Momlevel Fl Eos

variable {L : Type} [DecidableEq L] {size : String → Nat}
variable {K : Type} [Field K] [LinearOrder K]

/-- Attach labels to the variables of a dataset. -/
def labelled (idx : Index L) (r : DS (Fl K)) : List (String × LA L (Fl K)) :=
  r.vars.map (fun p => (p.1, ⟨p.2, idx⟩))

theorem local_same {d r : DS (Fl K)} {idx : Index L} {rho : DA (Fl K)} (hd : SizedDS size d)
    (hr : SizedDS size r) (hrho : Sized size rho) (tc zc zb : String) (rz : Fl K) (v : String) :
    stericLocalL ⟨d, idx⟩ ⟨r, idx⟩ ⟨rho, idx⟩ tc zc zb rz v
      = (stericLocal d r rho tc zc zb rz v).map (labelled idx) := by
  simp only [stericLocalL, stericLocal, LDS.getVar]
  cases h1 : r.getVar "volcello" with
  | error e => rfl
  | ok rvol =>
    have s1 := hr.getVar h1
    simp only [ok_bind]
    cases h2 : r.getVar "rho" with
    | error e => rfl
    | ok rrho =>
      have s2 := hr.getVar h2
      have s3 : Sized size (DA.zip (· - ·) rho rrho) := hrho.zip s2
      have s4 : Sized size (DA.zip (fun v d => Fl.sel (Fl.notnull v) d .nan) rvol (DA.zip (· - ·) rho rrho)) :=
        s1.zip s3
      simp only [ok_bind, pure_bind, zipInner_same hrho s2, zipExact_same s1 s3, LA.lift]
      have e1 : rho - rrho = DA.zip (· - ·) rho rrho := rfl
      rw [e1]
      cases h3 : (DA.zip (fun v d => Fl.sel (Fl.notnull v) d .nan) rvol
          (DA.zip (· - ·) rho rrho)).transposeE tc with
      | error e => rfl
      | ok dr =>
        have s5 := s4.transposeE h3
        simp only [ok_bind, pure_bind]
        cases h4 : d.getItem zc with
        | error e => rfl
        | ok z =>
          simp only [ok_bind]
          cases h5 : d.getItem zb with
          | error e => rfl
          | ok zi =>
            simp only [ok_bind]
            cases h6 : d.getVar "deptho" with
            | error e => rfl
            | ok dep =>
              simp only [ok_bind]
              cases h7 : calcDz z zi dep with
              | error e => rfl
              | ok dz =>
                simp only [ok_bind]
                cases ha : levelsAlone d zc with
                | error e => rfl
                | ok u =>
                simp only [ok_bind]
                cases h8 : pyFloatDiv (-1.0 : Fl K) rz with
                | error e => rfl
                | ok coef =>
                  have s6 : Sized size dz := (hd.getItem h4).calcDz (hd.getVar h6) h7
                  have s7 : Sized size (DA.zip (· * ·) dz dr) := s6.zip s5
                  simp only [ok_bind, zipInner_same s6 s5]
                  have e2 : dz * dr = DA.zip (· * ·) dz dr := rfl
                  rw [e2]
                  cases h9 : (DA.zip (· * ·) dz dr).sumDimE zc with
                  | error e => rfl
                  | ok tot =>
                    have s8 := s7.sumDimE h9
                    simp only [ok_bind, pure_bind]
                    cases h10 : (tot.map (fun s => coef * s)).transposeE tc with
                    | error e => rfl
                    | ok sl =>
                      have s9 : Sized size sl := (Sized.map s8).transposeE h10
                      simp only [ok_bind, pure_bind]
                      cases h11 : rvol.iselE zc 0 with
                      | error e => rfl
                      | ok top =>
                        simp only [ok_bind, pure_bind, zipInner_same s9 (s1.iselE h11)]
                        rfl

theorem global_same {r : DS (Fl ℝ)} {idx : Index L} {rho : DA (Fl ℝ)}
    (hr : SizedDS size r) (hrho : Sized size rho) (tc : String) (v : String) :
    stericGlobalL ⟨r, idx⟩ ⟨rho, idx⟩ tc v = (stericGlobal r rho tc v).map (labelled idx) := by
  simp only [stericGlobalL, stericGlobal, LDS.getVar]
  cases h1 : r.getVar "volcello" with
  | error e => rfl
  | ok rvol =>
    have s1 := hr.getVar h1
    simp only [ok_bind, pure_bind, zipInner_same hrho s1]
    cases h2 : r.getVar "rhoga" with
    | error e => rfl
    | ok rhoga =>
      have s2 := hr.getVar h2
      simp only [ok_bind, pure_bind]
      cases h3 : r.getVar "volo" with
      | error e => rfl
      | ok volo =>
        have s3 := hr.getVar h3
        have s4 : Sized size (calcMasso rho rvol tc) := hrho.calcMasso s1
        have s5 : Sized size ((DA.zip (· * ·) rho rvol).sumDims
            ((DA.zip (· * ·) rho rvol).dimNames.filter (fun x => x != tc))) := s4
        have s6 := s5.zip (f := (· / ·)) s3
        simp only [ok_bind, pure_bind, zipInner_same s5 s3, zipInner_same s2 s6]
        cases h4 : r.getVar "areacello" with
        | error e => rfl
        | ok area =>
          have s7 : Sized size (volo / area.sumAll) := s3.zip Sized.sumAll
          have s8 := Sized.map (f := npLog) (s2.zip (f := (· / ·)) s6)
          simp only [ok_bind, pure_bind, zipInner_same s7 s8]
          rfl

/-- The reference argument without its labels. -/
def RefArgL.forget : RefArgL L ℝ → RefArg ℝ
  | .none => .none
  | .dataset d => .dataset d.ds
  | .other => .other

/-- When the reference has the labels of the data, alignment changes nothing: the labelled computation is the
positional one. -/
theorem C81_same_labels {dset : LDS L ℝ} {reference : RefArgL L ℝ} {patm : DA (Fl ℝ)}
    (hd : SizedDS size dset.ds) (hp : Sized size patm)
    (hr : ∀ r, reference = .dataset r → SizedDS size r.ds ∧ r.idx = dset.idx)
    (cn : DictArg) (rhozero : Fl ℝ) (eos variant domain : String) (strict : Bool) :
    stericL dset reference cn rhozero patm eos variant domain strict
      = (steric dset.ds (RefArgL.forget reference) cn none rhozero patm eos variant domain strict).map
          (fun q => (labelled dset.idx q.1, ⟨q.2, dset.idx⟩)) := by
  obtain ⟨d, idx⟩ := dset
  simp only at hd hr
  simp only [stericL, steric, DS.rename, ok_bind]
  cases h1 : defaultCoords cn with
  | error e => rfl
  | ok c =>
    obtain ⟨tc, zc, zb⟩ := c
    simp only [ok_bind]
    cases h2 : validateDataset d false strict
        (if domain = "global" then VarsArg.none else VarsArg.list [zb, "deptho"]) with
    | error e => rfl
    | ok u =>
      simp only [ok_bind]
      cases h3 : pressureField d zc patm with
      | error e => rfl
      | ok pres =>
        have sp := Sized.pressure hd hp h3
        simp only [ok_bind]
        have hc : chooseReferenceL ⟨d, idx⟩ reference patm eos cn
            = (chooseReference d (RefArgL.forget reference) patm eos cn).map (fun r => ⟨r, idx⟩) := by
          cases reference with
          | none =>
            simp only [chooseReferenceL, chooseReference, RefArgL.forget]
            cases setupReferenceState d patm eos cn <;> rfl
          | other => rfl
          | dataset r =>
            obtain ⟨r, ir⟩ := r
            have := (hr _ rfl).2
            simp only at this
            subst this
            rfl
        rw [hc]
        cases h4 : chooseReference d (RefArgL.forget reference) patm eos cn with
        | error e => rfl
        | ok ref =>
          have sr : SizedDS size ref := by
            cases reference with
            | none => exact hd.setup hp h4
            | other => cases h4
            | dataset r =>
              cases h4
              exact (hr _ rfl).1
          simp only [Except.map, ok_bind]
          cases h5 : validateDataset ref true strict with
          | error e => rfl
          | ok u =>
            simp only [ok_bind]
            have hf : stericFieldsL ⟨d, idx⟩ ⟨ref, idx⟩ variant = (stericFields d ref variant).map
                (fun q => (⟨q.1, idx⟩, ⟨q.2, idx⟩)) := by
              unfold stericFieldsL stericFields LDS.getVar
              split_ifs
              · cases d.getVar "thetao" <;> [rfl; cases ref.getVar "so" <;> rfl]
              · cases ref.getVar "thetao" <;> [rfl; cases d.getVar "so" <;> rfl]
              · cases d.getVar "thetao" <;> [rfl; cases d.getVar "so" <;> rfl]
              · rfl
            rw [hf]
            cases h6 : stericFields d ref variant with
            | error e => rfl
            | ok q =>
              obtain ⟨th, so⟩ := q
              have hths : Sized size th ∧ Sized size so := by
                rcases stericFields_ok h6 with ⟨-, a, b⟩ | ⟨-, a, b⟩ | ⟨-, a, b⟩
                · exact ⟨hd.getVar a, sr.getVar b⟩
                · exact ⟨sr.getVar a, hd.getVar b⟩
                · exact ⟨hd.getVar a, hd.getVar b⟩
              simp only [Except.map, ok_bind, calcRhoL_same hths.1 hths.2 sp]
              cases h7 : calcRho th so pres eos with
              | error e => rfl
              | ok rho =>
                have srho := hths.1.calcRho hths.2 sp h7
                simp only [ok_bind, stericResultL, stericResult]
                split_ifs with hg
                · rw [global_same sr srho]
                  cases stericGlobal ref rho tc variant <;> rfl
                · rw [local_same hd sr srho]
                  cases stericLocal d ref rho tc zc zb rhozero variant <;> rfl

/-- A successful labelled run, step by step. -/
theorem stericL_ok {D : LDS L ℝ} {reference : RefArgL L ℝ} {cn : DictArg} {rhozero : Fl ℝ}
    {patm : DA (Fl ℝ)} {eos variant domain : String} {strict : Bool}
    {out : List (String × LA L (Fl ℝ))} {R : LDS L ℝ}
    (h : stericL D reference cn rhozero patm eos variant domain strict = .ok (out, R)) :
    ∃ tc zc zb pres th so rho, defaultCoords cn = .ok (tc, zc, zb) ∧
      pressureField D.ds zc patm = .ok pres ∧ chooseReferenceL D reference patm eos cn = .ok R ∧
      stericFieldsL D R variant = .ok (th, so) ∧ calcRhoL th so ⟨pres, D.idx⟩ eos = .ok rho ∧
      stericResultL D R rho tc zc zb rhozero variant domain = .ok out := by
  simp only [stericL, bind_ok, pure_ok] at h
  obtain ⟨⟨tc, zc, zb⟩, h2, ⟨⟩, h3, pres, h4, ref', h5, ⟨⟩, h6, ⟨th, so⟩, h7, rho, h8, r', h9, h10⟩ := h
  cases h10
  exact ⟨tc, zc, zb, pres, th, so, rho, h2, h4, h5, h7, h8, h9⟩

theorem stericFieldsL_ok {D R : LDS L K} {variant : String} {th so : LA L (Fl K)}
    (h : stericFieldsL D R variant = .ok (th, so)) :
    (variant = "thermosteric" ∧ th.idx = D.idx ∧ so.idx = R.idx ∧ D.ds.getVar "thetao" = .ok th.arr ∧
      R.ds.getVar "so" = .ok so.arr) ∨
    (variant = "halosteric" ∧ th.idx = R.idx ∧ so.idx = D.idx ∧ R.ds.getVar "thetao" = .ok th.arr ∧
      D.ds.getVar "so" = .ok so.arr) ∨
    (variant = "steric" ∧ th.idx = D.idx ∧ so.idx = D.idx ∧ D.ds.getVar "thetao" = .ok th.arr ∧
      D.ds.getVar "so" = .ok so.arr) := by
  unfold stericFieldsL LDS.getVar at h
  split at h
  · rename_i hv
    simp only [bind_ok, pure_ok] at h
    obtain ⟨_, ⟨a, h1, rfl⟩, _, ⟨b, h2, rfl⟩, h3⟩ := h
    cases h3
    exact Or.inl ⟨hv, rfl, rfl, h1, h2⟩
  · split at h
    · rename_i hv
      simp only [bind_ok, pure_ok] at h
      obtain ⟨_, ⟨a, h1, rfl⟩, _, ⟨b, h2, rfl⟩, h3⟩ := h
      cases h3
      exact Or.inr (Or.inl ⟨hv, rfl, rfl, h1, h2⟩)
    · split at h
      · rename_i hv
        simp only [bind_ok, pure_ok] at h
        obtain ⟨_, ⟨a, h1, rfl⟩, _, ⟨b, h2, rfl⟩, h3⟩ := h
        cases h3
        exact Or.inr (Or.inr ⟨hv, rfl, rfl, h1, h2⟩)
      · cases h

theorem LDS.Proper.fields {D R : LDS L K} (hD : D.Proper) (hR : R.Proper) {variant : String}
    {th so : LA L (Fl K)} (h : stericFieldsL D R variant = .ok (th, so)) : th.Proper ∧ so.Proper := by
  obtain ⟨tha, thi⟩ := th
  obtain ⟨soa, soi⟩ := so
  rcases stericFieldsL_ok h with ⟨-, a, b, c, d⟩ | ⟨-, a, b, c, d⟩ | ⟨-, a, b, c, d⟩ <;>
    (simp only at a b c d; subst a; subst b)
  · exact ⟨hD.getVar c, hR.getVar d⟩
  · exact ⟨hR.getVar c, hD.getVar d⟩
  · exact ⟨hD.getVar c, hD.getVar d⟩

/-- The thermosteric and halosteric variants combine fields of the data and of the reference in the equation of
state, which insists on equal labels: a successful run, local or global, had the same labels on both sides. -/
theorem C82_mixed_exact {D R : LDS L ℝ} (hD : D.Proper) (hR : R.Proper) {patm : DA (Fl ℝ)}
    (hp : (⟨patm, D.idx⟩ : LA L (Fl ℝ)).Proper) {cn : DictArg} {rhozero : Fl ℝ} {eos domain : String}
    {strict : Bool} {out : List (String × LA L (Fl ℝ))} {R' : LDS L ℝ} {a b : DA (Fl ℝ)} :
    (stericL D (.dataset R) cn rhozero patm eos "thermosteric" domain strict = .ok (out, R') →
      D.ds.getVar "thetao" = .ok a → R.ds.getVar "so" = .ok b →
      ∀ d, d ∈ a.dimNames → d ∈ b.dimNames → D.idx d = R.idx d) ∧
    (stericL D (.dataset R) cn rhozero patm eos "halosteric" domain strict = .ok (out, R') →
      R.ds.getVar "thetao" = .ok a → D.ds.getVar "so" = .ok b →
      ∀ d, d ∈ a.dimNames → d ∈ b.dimNames → D.idx d = R.idx d) := by
  have main : ∀ variant, stericL D (.dataset R) cn rhozero patm eos variant domain strict = .ok (out, R') →
      ∃ th so, stericFieldsL D R variant = .ok (th, so) ∧ Agree th so := by
    intro variant h
    obtain ⟨tc, zc, zb, pres, th, so, rho, -, h4, h5, h7, h8, -⟩ := stericL_ok h
    cases h5
    have pf := LDS.Proper.fields hD hR h7
    obtain ⟨f, -, sp⟩ := calcRhoL_spec pf.1 pf.2 (hD.pressure hp h4) h8
    exact ⟨th, so, h7, sp.agree1⟩
  constructor
  · intro h ha hb d h1 h2
    obtain ⟨th, so, hf, ag⟩ := main _ h
    rcases stericFieldsL_ok hf with ⟨-, e1, e2, e3, e4⟩ | ⟨hv, -⟩ | ⟨hv, -⟩
    · rw [ha] at e3
      rw [hb] at e4
      cases e3; cases e4
      have := ag d h1 h2
      rwa [e1, e2] at this
    · exact absurd hv (by decide)
    · exact absurd hv (by decide)
  · intro h ha hb d h1 h2
    obtain ⟨th, so, hf, ag⟩ := main _ h
    rcases stericFieldsL_ok hf with ⟨hv, -⟩ | ⟨-, e1, e2, e3, e4⟩ | ⟨hv, -⟩
    · exact absurd hv (by decide)
    · rw [ha] at e3
      rw [hb] at e4
      cases e3; cases e4
      have := ag d h1 h2
      rw [e1, e2] at this
      exact this.symm
    · exact absurd hv (by decide)

theorem dz_names {z zi dep dz : DA (Fl K)} {zc : String} {n : Nat} (hz : z.dims = [(zc, n)])
    (h : calcDz z zi dep = .ok dz) : zc ∈ dz.dimNames := by
  unfold Momlevel.calcDz at h
  simp only [bind_ok] at h
  obtain ⟨-, -, -, -, -, -, h⟩ := h
  split at h
  · rename_i zn n' zin m e1 e2
    rw [hz] at e1
    cases e1
    split at h
    · cases h
    · rw [if_neg (by simp)] at h
      have h := Except.ok.inj h
      subst h
      refine mem_dimNames_zip.2 (Or.inl ?_)
      refine (mem_dimNames_zip (f := fun (a b : Fl K) => a - b)).2 (Or.inl ?_)
      show zc ∈ (DA.bdims _ [(zc, n)]).map Prod.fst
      unfold DA.bdims
      rw [List.map_append, List.mem_append]
      by_cases hm : zc ∈ (limitDepth dep none).dims.map Prod.fst
      · exact Or.inl hm
      · refine Or.inr (List.mem_map.2 ⟨(zc, n), List.mem_filter.2 ⟨by simp, ?_⟩, rfl⟩)
        simpa using hm
  · cases h

theorem sel_notnull (v x : Fl ℝ) : Fl.sel (Fl.notnull v) x .nan = if v = nan then nan else x := by
  cases v <;> rfl

/-- Local steric sea level of data against a supplied reference with other labels.  A run that succeeds had, on
every shared dimension, the labels of the reference among those of the data, in the same order; the sum then runs
over the levels of the *reference*, and data are compared with the reference label by label.  Levels of the data
that the reference lacks are left out silently. -/
theorem C82_local {D R R' : LDS L ℝ} (hD : D.Proper) (hR : R.Proper) {patm : DA (Fl ℝ)}
    (hp : (⟨patm, D.idx⟩ : LA L (Fl ℝ)).Proper) {cn : DictArg} {rhozero : Fl ℝ} {eos domain : String}
    {strict : Bool} {out : List (String × LA L (Fl ℝ))} {tc zc zb : String}
    (hc : defaultCoords cn = .ok (tc, zc, zb)) (hdom : domain ≠ "global")
    {th so rvol rrho pres z zi depth dz : DA (Fl ℝ)} {n : Nat}
    (hth : D.ds.getVar "thetao" = .ok th) (hso : D.ds.getVar "so" = .ok so)
    (hrvol : R.ds.getVar "volcello" = .ok rvol) (hrrho : R.ds.getVar "rho" = .ok rrho)
    (hpres : Spec.IsPressure D.ds zc patm pres)
    (hz : D.ds.getItem zc = .ok z) (hzd : z.dims = [(zc, n)]) (hzi : D.ds.getItem zb = .ok zi)
    (hdep : D.ds.getVar "deptho" = .ok depth) (hdz : calcDz z zi depth = .ok dz)
    (h : stericL D (.dataset R) cn rhozero patm eos "steric" domain strict = .ok (out, R')) :
    (∀ d la lb, d ∈ rvol.dimNames → d ∈ th.dimNames → D.idx d = some la → R.idx d = some lb →
      lb = la.filter (fun x => decide (x ∈ lb))) ∧
    ∃ (f : EosFn (Fl ℝ)) (coef : Fl ℝ) (levels : List L) (h0 : 0 < levels.length) (dr res : LA L (Fl ℝ)),
      eosFuncFromStr eos "density" = .ok f ∧ (∀ ρ, rhozero = fin ρ → ρ ≠ 0 ∧ coef = fin (-1 / ρ)) ∧ (rhozero ≠ nan → ∃ c, coef = fin c) ∧
      R.idx zc = some levels ∧ out = [("delta_rho", dr), ("steric", res)] ∧
      (∀ ℓ, dr.Valid ℓ → dr.sel ℓ = if (⟨rvol, R.idx⟩ : LA L (Fl ℝ)).sel ℓ = nan then nan else
        (f ((⟨th, D.idx⟩ : LA L (Fl ℝ)).sel ℓ) ((⟨so, D.idx⟩ : LA L (Fl ℝ)).sel ℓ)
            ((⟨pres, D.idx⟩ : LA L (Fl ℝ)).sel ℓ)
          - (⟨rrho, R.idx⟩ : LA L (Fl ℝ)).sel ℓ)) ∧
      (∀ ℓ, res.Valid ℓ → (∀ x ∈ levels, dr.Valid (Function.update ℓ zc x)) ∧
        res.sel ℓ = if (⟨rvol, R.idx⟩ : LA L (Fl ℝ)).sel (Function.update ℓ zc (levels[0]'h0)) = nan then nan else
          (coef * Fl.nansum (levels.map (fun x => (⟨dz, D.idx⟩ : LA L (Fl ℝ)).sel (Function.update ℓ zc x)
            * dr.sel (Function.update ℓ zc x))))) := by
  have hpres := of_isPressure hpres
  obtain ⟨tc', zc', zb', pres', th', so', rho, h1, h4, h5, h7, h8, h9⟩ := stericL_ok h
  rw [hc] at h1
  cases h1
  cases h5
  rw [hpres] at h4
  cases h4
  have pf := LDS.Proper.fields hD hR h7
  have ppr := hD.pressure hp hpres
  obtain ⟨f, hf, sp⟩ := calcRhoL_spec pf.1 pf.2 ppr h8
  obtain ⟨tha, thi⟩ := th'
  obtain ⟨soa, soi⟩ := so'
  rcases stericFieldsL_ok h7 with ⟨hv, -⟩ | ⟨hv, -⟩ | ⟨-, e1, e2, e3, e4⟩
  · exact absurd hv (by decide)
  · exact absurd hv (by decide)
  simp only at e1 e2 e3 e4
  subst e1; subst e2
  rw [hth] at e3
  rw [hso] at e4
  cases e3; cases e4
  unfold stericResultL at h9
  rw [if_neg hdom] at h9
  obtain ⟨run⟩ := localLabels_of hD hR sp.proper h9
  have k1 : run.rvol = rvol := by have := run.hrvol; rw [hrvol] at this; exact (Except.ok.inj this).symm
  have k2 : run.rrho = rrho := by have := run.hrrho; rw [hrrho] at this; exact (Except.ok.inj this).symm
  have k3 : run.z = z := by have := run.hz; rw [hz] at this; exact (Except.ok.inj this).symm
  have k4 : run.zi = zi := by have := run.hzi; rw [hzi] at this; exact (Except.ok.inj this).symm
  have k5 : run.depth = depth := by have := run.hdepth; rw [hdep] at this; exact (Except.ok.inj this).symm
  have k6 : run.dz = dz := by
    have := run.hdz
    rw [k3, k4, k5, hdz] at this
    exact (Except.ok.inj this).symm
  have hzdz : zc ∈ dz.dimNames := dz_names hzd hdz
  have hzpres : zc ∈ pres.dimNames := by
    simp only [pressureField, hz, ok_bind, pure_ok] at hpres
    subst hpres
    refine mem_dimNames_zip.2 (Or.inl ?_)
    refine mem_dimNames_zip.2 (Or.inl ?_)
    simp [DA.dimNames, hzd]
  refine ⟨fun d la lb hd hdt ha hb => ?_, f, run.coef, run.levels, run.hlev0, run.dr, run.res, hf, (coef_fin run.hcoef).1,
    (coef_fin run.hcoef).2, run.hlev, run.hout, fun ℓ hℓ => ?_, fun ℓ hℓ => ⟨fun x hx => run.res_valid ℓ x hℓ hx, ?_⟩⟩
  · have := run.nested d la lb (by rw [k1]; exact hd) ((sp.names d).2 (Or.inl hdt))
      (by rw [sp.idx_th d hdt]; exact ha) hb
    have e : joinLabels la lb = la.filter (fun x => decide (x ∈ lb)) := by
      unfold joinLabels
      congr 1
      funext x
      simp
    rw [← e, this]
  · have := run.dr_sel ℓ hℓ
    rw [k1, k2, sp.sel ℓ, sel_notnull] at this
    exact this
  · have := run.res_sel ℓ hℓ (by rw [k6]; exact hzdz)
    simp only [k1, k6, sel_notnull] at this
    rw [this]
    obtain ⟨la, hla, -⟩ := Proper.idx_some (hD.getItem hz) (d := zc) (by simp [DA.dimNames, hzd])
    have hla' : D.idx zc = some la := hla
    have hn := run.nested zc la run.levels run.hzc ((sp.names zc).2 (Or.inr (Or.inr hzpres)))
      (by rw [sp.idx_pres zc hzpres]; exact hla) run.hlev
    have : (((D.idx zc).getD []).filter (fun x => run.levels.contains x)) = run.levels := by
      rw [hla']
      exact hn
    rw [this]

end Momlevel.Props
