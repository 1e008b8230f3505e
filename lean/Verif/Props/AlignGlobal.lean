import Verif.Lemmas.Combos
import Verif.Props.Align

/-! # C83: global steric sea level against a reference with other labels -/

set_option linter.unusedSectionVars false

namespace Momlevel.Props
open Momlevel Fl Eos

variable {L : Type} [DecidableEq L]

section
variable {D R R' : LDS L ℝ} {patm : DA (Fl ℝ)} {cn : DictArg} {rhozero : Fl ℝ} {eos : String}
    {strict : Bool} {out : List (String × LA L (Fl ℝ))} {tc zc zb : String}
    {th so rvol rhoga volo area pres : DA (Fl ℝ)}

/-- Global steric sea level: the mass of the data is summed over the labels common to data and reference, while
volume, mean density and height are those of the whole reference. -/
theorem C83_value (hD : D.Proper) (hR : R.Proper) (hp : (⟨patm, D.idx⟩ : LA L (Fl ℝ)).Proper)
    (hc : defaultCoords cn = .ok (tc, zc, zb))
    (hth : D.ds.getVar "thetao" = .ok th) (hso : D.ds.getVar "so" = .ok so)
    (hrvol : R.ds.getVar "volcello" = .ok rvol) (hrhoga : R.ds.getVar "rhoga" = .ok rhoga)
    (hvolo : R.ds.getVar "volo" = .ok volo) (harea : R.ds.getVar "areacello" = .ok area)
    (hpres : Spec.IsPressure D.ds zc patm pres) (d1 : rhoga.dims = []) (d2 : volo.dims = [])
    (h : stericL D (.dataset R) cn rhozero patm eos "steric" "global" strict = .ok (out, R')) :
    ∃ (f : EosFn (Fl ℝ)) (rh sl : LA L (Fl ℝ)) (dims : List String) (dnames : List String),
      eosFuncFromStr eos "density" = .ok f ∧ out = [("reference_height", rh), ("steric", sl)] ∧
      (∀ d, d ∈ dnames ↔ d ∈ th.dimNames ∨ d ∈ so.dimNames ∨ d ∈ pres.dimNames) ∧
      dims.Nodup ∧ (∀ d, d ∈ dims ↔ (d ∈ dnames ∨ d ∈ rvol.dimNames) ∧ d ≠ tc) ∧
      (∀ e, rh.arr.get e = volo.get (fun _ => 0) / area.sumAll.get (fun _ => 0)) ∧
      (∀ ℓ, sl.Valid ℓ ↔ (tc ∈ dnames ∨ tc ∈ rvol.dimNames →
        ℓ tc ∈ commonLabels (tc ∈ dnames) (tc ∈ rvol.dimNames) (D.idx tc) (R.idx tc))) ∧
      ∀ ℓ, sl.Valid ℓ → sl.sel ℓ = volo.get (fun _ => 0) / area.sumAll.get (fun _ => 0)
        * npLog (rhoga.get (fun _ => 0) / (Fl.nansum ((labelCombos (dims.map (fun d =>
            (d, commonLabels (d ∈ dnames) (d ∈ rvol.dimNames) (D.idx d) (R.idx d)))) ℓ).map (fun m =>
              f ((⟨th, D.idx⟩ : LA L (Fl ℝ)).sel m) ((⟨so, D.idx⟩ : LA L (Fl ℝ)).sel m)
                ((⟨pres, D.idx⟩ : LA L (Fl ℝ)).sel m) * (⟨rvol, R.idx⟩ : LA L (Fl ℝ)).sel m))
          / volo.get (fun _ => 0))) := by
  have hpres := of_isPressure hpres
  obtain ⟨tc', zc', zb', pres', th', so', rho, h1, h4, h5, h7, h8, h9⟩ := stericL_ok h
  rw [hc] at h1
  cases h1
  cases h5
  rw [hpres] at h4
  cases h4
  have pf := LDS.Proper.fields hD hR h7
  have ppr := hD.pressure hp hpres
  obtain ⟨f, hf, sp⟩ := calcRhoL_spec pf.1 pf.2 ppr h8
  obtain ⟨tha, thi⟩ := th'
  obtain ⟨soa, soi⟩ := so'
  rcases stericFieldsL_ok h7 with ⟨hv, -⟩ | ⟨hv, -⟩ | ⟨-, e1, e2, e3, e4⟩
  · exact absurd hv (by decide)
  · exact absurd hv (by decide)
  simp only at e1 e2 e3 e4
  subst e1; subst e2
  rw [hth] at e3
  rw [hso] at e4
  cases e3; cases e4
  unfold stericResultL at h9
  rw [if_pos rfl] at h9
  obtain ⟨rh, sl, mass, hout, j, hn, hrd, hrv, hvt, hval⟩ := globalLabels_of hR sp.proper hrvol hrhoga hvolo harea
    d1 d2 h9
  have idxD : ∀ d ∈ rho.arr.dimNames, rho.idx d = D.idx d := by
    intro d hd
    rcases (sp.names d).1 hd with h | h | h
    · exact sp.idx_th d h
    · exact sp.idx_so d h
    · exact sp.idx_pres d h
  have hlab : ∀ d ∈ mass.arr.dimNames, mass.labelsOf d
      = commonLabels (d ∈ rho.arr.dimNames) (d ∈ rvol.dimNames) (D.idx d) (R.idx d) := by
    intro d hd
    unfold LA.labelsOf commonLabels
    by_cases k1 : d ∈ rho.arr.dimNames
    · rw [if_pos k1]
      obtain ⟨la, i1, -⟩ := Proper.idx_some sp.proper k1
      have i1' := i1
      rw [idxD d k1] at i1'
      by_cases k2 : d ∈ rvol.dimNames
      · rw [if_pos k2]
        obtain ⟨lb, i2, -⟩ := Proper.idx_some (hR.getVar hrvol) k2
        rw [j.both d la lb k1 k2 i1 i2, i1', show R.idx d = some lb from i2]
        unfold joinLabels
        simp
      · rw [if_neg k2, j.left d k1 k2, idxD d k1]
    · rw [if_neg k1]
      have k2 := ((j.names d).1 hd).resolve_left k1
      rw [j.right d k1 k2]
  have hdn : (mass.arr.dimNames.filter (fun x => x != tc)).Nodup := j.proper.nodup.filter _
  refine ⟨f, rh, sl, mass.arr.dimNames.filter (fun x => x != tc), rho.arr.dimNames, hf, hout, sp.names, hdn, ?_,
    hrv, ?_, ?_⟩
  · intro d
    rw [List.mem_filter, j.names]
    simp
  · intro ℓ
    rw [hvt ℓ]
    constructor
    · intro h hm
      have hm' := (j.names tc).2 hm
      obtain ⟨la, i1, i2⟩ := h tc hm' rfl
      rw [← hlab tc hm']
      unfold LA.labelsOf
      rw [i1]
      exact i2
    · rintro h d hd rfl
      have h2 := h ((j.names d).1 hd)
      rw [← hlab d hd] at h2
      obtain ⟨la, i1, -⟩ := Proper.idx_some j.proper hd
      unfold LA.labelsOf at h2
      rw [i1] at h2
      exact ⟨la, i1, h2⟩
  · intro ℓ hℓ
    rw [hval ℓ hℓ]
    have e1 : (mass.arr.dimNames.filter (fun x => x != tc)).map (fun d => (d, mass.labelsOf d))
        = (mass.arr.dimNames.filter (fun x => x != tc)).map (fun d =>
          (d, commonLabels (d ∈ rho.arr.dimNames) (d ∈ rvol.dimNames) (D.idx d) (R.idx d))) := by
      apply List.map_congr_left
      intro d hd
      rw [hlab d (List.mem_filter.1 hd).1]
    have e2 : (labelCombos ((mass.arr.dimNames.filter (fun x => x != tc)).map (fun d => (d, mass.labelsOf d))) ℓ).map
        mass.sel = (labelCombos ((mass.arr.dimNames.filter (fun x => x != tc)).map
          (fun d => (d, mass.labelsOf d))) ℓ).map (fun m =>
              f ((⟨th, D.idx⟩ : LA L (Fl ℝ)).sel m) ((⟨so, D.idx⟩ : LA L (Fl ℝ)).sel m)
                ((⟨pres, D.idx⟩ : LA L (Fl ℝ)).sel m) * (⟨rvol, R.idx⟩ : LA L (Fl ℝ)).sel m) := by
      apply List.map_congr_left
      intro m hm
      obtain ⟨q1, q2⟩ := combos_mem hm hdn
      rw [j.sel m, sp.sel m]
      intro d hd
      by_cases hdt : d = tc
      · rw [q2 d (by simp [hdt])]
        exact (hvt ℓ).1 hℓ d hd hdt
      · have := q1 d (List.mem_filter.2 ⟨hd, by simpa using hdt⟩)
        obtain ⟨la, i1, -⟩ := Proper.idx_some j.proper hd
        refine ⟨la, i1, ?_⟩
        unfold LA.labelsOf at this
        rwa [i1] at this
    rw [e2, e1]

/-- A supplied reference none of whose labels the data lack: where the data have the reference's density at the
reference's labels, the global steric sea level is zero, whatever further labels the data have.

The full claim would be without `hnest`: the data have the density of the reference at all labels they share.
That claim is false (`C83_counterexample`). -/
theorem C83_partial (hD : D.Proper) (hR : R.Proper) (hp : (⟨patm, D.idx⟩ : LA L (Fl ℝ)).Proper)
    (hc : defaultCoords cn = .ok (tc, zc, zb))
    (hth : D.ds.getVar "thetao" = .ok th) (hso : D.ds.getVar "so" = .ok so)
    (hrvol : R.ds.getVar "volcello" = .ok rvol) (hrhoga : R.ds.getVar "rhoga" = .ok rhoga)
    (hvolo : R.ds.getVar "volo" = .ok volo) (harea : R.ds.getVar "areacello" = .ok area)
    (hpres : Spec.IsPressure D.ds zc patm pres) (d2 : volo.dims = [])
    -- the dimensions other than time are those of the reference
    (hdims : ∀ d, d ≠ tc → d ∈ th.dimNames ∨ d ∈ so.dimNames ∨ d ∈ pres.dimNames → d ∈ rvol.dimNames)
    (htc : tc ∉ rvol.dimNames)
    -- the reference is consistent
    {rrho : DA (Fl ℝ)} (hrrho : R.ds.getVar "rho" = .ok rrho) (hrd : ∀ d ∈ rrho.dimNames, d ∈ rvol.dimNames)
    (hrg : rhoga = calcMasso rrho rvol tc / volo)
    {r v s : ℝ} (hr : rhoga.get (fun _ => 0) = fin r) (hr0 : r ≠ 0) (hv : volo.get (fun _ => 0) = fin v)
    (hs : area.sumAll.get (fun _ => 0) = fin s) (hs0 : s ≠ 0)
    -- its labels are labels of the data
    (hnest : ∀ d la lb, d ∈ rvol.dimNames → D.idx d = some la → R.idx d = some lb →
      la.filter (fun x => decide (x ∈ lb)) = lb)
    (h : stericL D (.dataset R) cn rhozero patm eos "steric" "global" strict = .ok (out, R')) :
    ∃ (f : EosFn (Fl ℝ)) (rh sl : LA L (Fl ℝ)), eosFuncFromStr eos "density" = .ok f ∧
      out = [("reference_height", rh), ("steric", sl)] ∧
      ∀ ℓ, sl.Valid ℓ →
        (∀ m, (⟨rvol, R.idx⟩ : LA L (Fl ℝ)).Valid m → m tc = ℓ tc →
          f ((⟨th, D.idx⟩ : LA L (Fl ℝ)).sel m) ((⟨so, D.idx⟩ : LA L (Fl ℝ)).sel m)
            ((⟨pres, D.idx⟩ : LA L (Fl ℝ)).sel m) = (⟨rrho, R.idx⟩ : LA L (Fl ℝ)).sel m) →
        sl.sel ℓ = fin 0 := by
  have hpres' := of_isPressure hpres
  have prv := hR.getVar hrvol
  have prr := hR.getVar hrrho
  have pmm : (⟨rrho * rvol, R.idx⟩ : LA L (Fl ℝ)).Proper := Proper.same (f := (· * · : Fl ℝ → Fl ℝ → Fl ℝ)) prr prv
  have mn : ∀ d, d ∈ (rrho * rvol).dimNames ↔ d ∈ rvol.dimNames := by
    intro d
    have := mem_dimNames_zip (f := (· * · : Fl ℝ → Fl ℝ → Fl ℝ)) (a := rrho) (b := rvol) (d := d)
    exact this.trans ⟨fun h => h.elim (hrd d) id, Or.inr⟩
  have d1 : rhoga.dims = [] := by
    rw [hrg, DA.dims_div, d2]
    have : (calcMasso rrho rvol tc).dims = [] := by
      show (rrho * rvol).dims.filter _ = []
      rw [List.filter_eq_nil_iff]
      intro p hp
      have hm : p.1 ∈ (rrho * rvol).dimNames := List.mem_map_of_mem hp
      have hne : p.1 ≠ tc := fun he => htc (he ▸ (mn _).1 hm)
      simp [hm, hne]
    rw [this]
    rfl
  obtain ⟨f, rh, sl, dims, dn, hf, hout, hdn, hnd, hdm, -, -, hval⟩ := C83_value hD hR hp hc hth hso hrvol hrhoga hvolo
    harea hpres d1 d2 h
  refine ⟨f, rh, sl, hf, hout, fun ℓ hℓ hdens => ?_⟩
  rw [hval ℓ hℓ]
  have hdm' : ∀ d, d ∈ dims ↔ d ∈ rvol.dimNames := by
    intro d
    rw [hdm]
    constructor
    · rintro ⟨h1 | h1, h2⟩
      · exact hdims d h2 ((hdn d).1 h1)
      · exact h1
    · intro h1
      exact ⟨Or.inr h1, fun he => htc (he ▸ h1)⟩
  have e1 : dims.map (fun d => (d, commonLabels (d ∈ dn) (d ∈ rvol.dimNames) (D.idx d) (R.idx d)))
      = dims.map (fun d => (d, (⟨rrho * rvol, R.idx⟩ : LA L (Fl ℝ)).labelsOf d)) := by
    apply List.map_congr_left
    intro d hd
    have hdv := (hdm' d).1 hd
    obtain ⟨lb, i2, -⟩ := Proper.idx_some prv hdv
    unfold commonLabels LA.labelsOf
    rw [if_pos hdv]
    by_cases hk : d ∈ dn
    · rw [if_pos hk]
      obtain ⟨la, i1⟩ : ∃ la, D.idx d = some la := by
        rcases (hdn d).1 hk with h1 | h1 | h1
        · obtain ⟨la, i, -⟩ := Proper.idx_some (hD.getVar hth) h1; exact ⟨la, i⟩
        · obtain ⟨la, i, -⟩ := Proper.idx_some (hD.getVar hso) h1; exact ⟨la, i⟩
        · obtain ⟨la, i, -⟩ := Proper.idx_some (hD.pressure hp hpres') h1; exact ⟨la, i⟩
      have := hnest d la lb hdv i1 i2
      rw [i1, show R.idx d = some lb from i2]
      simp only [Option.getD_some, this, show R.idx d = some lb from i2]
    · rw [if_neg hk]
  have e2 := sel_masso pmm tc ℓ
  have hperm : (dims.map (fun d => (d, (⟨rrho * rvol, R.idx⟩ : LA L (Fl ℝ)).labelsOf d))).Perm
      (((rrho * rvol).dimNames.filter (fun x => x != tc)).map (fun d =>
        (d, (⟨rrho * rvol, R.idx⟩ : LA L (Fl ℝ)).labelsOf d))) := by
    apply List.Perm.map
    rw [List.perm_ext_iff_of_nodup hnd (pmm.nodup.filter _)]
    intro d
    rw [hdm', List.mem_filter, mn]
    constructor
    · intro h1
      exact ⟨h1, by simpa using fun he : d = tc => htc (he ▸ h1)⟩
    · exact And.left
  have hnk : ((dims.map (fun d => (d, (⟨rrho * rvol, R.idx⟩ : LA L (Fl ℝ)).labelsOf d))).map Prod.fst).Nodup := by
    rw [List.map_map]
    simpa [Function.comp_def] using hnd
  have hsum : Fl.nansum ((labelCombos (dims.map (fun d => (d, commonLabels (d ∈ dn) (d ∈ rvol.dimNames) (D.idx d)
      (R.idx d)))) ℓ).map (fun m => f ((⟨th, D.idx⟩ : LA L (Fl ℝ)).sel m) ((⟨so, D.idx⟩ : LA L (Fl ℝ)).sel m)
        ((⟨pres, D.idx⟩ : LA L (Fl ℝ)).sel m) * (⟨rvol, R.idx⟩ : LA L (Fl ℝ)).sel m))
      = (calcMasso rrho rvol tc).get (labelEnv R.idx ℓ) := by
    rw [e1]
    refine Eq.trans ?_ e2.symm
    rw [← nansum_perm ((combos_perm hperm hnk ℓ).map _)]
    congr 1
    apply List.map_congr_left
    intro m hm
    obtain ⟨q1, q2⟩ := combos_mem hm hnd
    have hval : (⟨rvol, R.idx⟩ : LA L (Fl ℝ)).Valid m := by
      intro d hd
      obtain ⟨lb, i, -⟩ := Proper.idx_some prv hd
      have := q1 d ((hdm' d).2 hd)
      simp only [LA.labelsOf, show R.idx d = some lb from i, Option.getD_some] at this
      exact ⟨lb, i, this⟩
    rw [hdens m hval (q2 tc (fun hm => htc ((hdm' tc).1 hm)))]
    have := sel_zip (f := (· * · : Fl ℝ → Fl ℝ → Fl ℝ)) prr prv (fun _ _ _ => rfl) m
    rw [mergeIdx_same] at this
    exact this.symm
  rw [hsum]
  have cm : ∀ e e', (calcMasso rrho rvol tc).get e = (calcMasso rrho rvol tc).get e' := by
    intro e e'
    apply (Proper.masso pmm ((rrho * rvol).dimNames.filter (fun x => x != tc))).wf
    intro d hd
    exfalso
    have : (calcMasso rrho rvol tc).dims = [] := by
      have := d1
      rw [hrg, DA.dims_div, d2] at this
      unfold DA.bdims at this
      exact (List.append_eq_nil_iff.1 this).1
    have h2 : d ∈ (calcMasso rrho rvol tc).dimNames := hd
    simp [DA.dimNames, this] at h2
  have : (calcMasso rrho rvol tc).get (labelEnv R.idx ℓ) / volo.get (fun _ => 0) = fin r := by
    rw [cm _ (fun _ => 0), ← hr, hrg]
    rfl
  rw [this, hr, hv, hs, fin_div_of_ne r hr0, div_self hr0, fin_div_of_ne v hs0]
  simp [npLog]

end

end Momlevel.Props
