import Verif.Props.StericSuccess

/-! # C93: scalar coordinates and further coordinates along the vertical -/

set_option linter.unusedSectionVars false

namespace Momlevel.Props
open Momlevel Momlevel.Fl

variable {vars : List (String × DA (Fl ℝ))} {cs cs' : List String} {reference : RefArg ℝ} {cn : DictArg}
  {rhozero : Fl ℝ} {patm : DA (Fl ℝ)} {eos variant domain : String} {strict : Bool} {tc zc zb : String}

/-- Global requests never look at which variables are coordinates. -/
theorem C93_global (vars : List (String × DA (Fl ℝ))) (cs cs' : List String) (reference : RefArg ℝ)
    (cn : DictArg) (rhozero : Fl ℝ) (patm : DA (Fl ℝ)) (eos variant : String) (strict : Bool) :
    steric ⟨vars, cs⟩ reference cn none rhozero patm eos variant "global" strict
      = steric ⟨vars, cs'⟩ reference cn none rhozero patm eos variant "global" strict := rfl

/-- A local request fails as soon as the dataset has a coordinate other than the vertical one that is a scalar or
lies along the vertical only. -/
theorem C93_never (hc : defaultCoords cn = .ok (tc, zc, zb)) (hd : domain ≠ "global")
    {c : String} {a : DA (Fl ℝ)} (hv : (c, a) ∈ vars) (hcs : c ∈ cs) (hne : c ≠ zc)
    (ha : ∀ x ∈ a.dimNames, x = zc) (x : DS (Fl ℝ) × DS (Fl ℝ)) :
    steric ⟨vars, cs⟩ reference cn none rhozero patm eos variant domain strict ≠ .ok x := by
  obtain ⟨r, ref⟩ := x
  intro h
  obtain ⟨dd, tc', zc', zb', pres, th, so, rho, h1, h2, h3, h4, h5, h6, h7, h8, h9⟩ := steric_ok_iff.1 h
  rw [hc] at h2
  cases h2
  cases h1
  simp only [stericResult, if_neg hd] at h9
  obtain ⟨L⟩ := localRun_of h9
  obtain ⟨x, hx, hxz⟩ := levelsAlone_ok.1 L.halone (c, a) hv hcs hne
  exact hxz (ha x hx)

/-- What it raises is a ValueError, if the same variables with other coordinates would have worked. -/
theorem C93_error {x : DS (Fl ℝ) × DS (Fl ℝ)}
    (h : steric ⟨vars, cs'⟩ reference cn none rhozero patm eos variant domain strict = .ok x)
    (hc : defaultCoords cn = .ok (tc, zc, zb)) (hd : domain ≠ "global")
    {c : String} {a : DA (Fl ℝ)} (hv : (c, a) ∈ vars) (hcs : c ∈ cs) (hne : c ≠ zc)
    (ha : ∀ x ∈ a.dimNames, x = zc) :
    steric ⟨vars, cs⟩ reference cn none rhozero patm eos variant domain strict = .error .valueError := by
  obtain ⟨r, ref⟩ := x
  have hl : levelsAlone (⟨vars, cs⟩ : DS (Fl ℝ)) zc = .error .valueError := by
    cases hl : levelsAlone (⟨vars, cs⟩ : DS (Fl ℝ)) zc with
    | error e => rw [levelsAlone_error hl]
    | ok u =>
      obtain ⟨x, hx, hxz⟩ := levelsAlone_ok.1 hl (c, a) hv hcs hne
      exact absurd (ha x hx) hxz
  obtain ⟨dd, tc', zc', zb', pres, th, so, rho, h1, h2, h3, h4, h5, h6, h7, h8, h9⟩ := steric_ok_iff.1 h
  rw [hc] at h2
  cases h2
  cases h1
  simp only [stericResult, if_neg hd, stericLocal, bind_ok, pure_ok] at h9
  obtain ⟨rvol, a1, rrho, a2, dr, a3, z, a4, zi, a5, depth, a6, dz, a7, _⟩ := h9
  have hr : stericResult ⟨vars, cs⟩ ref rho tc zc zb rhozero variant domain = .error .valueError := by
    have b4 : (⟨vars, cs⟩ : DS (Fl ℝ)).getItem zc = .ok z := a4
    have b5 : (⟨vars, cs⟩ : DS (Fl ℝ)).getItem zb = .ok zi := a5
    have b6 : (⟨vars, cs⟩ : DS (Fl ℝ)).getVar "deptho" = .ok depth := a6
    simp only [stericResult, if_neg hd, stericLocal, a1, a2, a3, b4, b5, b6, a7, ok_bind, hl]
    rfl
  have c3 : validateDataset (⟨vars, cs⟩ : DS (Fl ℝ)) false strict
      (if domain = "global" then .none else .list [zb, "deptho"]) = .ok () := h3
  have c4 : pressureField (⟨vars, cs⟩ : DS (Fl ℝ)) zc patm = .ok pres := h4
  have c5 : chooseReference (⟨vars, cs⟩ : DS (Fl ℝ)) reference patm eos cn = .ok ref := h5
  have c7 : stericFields (⟨vars, cs⟩ : DS (Fl ℝ)) ref variant = .ok (th, so) := h7
  simp only [steric, DS.rename, ok_bind, hc, c3, c4, c5, h6, c7, h8, hr]
  rfl

/-- Turning such coordinates into ordinary variables restores the run, with the same result. -/
theorem C93_reset (hc : defaultCoords cn = .ok (tc, zc, zb))
    (h1 : ∀ p ∈ vars, p.1 ∈ cs → p.1 ≠ zc → ∃ x ∈ p.2.dimNames, x ≠ zc)
    (h2 : ∀ p ∈ vars, p.1 ∈ cs' → p.1 ≠ zc → ∃ x ∈ p.2.dimNames, x ≠ zc) :
    steric ⟨vars, cs⟩ reference cn none rhozero patm eos variant domain strict
      = steric ⟨vars, cs'⟩ reference cn none rhozero patm eos variant domain strict := by
  have e1 : levelsAlone (⟨vars, cs⟩ : DS (Fl ℝ)) zc = .ok () := levelsAlone_ok.2 h1
  have e2 : levelsAlone (⟨vars, cs'⟩ : DS (Fl ℝ)) zc = .ok () := levelsAlone_ok.2 h2
  simp only [steric, DS.rename, ok_bind, hc, stericResult, stericLocal, e1, e2]
  rfl

/-- The example ocean with a scalar coordinate "member": the local request fails, the global one runs, and so does
the local one once "member" is an ordinary variable. -/
example (variant eos : String) (hv : variant ∈ ["thermosteric", "halosteric", "steric"])
    (he : CaseVariant eos "wright" ∨ CaseVariant eos "linear") :
    let vars := exD.vars ++ [("member", DA.scalar (fin 3))]
    let run := fun cs domain => steric ⟨vars, cs⟩ .none .none none (fin 1035) (DA.scalar (fin 101325)) eos variant
      domain true
    run ["z_l", "z_i", "member"] "local" = .error .valueError ∧
    (∃ x, run ["z_l", "z_i", "member"] "global" = .ok x) ∧ ∃ x, run ["z_l", "z_i"] "local" = .ok x := by
  intro vars run
  have g : GoodData ⟨vars, ["z_l", "z_i"]⟩ "time" "z_l" "z_i" "z_i" "yh" "xh" 2 2 2 2
      (fun k => 500 + 1000 * (k : ℝ)) (fun k => 1000 * (k : ℝ)) exT exS exV exA exDepth exZi
      (DA.scalar (fin 101325)) := {
    names := by decide
    hnt := by norm_num
    hn := by norm_num
    hny := by norm_num
    hnx := by norm_num
    hth := rfl
    hso := rfl
    hvol := rfl
    harea := rfl
    hzb := rfl
    thd := rfl
    sod := rfl
    vold := rfl
    aread := rfl
    depthd := rfl
    grid := ⟨by
        obtain ⟨z, zi, g1, g2, g3⟩ := exGrid.grid
        exact ⟨z, zi, g1, g2, g3⟩, rfl, exGrid.bathy, exGrid.hz, by simp [vars, exD, DS.names]⟩
    alone := by simp [vars, exD, exZ, exZi, DA.dimNames]
    patmd := by simp }
  have ok : ∀ domain, ∃ x, run ["z_l", "z_i"] domain = .ok x := fun domain =>
    C30_success g rfl hv he (by simp) (fun _ => exArea)
  obtain ⟨x, hx⟩ := ok "local"
  obtain ⟨y, hy⟩ := ok "global"
  refine ⟨C93_error (c := "member") (a := DA.scalar (fin 3)) hx rfl (by decide) (by simp [vars]) (by simp)
    (by decide) (by simp [DA.dimNames]), ⟨y, ?_⟩, ⟨x, hx⟩⟩
  exact (C93_global vars _ ["z_l", "z_i"] _ _ _ _ _ _ _).trans hy

/-- `C93_never`: no local run of the example ocean with a scalar coordinate succeeds. -/
example (x : DS (Fl ℝ) × DS (Fl ℝ)) : steric ⟨exD.vars ++ [("member", DA.scalar (fin 3))], ["z_l", "z_i", "member"]⟩
    .none .none none (fin 1035) (DA.scalar (fin 101325)) "Wright" "steric" "local" true ≠ .ok x :=
  C93_never exC (by decide) (c := "member") (a := DA.scalar (fin 3)) (by simp) (by simp) (by decide)
    (by intro y hy; cases hy) x

end Momlevel.Props
