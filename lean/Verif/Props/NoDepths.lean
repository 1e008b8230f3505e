import Verif.Props.StericSuccess

/-! # C137: a vertical dimension without depths -/

set_option linter.unusedSectionVars false

namespace Momlevel.Props
open Momlevel Momlevel.Fl Momlevel.Eos Momlevel.Spec

variable {d : DS (Fl ℝ)} {zc : String} {n : ℕ}

/-- The dataset with the numbers of the levels as their depths. -/
def numbered (d : DS (Fl ℝ)) (zc : String) (n : ℕ) : DS (Fl ℝ) :=
  ⟨d.vars ++ [(zc, ⟨[(zc, n)], fun e => fin (e zc)⟩)], d.coords ++ [zc]⟩

theorem numbered_lookup (x : String) (hx : x ≠ zc) : (numbered d zc n).vars.lookup x = d.vars.lookup x := by
  unfold numbered
  rw [List.lookup_append]
  have : ([(zc, (⟨[(zc, n)], fun e => fin (e zc)⟩ : DA (Fl ℝ)))] : List (String × DA (Fl ℝ))).lookup x = none := by
    simp [List.lookup_cons, beq_eq_false_iff_ne.2 hx]
  simp only [this, Option.or_none]

theorem numbered_getItem (h : d.vars.lookup zc = none)
    (hn : (d.vars.flatMap (fun p => p.2.dims)).lookup zc = some n) :
    (numbered d zc n).getItem zc = d.getItem zc := by
  have e : (numbered d zc n).vars.lookup zc = some ⟨[(zc, n)], fun e => fin (e zc)⟩ := by
    unfold numbered
    rw [List.lookup_append, h]
    simp
  unfold DS.getItem
  rw [e, h, hn]

/-- A dataset whose levels carry no depths is accepted: global sea level and the reference state are those of
the dataset with the depths 0, 1, 2, … metres. -/
theorem C137_numbers (h : d.vars.lookup zc = none)
    (hn : (d.vars.flatMap (fun p => p.2.dims)).lookup zc = some n) (cn : DictArg) {tc zb : String}
    (hc : defaultCoords cn = .ok (tc, zc, zb))
    (hz : zc ∉ ["thetao", "so", "volcello", "areacello", "deptho"])
    (reference : RefArg ℝ) (rhozero : Fl ℝ) (patm : DA (Fl ℝ)) (eos variant : String) (strict : Bool) :
    steric d reference cn none rhozero patm eos variant "global" strict
      = steric (numbered d zc n) reference cn none rhozero patm eos variant "global" strict := by
  simp only [List.mem_cons, List.not_mem_nil, or_false, not_or] at hz
  obtain ⟨z1, z2, z3, z4, z5⟩ := hz
  have l1 := numbered_lookup (d := d) (n := n) "thetao" (Ne.symm z1)
  have l2 := numbered_lookup (d := d) (n := n) "so" (Ne.symm z2)
  have l3 := numbered_lookup (d := d) (n := n) "volcello" (Ne.symm z3)
  have l4 := numbered_lookup (d := d) (n := n) "areacello" (Ne.symm z4)
  have l5 := numbered_lookup (d := d) (n := n) "deptho" (Ne.symm z5)
  have hp : ∀ p, pressureField (numbered d zc n) zc p = pressureField d zc p := by
    intro p
    unfold pressureField
    rw [numbered_getItem h hn]
  have names : ∀ x, x ≠ zc → (numbered d zc n).names.contains x = d.names.contains x := by
    intro x hx
    have : (x == zc) = false := beq_eq_false_iff_ne.2 hx
    simp [DS.names, numbered, hx]
  have mem : ∀ x, x ≠ zc → (x ∈ (numbered d zc n).names ↔ x ∈ d.names) := by
    intro x hx
    simp [DS.names, numbered, hx]
  have hv : validateDataset (numbered d zc n) false strict .none = validateDataset d false strict .none := by
    unfold validateDataset validateErrors
    simp only [l1, l2, l3, l4, l5, names _ (Ne.symm z1), names _ (Ne.symm z2), names _ (Ne.symm z3),
      names _ (Ne.symm z4), names _ (Ne.symm z5), VarsArg.toList, List.append_nil, List.filter_cons, List.filter_nil,
      Bool.false_and]
    simp [mem _ (Ne.symm z1), mem _ (Ne.symm z2), mem _ (Ne.symm z3), mem _ (Ne.symm z4)]
  have hg : ∀ x, x ≠ zc → (numbered d zc n).getVar x = d.getVar x := by
    intro x hx
    unfold DS.getVar
    rw [numbered_lookup x hx]
  have hs : ∀ x i, x ≠ zc → refSlice (numbered d zc n) x tc i = refSlice d x tc i := by
    intro x i hx
    unfold refSlice
    rw [hg x hx]
  have hr : ∀ i, setupReferenceState (numbered d zc n) patm eos cn i = setupReferenceState d patm eos cn i := by
    intro i
    simp only [setupReferenceState, hc, ok_bind, hp, hs _ _ (Ne.symm z1), hs _ _ (Ne.symm z2), hs _ _ (Ne.symm z3),
      DS.getAttr, l4]
  have hch : chooseReference (numbered d zc n) reference patm eos cn = chooseReference d reference patm eos cn := by
    cases reference <;> simp only [chooseReference, hr]
  have hf : ∀ ref, stericFields (numbered d zc n) ref variant = stericFields d ref variant := by
    intro ref
    simp only [stericFields, hg _ (Ne.symm z1), hg _ (Ne.symm z2)]
  simp only [steric, DS.rename, ok_bind, hc, if_true, hv, hp, hch, hf, stericResult]

/-- The density of the reference state of such a dataset: level `k` is taken to lie at the pressure
`10000 k` above that of the surface, however deep it is. -/
theorem C137_density (h : d.vars.lookup zc = none) {ref : DS (Fl ℝ)} {patm : DA (Fl ℝ)} {eos : String}
    {cn : DictArg} {i : Int} {tc zb : String} (hs : setupReferenceState d patm eos cn i = .ok ref)
    (hc : defaultCoords cn = .ok (tc, zc, zb)) :
    ∃ th so rho f, ref.getVar "thetao" = .ok th ∧ ref.getVar "so" = .ok so ∧ ref.getVar "rho" = .ok rho ∧
      eosFuncFromStr eos "density" = .ok f ∧
      ∀ e p, patm.get e = fin p → rho.get e = f (th.get e) (so.get e) (fin (10000 * e zc + p)) := by
  obtain ⟨th, so, rho, z, f, h1, h2, h3, h4, h5, h6⟩ := C31_density hs hc
  rcases h4 with h4 | ⟨-, n, -, rfl⟩
  · cases h4.symm.trans h
  · refine ⟨th, so, rho, f, h1, h2, h3, h5, fun e p hp => ?_⟩
    rw [h6, hp]
    congr 1
    show fin _ * fin 10000 + fin p = _
    rw [fin_mul, fin_add]
    ring_nf

/-- Non-vacuity: the ocean of `exD` without its depths. -/
noncomputable def exBare : DS (Fl ℝ) := ⟨[("thetao", exT), ("so", exS), ("volcello", exV), ("areacello", exA),
  ("deptho", exDepth), ("z_i", exZi)], ["z_i"]⟩

theorem exBare_good : GoodData (numbered exBare "z_l" 2) "time" "z_l" "z_i" "z_i" "yh" "xh" 2 2 2 2
    (fun k => (k : ℝ)) (fun k => 1000 * (k : ℝ)) exT exS exV exA exDepth exZi (DA.scalar (fin 101325)) where
  names := by decide
  hnt := by norm_num
  hn := by norm_num
  hny := by norm_num
  hnx := by norm_num
  hth := rfl
  hso := rfl
  hvol := rfl
  harea := rfl
  hzb := rfl
  thd := rfl
  sod := rfl
  vold := rfl
  aread := rfl
  depthd := rfl
  grid := by
    refine ⟨⟨⟨[("z_l", 2)], fun e => fin (e "z_l")⟩, exZi, rfl, rfl, rfl, fun e => rfl, fun k _ => by positivity, rfl,
      fun e => rfl, by simp, ?_⟩, rfl, exGrid.bathy, exGrid.hz, by simp [numbered, exBare, DS.names]⟩
    intro k _
    push_cast
    linarith
  alone := by simp [numbered, exBare, exZi, DA.dimNames]
  patmd := by simp

example : ∃ x, steric exBare .none .none none (fin 1035) (DA.scalar (fin 101325)) "Wright" "steric" "global" true
    = .ok x := by
  rw [C137_numbers (n := 2) rfl rfl .none exC (by decide)]
  exact C30_success exBare_good rfl (by simp) (.inl wright_case) (by simp) (fun _ => exArea)

example : ∃ ref rho, setupReferenceState exBare (DA.scalar (fin 101325)) "linear" .none 0 = .ok ref ∧
    ref.getVar "rho" = .ok rho ∧ ∃ f : Eos.EosFn (Fl ℝ), eosFuncFromStr "linear" "density" = .ok f := by
  obtain ⟨⟨r, ref⟩, h⟩ : ∃ x, steric exBare .none .none none (fin 1035) (DA.scalar (fin 101325)) "linear" "steric"
      "global" true = .ok x := by
    rw [C137_numbers (n := 2) rfl rfl .none exC (by decide)]
    exact C30_success exBare_good rfl (by simp) (.inr linear_case) (by simp) (fun _ => exArea)
  obtain ⟨dd, tc', zc', zb', pres, th, so, rho, p1, p2, p3, p4, p5, -⟩ := steric_ok_iff.1 h
  cases p1
  obtain ⟨th, so, rho, f, -, -, h3, h4, -⟩ := C137_density rfl p5 exC
  exact ⟨ref, rho, p5, h3, f, h4⟩

end Momlevel.Props
