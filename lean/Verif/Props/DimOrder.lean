import Verif.Lemmas.Transpose
import Verif.Model.Steric

/-! C100: the order of the dimensions of the fields does not matter. -/

set_option linter.unusedSectionVars false

namespace Momlevel.Props
open Momlevel Momlevel.Spec

variable {K : Type} [Field K] [LinearOrder K]

section steps
variable {t t' s s' p p' : DA (Fl K)}

theorem applyEos_order (eos f : String) (ht : Transposed t t') (hs : Transposed s s') (hp : Transposed p p') :
    SameOutcome Transposed (applyEos eos f t s p) (applyEos eos f t' s' p') := by
  unfold applyEos
  refine SameOutcome.same (fun g => ?_)
  have h1 : ∀ x, t.dimNames.contains x = t'.dimNames.contains x := by
    intro x
    rw [Bool.eq_iff_iff, List.contains_iff_mem, List.contains_iff_mem, ht.mem]
  have h2 : ∀ x, s.dimNames.contains x = s'.dimNames.contains x := by
    intro x
    rw [Bool.eq_iff_iff, List.contains_iff_mem, List.contains_iff_mem, hs.mem]
  have h3 : t.dims.isEmpty = t'.dims.isEmpty := ht.perm.isEmpty_eq
  have h4 : s.dims.isEmpty = s'.dims.isEmpty := hs.perm.isEmpty_eq
  simp only [h1, h2, h3, h4, hp.perm.any_eq]
  split
  · exact rfl
  · exact ht.zip3 hs hp _

theorem calcRho_order (eos : String) (ht : Transposed t t') (hs : Transposed s s') (hp : Transposed p p') :
    SameOutcome Transposed (calcRho t s p eos) (calcRho t' s' p' eos) := applyEos_order eos _ ht hs hp

theorem calcMasso_order (tc : String) (h : Transposed t t') (hs : Transposed s s') :
    Transposed (calcMasso t s tc) (calcMasso t' s' tc) := by
  unfold calcMasso
  refine (h.mul hs).sumDims (fun x => ?_)
  simp only [List.mem_filter, (h.mul hs).mem]

theorem calcVolo_order (h : Transposed t t') : SameOutcome Transposed (calcVolo t) (calcVolo t') := by
  unfold calcVolo
  rw [h.ndim]
  exact SameOutcome.same (fun _ => h.sumAll)

theorem limitDepth_order (h : Transposed t t') (b : Option (Fl K)) :
    Transposed (limitDepth t b) (limitDepth t' b) := by
  unfold limitDepth
  cases b
  · exact h.map _
  · exact (h.map _).map _

theorem calcDz_order (ht : Transposed t t') (hs : Transposed s s') (hp : Transposed p p') (top : Fl K)
    (bottom : Option (Fl K)) (fraction : Bool) :
    SameOutcome Transposed (calcDz t s p top bottom fraction) (calcDz t' s' p' top bottom fraction) := by
  unfold calcDz
  rw [(hp.map _).all, ht.all, hs.all]
  refine SameOutcome.same (fun _ => SameOutcome.same (fun _ => SameOutcome.same (fun _ => ?_)))
  have key : ∀ {a b : DA (Fl K)}, Transposed a b → (∃ z n, a.dims = [(z, n)] ∧ b.dims = [(z, n)]) ∨
      ((∀ z n, a.dims ≠ [(z, n)]) ∧ ∀ z n, b.dims ≠ [(z, n)]) := by
    intro a b h
    by_cases hh : ∃ z n, a.dims = [(z, n)]
    · obtain ⟨z, n, hh⟩ := hh
      exact Or.inl ⟨z, n, hh, h.single hh⟩
    · push Not at hh
      exact Or.inr ⟨hh, fun z n hb => hh z n (h.symm'.single hb)⟩
  rcases key ht with ⟨z, n, h1, h1'⟩ | ⟨h1, h1'⟩
  · rcases key hs with ⟨zi, m, h2, h2'⟩ | ⟨h2, h2'⟩
    · have hd := limitDepth_order hp bottom
      have hz : (([(z, n)] : List (String × Nat)).map Prod.fst).Nodup := by simp
      simp only [h1, h1', h2, h2']
      split
      · exact rfl
      · have htop : Transposed (⟨DA.bdims (limitDepth p bottom).dims [(z, n)],
            fun e => s.get (Function.update e zi (e z))⟩ : DA (Fl K))
            ⟨DA.bdims (limitDepth p' bottom).dims [(z, n)], fun e => s'.get (Function.update e zi (e z))⟩ :=
          ⟨DA.bdims_perm hd.perm (List.Perm.refl _), by rw [hs.get], DA.bdims_nodup' hd.nodup hz⟩
        have hbot : Transposed (⟨DA.bdims (limitDepth p bottom).dims [(z, n)],
            fun e => s.get (Function.update e zi (e z + 1))⟩ : DA (Fl K))
            ⟨DA.bdims (limitDepth p' bottom).dims [(z, n)], fun e => s'.get (Function.update e zi (e z + 1))⟩ :=
          ⟨DA.bdims_perm hd.perm (List.Perm.refl _), by rw [hs.get], DA.bdims_nodup' hd.nodup hz⟩
        have hdep : Transposed (⟨DA.bdims [(z, n)] (limitDepth p bottom).dims, (limitDepth p bottom).get⟩ :
            DA (Fl K)) ⟨DA.bdims [(z, n)] (limitDepth p' bottom).dims, (limitDepth p' bottom).get⟩ :=
          ⟨DA.bdims_perm (List.Perm.refl _) hd.perm, hd.get, DA.bdims_nodup' hz hd.nodup⟩
        have hf := hbot.sub htop
        have hr := ((hbot.sub (Transposed.scalar top)).map clip0).zip
          (((hdep.sub htop).map clip0).zip hf Fl.minimum) Fl.minimum
        split
        · exact (hr.map _).div (hf.map _)
        · exact hr
    · split
      · exact absurd ‹s.dims = _› (h2 _ _)
      · split
        · exact absurd ‹s'.dims = _› (h2' _ _)
        · exact rfl
  · split
    · exact absurd ‹t.dims = _› (h1 _ _)
    · split
      · exact absurd ‹t'.dims = _› (h1' _ _)
      · exact rfl

end steps

section datasets
variable {d d' : DS (Fl K)}

theorem lookup_dims (h : TransposedDS d d') (n : String) :
    (d.vars.flatMap (fun p => p.2.dims)).lookup n = (d'.vars.flatMap (fun p => p.2.dims)).lookup n := by
  have := h.vars
  generalize d.vars = l at this ⊢
  generalize d'.vars = l' at this ⊢
  induction this with
  | nil => rfl
  | @cons p q l l' h1 _ ih =>
    have key : ∀ m : List (String × Nat), m.lookup n = (m.find? (fun p => p.1 == n)).map Prod.snd := by
      intro m
      induction m with
      | nil => rfl
      | cons x m ih =>
        obtain ⟨x1, x2⟩ := x
        rw [List.lookup_cons, List.find?_cons]
        by_cases hx : n = x1
        · subst hx; simp
        · have h2 : (n == x1) = false := by simpa using hx
          have h3 : (x1 == n) = false := by simpa using fun h => hx h.symm
          rw [h2, h3]
          exact ih
    simp only [List.flatMap_cons, List.lookup_append, ih]
    rw [key p.2.dims, key q.2.dims, h1.2.find]

theorem getItem_order (h : TransposedDS d d') (n : String) :
    SameOutcome Transposed (d.getItem n) (d'.getItem n) := by
  unfold DS.getItem
  rcases h.lookup n with ⟨h1, h2⟩ | ⟨a, b, h1, h2, h3⟩
  · rw [h1, h2, lookup_dims h]
    dsimp only
    split
    · exact Transposed.refl' (by simp [DA.dimNames])
    · exact rfl
  · rw [h1, h2]
    exact h3

theorem rank_order (h : TransposedDS d d') (n : String) :
    ((d.vars.lookup n).map DA.ndim).getD 0 = ((d'.vars.lookup n).map DA.ndim).getD 0 := by
  rcases h.lookup n with ⟨h1, h2⟩ | ⟨a, b, h1, h2, h3⟩
  · rw [h1, h2]
  · rw [h1, h2]
    simp only [Option.map_some, Option.getD_some, h3.ndim]

theorem validateErrors_order (h : TransposedDS d d') (r s : Bool) (v : VarsArg) :
    validateErrors d r s v = validateErrors d' r s v := by
  have ha : areaErrors (d.vars.lookup "areacello") s = areaErrors (d'.vars.lookup "areacello") s := by
    rcases h.lookup "areacello" with ⟨h1, h2⟩ | ⟨a, b, h1, h2, h3⟩
    · rw [h1, h2]
    · rw [h1, h2]
      unfold areaErrors validateAreacello
      simp only [h3.sumAll.get]
  unfold validateErrors
  simp only [rank_order h, ha, h.names, h.coords]

theorem validateDataset_order (h : TransposedDS d d') (r s : Bool) (v : VarsArg) :
    validateDataset d r s v = validateDataset d' r s v := by
  unfold validateDataset
  rw [validateErrors_order h]

theorem levelsAlone_order (h : TransposedDS d d') (z : String) : levelsAlone d z = levelsAlone d' z := by
  unfold levelsAlone
  rw [h.coords]
  have : d.vars.any (fun p => p.1 != z && d'.coords.contains p.1 && p.2.dimNames.all (fun x => x == z)) =
      d'.vars.any (fun p => p.1 != z && d'.coords.contains p.1 && p.2.dimNames.all (fun x => x == z)) := by
    have := h.vars
    generalize d'.coords = c
    generalize d.vars = l at this ⊢
    generalize d'.vars = l' at this ⊢
    induction this with
    | nil => rfl
    | cons h1 _ ih =>
      simp only [List.any_cons, ih, h1.1]
      rw [(DA.names_perm h1.2.perm).all_eq]
  rw [this]

theorem rename_order (h : TransposedDS d d') (m : Option (List (String × String)))
    (hm : ∀ l, m = some l → ∀ q ∈ d.vars, (q.2.dimNames.map (fun s => (l.lookup s).getD s)).Nodup) :
    SameOutcome TransposedDS (d.rename m) (d'.rename m) := by
  unfold DS.rename
  cases m with
  | none => exact h
  | some l =>
    have hd : ∀ x, d.dimNames.contains x = d'.dimNames.contains x := by
      intro x
      rw [Bool.eq_iff_iff, List.contains_iff_mem, List.contains_iff_mem]
      have := h.vars
      unfold DS.dimNames
      generalize d.vars = l at this ⊢
      generalize d'.vars = l' at this ⊢
      induction this with
      | nil => rfl
      | cons h1 _ ih => simp only [List.flatMap_cons, List.mem_append, ih, h1.2.mem]
    have hv : List.Forall₂ (fun (p q : String × DA (Fl K)) => p.1 = q.1 ∧ Transposed p.2 q.2)
        (d.vars.map (fun p => ((l.lookup p.1).getD p.1, (⟨p.2.dims.map (fun q => ((l.lookup q.1).getD q.1, q.2)),
          fun e => p.2.get (fun x => e ((l.lookup x).getD x))⟩ : DA (Fl K)))))
        (d'.vars.map (fun p => ((l.lookup p.1).getD p.1, (⟨p.2.dims.map (fun q => ((l.lookup q.1).getD q.1, q.2)),
          fun e => p.2.get (fun x => e ((l.lookup x).getD x))⟩ : DA (Fl K))))) := by
      have h1 := h.vars
      have h2 := hm l rfl
      clear hd h hm
      generalize d.vars = v at h1 h2 ⊢
      generalize d'.vars = v' at h1 h2 ⊢
      induction h1 with
      | nil => exact List.Forall₂.nil
      | @cons p q v v' hpq _ ih =>
        refine List.Forall₂.cons ⟨by simp only [hpq.1], hpq.2.perm.map _, by simp only [hpq.2.get], ?_⟩
          (ih (fun x hx => h2 x (List.mem_cons_of_mem _ hx)))
        have := h2 p List.mem_cons_self
        simp only [DA.dimNames, List.map_map] at this ⊢
        exact this
    have hn : ∀ {v v' : List (String × DA (Fl K))},
        List.Forall₂ (fun p q => p.1 = q.1 ∧ Transposed p.2 q.2) v v' → v.map Prod.fst = v'.map Prod.fst := by
      intro v v' hh
      induction hh with
      | nil => rfl
      | cons h1 _ ih => simp only [List.map_cons, h1.1, ih]
    dsimp only
    simp only [hd, h.names]
    split
    · exact rfl
    · rw [hn hv]
      split
      · exact ⟨hv, by rw [h.coords]⟩
      · exact rfl

theorem pressure_order (h : TransposedDS d d') (z : String) {p p' : DA (Fl K)} (hp : Transposed p p') :
    SameOutcome Transposed (pressureField d z p) (pressureField d' z p') :=
  SameOutcome.bind (getItem_order h z) (fun _ _ hz => (hz.mul (Transposed.scalar _)).add hp)

theorem refSlice_order (h : TransposedDS d d') (n t : String) (i : Int) :
    SameOutcome Transposed (refSlice d n t i) (refSlice d' n t i) :=
  SameOutcome.bind (h.getVar n) (fun _ _ ha => SameOutcome.bind (ha.iselE t i) (fun _ _ hb => hb.squeeze))

theorem setup_order (h : TransposedDS d d') {p p' : DA (Fl K)} (hp : Transposed p p') (eos : String) (c : DictArg)
    (i : Int) : SameOutcome TransposedDS (setupReferenceState d p eos c i) (setupReferenceState d' p' eos c i) := by
  unfold setupReferenceState
  refine SameOutcome.same (fun cs => ?_)
  obtain ⟨tc, zc, zb⟩ := cs
  refine SameOutcome.bind (pressure_order h zc hp) (fun _ _ hpr => ?_)
  refine SameOutcome.bind (refSlice_order h "thetao" tc i) (fun _ _ ht => ?_)
  refine SameOutcome.bind (refSlice_order h "so" tc i) (fun _ _ hs => ?_)
  refine SameOutcome.bind (refSlice_order h "volcello" tc i) (fun _ _ hv => ?_)
  refine SameOutcome.bind (calcRho_order eos ht hs hpr) (fun _ _ hr => ?_)
  refine SameOutcome.bind (calcVolo_order hv) (fun _ _ hvo => ?_)
  refine SameOutcome.bind (h.getAttr "areacello") (fun _ _ ha => ?_)
  have hm := calcMasso_order tc hr hv
  exact ⟨.cons ⟨rfl, ht⟩ (.cons ⟨rfl, hs⟩ (.cons ⟨rfl, hv⟩ (.cons ⟨rfl, hr⟩ (.cons ⟨rfl, hvo⟩ (.cons ⟨rfl, hm⟩
    (.cons ⟨rfl, hm.div hvo⟩ (.cons ⟨rfl, ha⟩ .nil))))))), rfl⟩

theorem stericLocal_order {r r' : DS (Fl K)} (h : TransposedDS d d') (hr : TransposedDS r r') {ρ ρ' : DA (Fl K)}
    (hρ : Transposed ρ ρ') (tc zc zb : String) (rz : Fl K) (variant : String) :
    SameOutcome TransposedDS (stericLocal d r ρ tc zc zb rz variant) (stericLocal d' r' ρ' tc zc zb rz variant) := by
  unfold stericLocal
  refine SameOutcome.bind (hr.getVar _) (fun _ _ hv => ?_)
  refine SameOutcome.bind (hr.getVar _) (fun _ _ hrr => ?_)
  refine SameOutcome.bind ((hv.zip (hρ.sub hrr) _).transposeE tc) (fun _ _ hd => ?_)
  refine SameOutcome.bind (getItem_order h zc) (fun _ _ hz => ?_)
  refine SameOutcome.bind (getItem_order h zb) (fun _ _ hzi => ?_)
  refine SameOutcome.bind (h.getVar _) (fun _ _ hdep => ?_)
  refine SameOutcome.bind (calcDz_order hz hzi hdep _ _ _) (fun _ _ hdz => ?_)
  rw [levelsAlone_order h]
  refine SameOutcome.same (fun _ => SameOutcome.same (fun c => ?_))
  refine SameOutcome.bind ((hdz.mul hd).sumDimE zc) (fun _ _ htot => ?_)
  refine SameOutcome.bind ((htot.map _).transposeE tc) (fun _ _ hsl => ?_)
  refine SameOutcome.bind (hv.iselE zc 0) (fun _ _ htop => ?_)
  exact ⟨.cons ⟨rfl, hd⟩ (.cons ⟨rfl, hsl.zip htop (fun s v => Fl.sel (Fl.notnull v) s .nan)⟩ .nil), rfl⟩

end datasets

/-- Supplied references: none, something else, or datasets that differ in the order of dimensions. -/
inductive SameRef {K : Type} : RefArg K → RefArg K → Prop
  | none : SameRef .none .none
  | other : SameRef .other .other
  | dataset {r r' : DS (Fl K)} : TransposedDS r r' → SameRef (.dataset r) (.dataset r')

theorem stericGlobal_order {r r' : DS (Fl ℝ)} (hr : TransposedDS r r') {ρ ρ' : DA (Fl ℝ)}
    (hρ : Transposed ρ ρ') (tc variant : String) :
    SameOutcome TransposedDS (stericGlobal r ρ tc variant) (stericGlobal r' ρ' tc variant) := by
  unfold stericGlobal
  refine SameOutcome.bind (hr.getVar _) (fun _ _ hv => ?_)
  refine SameOutcome.bind (hr.getVar _) (fun _ _ hrho => ?_)
  refine SameOutcome.bind (hr.getVar _) (fun _ _ hvolo => ?_)
  refine SameOutcome.bind (hr.getVar _) (fun _ _ ha => ?_)
  have h1 := hvolo.div ha.sumAll
  exact ⟨.cons ⟨rfl, h1⟩ (.cons ⟨rfl, h1.mul ((hrho.div ((calcMasso_order tc hρ hv).div hvolo)).map npLog)⟩ .nil),
    rfl⟩

theorem stericFields_order {d d' r r' : DS (Fl K)} (h : TransposedDS d d') (hr : TransposedDS r r')
    (variant : String) : SameOutcome (fun a b => Transposed a.1 b.1 ∧ Transposed a.2 b.2)
      (stericFields d r variant) (stericFields d' r' variant) := by
  unfold stericFields
  split
  · exact SameOutcome.bind (h.getVar _) (fun _ _ h1 => SameOutcome.bind (hr.getVar _) (fun _ _ h2 => ⟨h1, h2⟩))
  split
  · exact SameOutcome.bind (hr.getVar _) (fun _ _ h1 => SameOutcome.bind (h.getVar _) (fun _ _ h2 => ⟨h1, h2⟩))
  split
  · exact SameOutcome.bind (h.getVar _) (fun _ _ h1 => SameOutcome.bind (h.getVar _) (fun _ _ h2 => ⟨h1, h2⟩))
  · exact rfl

/-- C100 (steric): with the dimensions of any fields of the dataset, the reference and the pressure in other orders,
`steric` fails with the same error or returns the same values. -/
theorem C100_steric {d d' : DS (Fl ℝ)} (h : TransposedDS d d') {r r' : RefArg ℝ} (hr : SameRef r r')
    {p p' : DA (Fl ℝ)} (hp : Transposed p p') (c : DictArg) (m : Option (List (String × String)))
    (hm : ∀ l, m = some l → ∀ q ∈ d.vars, (q.2.dimNames.map (fun s => (l.lookup s).getD s)).Nodup)
    (rz : Fl ℝ) (eos variant domain : String) (strict : Bool) :
    SameOutcome (fun x y => TransposedDS x.1 y.1 ∧ TransposedDS x.2 y.2)
      (steric d r c m rz p eos variant domain strict) (steric d' r' c m rz p' eos variant domain strict) := by
  unfold steric
  refine SameOutcome.bind (rename_order h m hm) (fun d d' h => ?_)
  refine SameOutcome.same (fun cs => ?_)
  obtain ⟨tc, zc, zb⟩ := cs
  dsimp only
  rw [validateDataset_order h]
  refine SameOutcome.same (fun _ => ?_)
  refine SameOutcome.bind (pressure_order h zc hp) (fun _ _ hpr => ?_)
  have hc : SameOutcome TransposedDS (chooseReference d r p eos c) (chooseReference d' r' p' eos c) := by
    cases hr with
    | none => exact setup_order h hp eos c _
    | other => exact rfl
    | dataset hr => exact hr
  refine SameOutcome.bind hc (fun r r' hr => ?_)
  rw [validateDataset_order hr]
  refine SameOutcome.same (fun _ => ?_)
  refine SameOutcome.bind (stericFields_order h hr variant) (fun f f' hf => ?_)
  refine SameOutcome.bind (calcRho_order eos hf.1 hf.2 hpr) (fun ρ ρ' hρ => ?_)
  refine SameOutcome.bind (R := TransposedDS) ?_ (fun _ _ hres => ⟨hres, hr⟩)
  unfold stericResult
  split
  · exact stericGlobal_order hr hρ tc variant
  · exact stericLocal_order h hr hρ tc zc zb rz variant

end Momlevel.Props
