import Verif.Props.N2

/-! # C139: a pressure with dimensions of its own -/

set_option linter.unusedSectionVars false

namespace Momlevel.Props
open Momlevel Momlevel.Fl Momlevel.Eos

variable {K : Type} [Field K] [LinearOrder K] [IsStrictOrderedRing K] {th so pres : DA (Fl K)} {eos : String}

/-- `pres` has a dimension that neither `th` nor `so` has, of a length other than 1, or of any length if both of
them are numbers. -/
def OwnDim (th so pres : DA (Fl K)) : Prop :=
  ∃ p ∈ pres.dims, p.1 ∉ th.dimNames ∧ p.1 ∉ so.dimNames ∧ (p.2 ≠ 1 ∨ th.dims = [] ∧ so.dims = [])

theorem applyEos_linear {fn : String} {f : EosFn (Fl K)} (h : CaseVariant eos "linear")
    (hf : eosFuncFromStr eos fn = .ok f) :
    (OwnDim th so pres → applyEos eos fn th so pres = .error .valueError) ∧
      (¬ OwnDim th so pres → applyEos eos fn th so pres = .ok (DA.zip3 f th so pres)) := by
  have hl := (pyLower_linear eos).2 h
  have key : pres.dims.any (fun p => !th.dimNames.contains p.1 && !so.dimNames.contains p.1
        && (p.2 != 1 || (th.dims.isEmpty && so.dims.isEmpty))) = true ↔ OwnDim th so pres := by
    simp only [List.any_eq_true, OwnDim, Bool.and_eq_true, Bool.or_eq_true, Bool.not_eq_true',
      List.contains_eq_mem, decide_eq_false_iff_not, bne_iff_ne, List.isEmpty_iff, and_assoc]
  constructor
  · intro ho
    simp only [applyEos, hf, ok_bind, hl, key.2 ho, and_self, if_true]
  · intro ho
    have : ¬ pres.dims.any (fun p => !th.dimNames.contains p.1 && !so.dimNames.contains p.1
        && (p.2 != 1 || (th.dims.isEmpty && so.dims.isEmpty))) = true := fun hh => ho (key.1 hh)
    simp only [applyEos, hf, ok_bind, this, Bool.false_eq_true, and_false, if_false]
    rfl

theorem applyEos_wright {fn : String} {f : EosFn (Fl K)} (h : CaseVariant eos "wright")
    (hf : eosFuncFromStr eos fn = .ok f) : applyEos eos fn th so pres = .ok (DA.zip3 f th so pres) := by
  have hl : pyLower eos ≠ "linear".toList := by
    rw [(pyLower_wright eos).2 h]; decide
  simp only [applyEos, hf, ok_bind, hl, false_and, if_false]
  rfl

theorem zip3_names (f : EosFn (Fl K)) (x : String) :
    x ∈ (DA.zip3 f th so pres).dimNames ↔ x ∈ th.dimNames ∨ x ∈ so.dimNames ∨ x ∈ pres.dimNames := by
  have hb : ∀ a b : List (String × ℕ), x ∈ (DA.bdims a b).map Prod.fst ↔ x ∈ a.map Prod.fst ∨ x ∈ b.map Prod.fst := by
    intro a b
    unfold DA.bdims
    rw [List.map_append, List.mem_append]
    constructor
    · rintro (h | h)
      · exact .inl h
      · obtain ⟨p, hp, rfl⟩ := List.mem_map.1 h
        exact .inr (List.mem_map_of_mem (List.mem_filter.1 hp).1)
    · rintro (h | h)
      · exact .inl h
      · by_cases ha : x ∈ a.map Prod.fst
        · exact .inl ha
        · obtain ⟨p, hp, rfl⟩ := List.mem_map.1 h
          exact .inr (List.mem_map_of_mem (List.mem_filter.2 ⟨hp, by
            rw [Bool.not_eq_true', ← Bool.not_eq_true, List.contains_iff_mem]
            exact ha⟩))
  show x ∈ (DA.bdims (DA.bdims th.dims so.dims) pres.dims).map Prod.fst ↔ _
  rw [hb, hb, or_assoc]
  rfl

/-- The linear equation of state raises exactly when the pressure has a dimension of its own; otherwise the
result has the dimensions of all three arrays. -/
theorem C139_linear (h : CaseVariant eos "linear") (th so pres : DA (Fl K)) :
    (OwnDim th so pres → calcRho th so pres eos = .error .valueError ∧ calcAlpha th so pres eos = .error .valueError ∧
      calcBeta th so pres eos = .error .valueError) ∧
    (¬ OwnDim th so pres → ∃ rho alpha beta, calcRho th so pres eos = .ok rho ∧ calcAlpha th so pres eos = .ok alpha ∧
      calcBeta th so pres eos = .ok beta ∧
      (∀ r ∈ [rho, alpha, beta], ∀ x, x ∈ r.dimNames ↔ x ∈ th.dimNames ∨ x ∈ so.dimNames ∨ x ∈ pres.dimNames) ∧
      ∀ e, rho.get e = Linear.density (th.get e) (so.get e) (pres.get e) ∧
        alpha.get e = Linear.alpha (th.get e) (so.get e) (pres.get e) ∧
        beta.get e = Linear.beta (th.get e) (so.get e) (pres.get e)) := by
  obtain ⟨f1, f2, f3, -⟩ := C06_linear (α := Fl K) eos h
  obtain ⟨a1, b1⟩ := applyEos_linear (th := th) (so := so) (pres := pres) h f1
  obtain ⟨a2, b2⟩ := applyEos_linear (th := th) (so := so) (pres := pres) h f2
  obtain ⟨a3, b3⟩ := applyEos_linear (th := th) (so := so) (pres := pres) h f3
  refine ⟨fun ho => ⟨a1 ho, a2 ho, a3 ho⟩, fun ho => ⟨_, _, _, b1 ho, b2 ho, b3 ho, ?_, fun e => ⟨rfl, rfl, rfl⟩⟩⟩
  intro r hr x
  simp only [List.mem_cons, List.not_mem_nil, or_false] at hr
  rcases hr with rfl | rfl | rfl <;> exact zip3_names _ x

/-- Wright's equation of state accepts every pressure. -/
theorem C139_wright (h : CaseVariant eos "wright") (th so pres : DA (Fl K)) :
    ∃ rho alpha beta, calcRho th so pres eos = .ok rho ∧ calcAlpha th so pres eos = .ok alpha ∧
      calcBeta th so pres eos = .ok beta ∧
      (∀ r ∈ [rho, alpha, beta], ∀ x, x ∈ r.dimNames ↔ x ∈ th.dimNames ∨ x ∈ so.dimNames ∨ x ∈ pres.dimNames) ∧
      ∀ e, rho.get e = Wright.density (th.get e) (so.get e) (pres.get e) ∧
        alpha.get e = Wright.alpha (th.get e) (so.get e) (pres.get e) ∧
        beta.get e = Wright.beta (th.get e) (so.get e) (pres.get e) := by
  obtain ⟨f1, f2, f3, -⟩ := C06_wright (α := Fl K) eos h
  refine ⟨_, _, _, applyEos_wright h f1, applyEos_wright h f2, applyEos_wright h f3, ?_, fun e => ⟨rfl, rfl, rfl⟩⟩
  intro r hr x
  simp only [List.mem_cons, List.not_mem_nil, or_false] at hr
  rcases hr with rfl | rfl | rfl <;> exact zip3_names _ x

/-- Potential density and the inverse barometer inherit this: with the linear equation of state the surface
pressure must not have a dimension of its own. -/
theorem C139_surface (h : CaseVariant eos "linear") (th so patm : DA (Fl K)) (ho : OwnDim th so patm) :
    (∀ level : K, 0 ≤ level → level ≤ 7500 → calcPdens th so (fin level) patm eos = .error .valueError) ∧
      ∀ g : Fl K, inverseBarometer th so patm g eos = .error .valueError := by
  constructor
  · intro level h0 h1
    have ho' : OwnDim th so (DA.scalar (fin level * (1.0e4 : Fl K)) + patm) := by
      obtain ⟨p, hp, h2⟩ := ho
      refine ⟨p, ?_, h2⟩
      show p ∈ DA.bdims [] patm.dims
      unfold DA.bdims
      simpa using hp
    have c1 : (Fl.le (0.0 : Fl K) (fin level) && Fl.le (fin level) (7500.0 : Fl K)) = true := by
      rw [Bool.and_eq_true]
      constructor
      · show decide (_ ≤ _) = true
        rw [decide_eq_true_iff]
        norm_num
        exact h0
      · show decide (_ ≤ _) = true
        rw [decide_eq_true_iff]
        norm_num
        exact h1
    simp only [calcPdens, pyAssert, c1, if_true, ok_bind]
    exact ((C139_linear h th so _).1 ho').1
  · intro g
    simp only [inverseBarometer, ((C139_linear h th so patm).1 ho).1, error_bind]

/-- Non-vacuity: the temperature and salinity of one water parcel, pressures at two times. -/
example : calcRho (DA.scalar (fin 10) : DA (Fl ℚ)) (DA.scalar (fin 35)) ⟨[("time", 2)], fun e => fin (e "time")⟩
    "Linear" = .error .valueError :=
  ((C139_linear ((pyLower_linear _).1 (by decide)) _ _ _).1 ⟨("time", 2), by simp, by simp [DA.dimNames, DA.scalar],
    by simp [DA.dimNames, DA.scalar], .inl (by simp)⟩).1

example : ∃ r, calcRho (DA.scalar (fin 10) : DA (Fl ℚ)) (DA.scalar (fin 35)) ⟨[("time", 2)], fun e => fin (e "time")⟩
    "WRIGHT" = .ok r ∧ "time" ∈ r.dimNames := by
  obtain ⟨r, al, be, h, -, -, hd, -⟩ := C139_wright (eos := "WRIGHT") ((pyLower_wright _).1 (by decide)) (DA.scalar (fin 10) : DA (Fl ℚ))
    (DA.scalar (fin 35)) ⟨[("time", 2)], fun e => fin (e "time")⟩
  exact ⟨r, h, (hd r (by simp) "time").2 (.inr (.inr (by simp [DA.dimNames])))⟩

example : inverseBarometer (⟨[("yh", 3)], fun _ => fin 10⟩ : DA (Fl ℚ)) (DA.scalar (fin 35))
    ⟨[("time", 2)], fun e => fin (e "time")⟩ (fin 9) "linear" = .error .valueError :=
  (C139_surface ((pyLower_linear _).1 (by decide)) _ _ _ ⟨("time", 2), by simp, by simp [DA.dimNames],
    by simp [DA.dimNames, DA.scalar], .inl (by simp)⟩).2 _

end Momlevel.Props
