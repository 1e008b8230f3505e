import Verif.Model.AlignDerived
import Verif.Lemmas.Combos
import Verif.Lemmas.Labels
import Verif.Props.StericSuccess
import Verif.Lemmas.Align
import Verif.Lemmas.AdjustN2

/-! # C102-C104: derived quantities of arrays with other labels -/

set_option linter.unusedSectionVars false

namespace Momlevel.Props
open Momlevel Fl Eos

variable {L : Type} [DecidableEq L] {K : Type} [Field K] [LinearOrder K]

theorem applyEos_ok_inv {eos fn : String} {a b c r : DA (Fl K)} (h : applyEos eos fn a b c = .ok r) :
    ∃ f, eosFuncFromStr eos fn = .ok f ∧ r = DA.zip3 f a b c := by
  unfold applyEos at h
  obtain ⟨f, hf, h⟩ := bind_ok.1 h
  split at h
  · cases h
  · exact ⟨f, hf, (pure_ok.1 h).symm⟩

theorem applyEosL_spec {th so pres rho : LA L (Fl K)} {eos fn : String} (h1 : th.Proper) (h2 : so.Proper)
    (h3 : pres.Proper) (h : applyEosL eos fn th so pres = .ok rho) :
    ∃ f, eosFuncFromStr eos fn = .ok f ∧ RhoSpec th so pres rho f := by
  simp only [applyEosL, bind_ok, pure_ok] at h
  obtain ⟨f, hf, ⟨⟩, e1, ⟨⟩, e2, ⟨⟩, e3, r, e4, rfl⟩ := h
  obtain ⟨f', hf', rfl⟩ := applyEos_ok_inv e4
  rw [hf] at hf'
  cases hf'
  have a1 : Agree th so := by
    rcases alignExact_iff h1 h2 with ⟨h, -⟩ | ⟨-, h⟩
    · exact h
    · rw [h] at e1; cases e1
  have a2 : Agree th pres := by
    rcases alignExact_iff h1 h3 with ⟨h, -⟩ | ⟨-, h⟩
    · exact h
    · rw [h] at e2; cases e2
  have a3 : Agree so pres := by
    rcases alignExact_iff h2 h3 with ⟨h, -⟩ | ⟨-, h⟩
    · exact h
    · rw [h] at e3; cases e3
  let p : LA L (Fl K × Fl K) := ⟨DA.zip Prod.mk th.arr so.arr, LA.mergeIdx th so⟩
  have hp : p.Proper := Proper.zip h1 h2 a1
  have hn : ∀ d, d ∈ p.arr.dimNames ↔ d ∈ th.arr.dimNames ∨ d ∈ so.arr.dimNames :=
    fun d => mem_dimNames_zip
  have ap : Agree p pres := by
    intro d hd1 hd2
    rcases (hn d).1 hd1 with h | h
    · show LA.mergeIdx th so d = _
      rw [mergeIdx_left h1 h, a2 d h hd2]
    · show LA.mergeIdx th so d = _
      rw [mergeIdx_right h1 a1 h, a3 d h hd2]
  have e : (⟨DA.zip3 f th.arr so.arr pres.arr,
      LA.mergeIdx ⟨DA.zip (fun _ _ => ()) th.arr so.arr, LA.mergeIdx th so⟩ pres⟩ : LA L (Fl K))
      = ⟨DA.zip (fun (q : Fl K × Fl K) w => f q.1 q.2 w) p.arr pres.arr, LA.mergeIdx p pres⟩ := rfl
  rw [e]
  refine ⟨f, hf, a1, a2, a3, Proper.zip hp h3 ap, ?_, ?_, ?_, ?_, ?_⟩
  · intro d
    show d ∈ (DA.zip _ _ _).dimNames ↔ _
    rw [mem_dimNames_zip, hn, or_assoc]
  · intro d hd
    show LA.mergeIdx p pres d = _
    rw [mergeIdx_left hp ((hn d).2 (Or.inl hd))]
    exact mergeIdx_left h1 hd
  · intro d hd
    show LA.mergeIdx p pres d = _
    rw [mergeIdx_left hp ((hn d).2 (Or.inr hd))]
    exact mergeIdx_right h1 a1 hd
  · intro d hd
    exact mergeIdx_right hp ap hd
  · intro ℓ
    rw [sel_zip hp h3 ap]
    have : p.sel ℓ = (th.sel ℓ, so.sel ℓ) := sel_zip h1 h2 a1 ℓ
    rw [this]

/-- C102 (accepted): a density or expansion coefficient exists only if all labels agree; it is then the equation of
state applied label by label. -/
theorem C102_value {th so pres rho : LA L (Fl K)} {eos fn : String} (h1 : th.Proper) (h2 : so.Proper)
    (h3 : pres.Proper) (h : applyEosL eos fn th so pres = .ok rho) :
    Agree th so ∧ Agree th pres ∧ Agree so pres ∧ ∃ f, eosFuncFromStr eos fn = .ok f ∧
      (∀ d, d ∈ rho.arr.dimNames ↔ d ∈ th.arr.dimNames ∨ d ∈ so.arr.dimNames ∨ d ∈ pres.arr.dimNames) ∧
      (∀ d ∈ th.arr.dimNames, rho.idx d = th.idx d) ∧ (∀ d ∈ so.arr.dimNames, rho.idx d = so.idx d) ∧
      (∀ d ∈ pres.arr.dimNames, rho.idx d = pres.idx d) ∧
      ∀ ℓ, rho.sel ℓ = f (th.sel ℓ) (so.sel ℓ) (pres.sel ℓ) := by
  obtain ⟨f, hf, s⟩ := applyEosL_spec h1 h2 h3 h
  exact ⟨s.agree1, s.agree2, s.agree3, f, hf, s.names, s.idx_th, s.idx_so, s.idx_pres, s.sel⟩

/-- C102 (rejected): labels that differ on a shared dimension raise ValueError. -/
theorem C102_reject {th so pres : LA L (Fl K)} {eos fn : String} (h1 : th.Proper) (h2 : so.Proper)
    (h3 : pres.Proper) {f : EosFn (Fl K)} (hf : eosFuncFromStr eos fn = .ok f)
    (h : ¬ (Agree th so ∧ Agree th pres ∧ Agree so pres)) :
    applyEosL eos fn th so pres = .error .valueError := by
  unfold applyEosL
  rw [hf, ok_bind]
  rcases alignExact_iff h1 h2 with ⟨a1, e1⟩ | ⟨-, e1⟩ <;> rw [e1]
  · rcases alignExact_iff h1 h3 with ⟨a2, e2⟩ | ⟨-, e2⟩ <;> rw [e2]
    · rcases alignExact_iff h2 h3 with ⟨a3, e3⟩ | ⟨-, e3⟩ <;> rw [e3]
      · exact absurd ⟨a1, a2, a3⟩ h
      · rfl
    · rfl
  · rfl

/-- C102 (potential density): the same for `calc_pdens`. -/
theorem C102_pdens {th so patm : LA L (Fl K)} {level : Fl K} {eos : String} (h1 : th.Proper) (h2 : so.Proper)
    (h3 : patm.Proper) {f : EosFn (Fl K)} (hf : eosFuncFromStr eos "density" = .ok f) :
    (¬ (Agree th so ∧ Agree th patm ∧ Agree so patm) → ∀ r, calcPdensL th so level patm eos ≠ .ok r) ∧
    ∀ r, calcPdensL th so level patm eos = .ok r → ∀ ℓ,
      r.sel ℓ = f (th.sel ℓ) (so.sel ℓ) (level * (1.0e4 : Fl K) + patm.sel ℓ) := by
  have hp : (⟨DA.scalar (level * (1.0e4 : Fl K)) + patm.arr, patm.idx⟩ : LA L (Fl K)).Proper :=
    Proper.same (f := (· + · : Fl K → Fl K → Fl K)) (Proper.scalar _ _) h3
  have hd : (DA.scalar (level * (1.0e4 : Fl K)) + patm.arr).dimNames = patm.arr.dimNames := by
    have := names_zip (f := (· + · : Fl K → Fl K → Fl K)) (a := DA.scalar (level * (1.0e4 : Fl K))) (b := patm.arr)
    refine this.trans ?_
    simp [DA.scalar, DA.dimNames]
  constructor
  · intro hn r h
    simp only [calcPdensL, bind_ok] at h
    obtain ⟨_, -, h⟩ := h
    obtain ⟨_, _, s⟩ := applyEosL_spec h1 h2 hp h
    refine hn ⟨s.agree1, fun d hd1 hd2 => s.agree2 d hd1 ?_, fun d hd1 hd2 => s.agree3 d hd1 ?_⟩
    · rw [hd]; exact hd2
    · rw [hd]; exact hd2
  · intro r h ℓ
    simp only [calcPdensL, bind_ok] at h
    obtain ⟨_, -, h⟩ := h
    obtain ⟨f', hf', s⟩ := applyEosL_spec h1 h2 hp h
    rw [hf] at hf'
    cases hf'
    exact s.sel ℓ

/-- C102 (inverse barometer): labels have to agree; the value at every label is -pso / (rho g) there. -/
theorem C102_barometer {tos sos pso r : LA L (Fl K)} {g : Fl K} {eos : String} (h1 : tos.Proper) (h2 : sos.Proper)
    (h3 : pso.Proper) (h : inverseBarometerL tos sos pso g eos = .ok r) :
    Agree tos sos ∧ Agree tos pso ∧ Agree sos pso ∧ ∃ f, eosFuncFromStr eos "density" = .ok f ∧
      (∀ d ∈ pso.arr.dimNames, r.idx d = pso.idx d) ∧
      ∀ ℓ, r.Valid ℓ → r.sel ℓ = pso.sel ℓ * ((-1.0 : Fl K) / (f (tos.sel ℓ) (sos.sel ℓ) (pso.sel ℓ) * g)) := by
  simp only [inverseBarometerL, bind_ok] at h
  obtain ⟨rho, hr, h⟩ := h
  obtain ⟨f, hf, s⟩ := applyEosL_spec h1 h2 h3 hr
  have pm : (⟨(rho.arr * DA.scalar g).map (fun d => (-1.0 : Fl K) / d), rho.idx⟩ : LA L (Fl K)).Proper :=
    Proper.map (a := ⟨rho.arr * DA.scalar g, rho.idx⟩) (Proper.same (f := (· * · : Fl K → Fl K → Fl K)) s.proper
      (Proper.scalar _ _))
  obtain ⟨c, hc, j⟩ := zipInner_spec (f := (· * · : Fl K → Fl K → Fl K)) h3 pm
  rw [h] at hc
  cases hc
  have hnm : ∀ d, d ∈ ((rho.arr * DA.scalar g).map (fun d => (-1.0 : Fl K) / d)).dimNames ↔ d ∈ rho.arr.dimNames := by
    intro d
    have := mem_dimNames_zip (f := (· * · : Fl K → Fl K → Fl K)) (a := rho.arr) (b := DA.scalar g) (d := d)
    refine this.trans ?_
    simp [DA.scalar, DA.dimNames]
  refine ⟨s.agree1, s.agree2, s.agree3, f, hf, ?_, ?_⟩
  · intro d hd
    obtain ⟨la, i1, -⟩ := Proper.idx_some h3 hd
    have hr' : d ∈ rho.arr.dimNames := (s.names d).2 (Or.inr (Or.inr hd))
    have := j.both d la la hd ((hnm d).2 hr') i1 (by show rho.idx d = _; rw [s.idx_pres d hd, i1])
    rw [this, joinLabels_self, i1]
  · intro ℓ hℓ
    rw [j.sel ℓ hℓ]
    congr 1
    show (-1.0 : Fl K) / (rho.sel ℓ * g) = _
    rw [s.sel]

theorem joined_has {V W U : Type} {f : V → W → U} {a : LA L V} {b : LA L W} {c : LA L U} (ha : a.Proper)
    (hb : b.Proper) (j : Joined a b c f) {d : String} (hd : d ∈ c.arr.dimNames) {x : L} :
    c.HasLabel d x ↔ (d ∈ a.arr.dimNames → a.HasLabel d x) ∧ (d ∈ b.arr.dimNames → b.HasLabel d x) := by
  by_cases k1 : d ∈ a.arr.dimNames
  · obtain ⟨la, i1, -⟩ := Proper.idx_some ha k1
    by_cases k2 : d ∈ b.arr.dimNames
    · obtain ⟨lb, i2, -⟩ := Proper.idx_some hb k2
      unfold LA.HasLabel
      rw [j.both d la lb k1 k2 i1 i2, i1, i2]
      simp [k1, k2, mem_joinLabels]
    · unfold LA.HasLabel
      rw [j.left d k1 k2]
      simp [k1, k2]
  · have k2 := ((j.names d).1 hd).resolve_left k1
    unfold LA.HasLabel
    rw [j.right d k1 k2]
    simp [k1, k2]

/-- C103 (value): `calc_masso` never fails; it adds density times volume over the labels that both arrays have
(over all labels of a dimension only one of them has), time by time. -/
theorem C103_value {rho vol : LA L (Fl K)} (h1 : rho.Proper) (h2 : vol.Proper) (tc : String) :
    ∃ (m : LA L (Fl K)) (dims : List String), calcMassoL rho vol tc = .ok m ∧ dims.Nodup ∧
      (∀ d, d ∈ dims ↔ (d ∈ rho.arr.dimNames ∨ d ∈ vol.arr.dimNames) ∧ d ≠ tc) ∧
      (∀ d, d ∈ m.arr.dimNames ↔ (d ∈ rho.arr.dimNames ∨ d ∈ vol.arr.dimNames) ∧ d = tc) ∧
      ∀ ℓ, (tc ∈ rho.arr.dimNames ∨ tc ∈ vol.arr.dimNames → ℓ tc ∈ commonLabels (tc ∈ rho.arr.dimNames)
          (tc ∈ vol.arr.dimNames) (rho.idx tc) (vol.idx tc)) →
        m.sel ℓ = Fl.nansum ((labelCombos (dims.map (fun d => (d, commonLabels (d ∈ rho.arr.dimNames)
          (d ∈ vol.arr.dimNames) (rho.idx d) (vol.idx d)))) ℓ).map (fun k => rho.sel k * vol.sel k)) := by
  obtain ⟨mass, hm, j⟩ := zipInner_spec (f := (· * · : Fl K → Fl K → Fl K)) h1 h2
  have hdn : (mass.arr.dimNames.filter (fun x => x != tc)).Nodup := j.proper.nodup.filter _
  have hlab : ∀ d ∈ mass.arr.dimNames, mass.labelsOf d
      = commonLabels (d ∈ rho.arr.dimNames) (d ∈ vol.arr.dimNames) (rho.idx d) (vol.idx d) := by
    intro d hd
    unfold LA.labelsOf commonLabels
    by_cases k1 : d ∈ rho.arr.dimNames
    · rw [if_pos k1]
      obtain ⟨la, i1, -⟩ := Proper.idx_some h1 k1
      by_cases k2 : d ∈ vol.arr.dimNames
      · rw [if_pos k2]
        obtain ⟨lb, i2, -⟩ := Proper.idx_some h2 k2
        rw [j.both d la lb k1 k2 i1 i2, i1, i2]
        unfold joinLabels
        simp
      · rw [if_neg k2, j.left d k1 k2]
    · rw [if_neg k1, j.right d k1 (((j.names d).1 hd).resolve_left k1)]
  refine ⟨_, mass.arr.dimNames.filter (fun x => x != tc), by unfold calcMassoL; rw [hm]; rfl, hdn, ?_, ?_, ?_⟩
  · intro d
    rw [List.mem_filter, j.names]
    simp
  · intro d
    show d ∈ List.map Prod.fst (List.filter _ _) ↔ _
    rw [List.mem_map]
    simp only [List.mem_filter]
    constructor
    · rintro ⟨p, ⟨hp, hq⟩, rfl⟩
      have hp' : p.1 ∈ mass.arr.dimNames := List.mem_map_of_mem hp
      refine ⟨(j.names _).1 hp', ?_⟩
      by_contra hne
      have : p.1 ∈ mass.arr.dimNames.filter (fun x => x != tc) :=
        List.mem_filter.2 ⟨hp', by simpa using hne⟩
      simp only [List.contains_eq_mem, this, decide_true, Bool.not_true] at hq
      cases hq
    · rintro ⟨h, rfl⟩
      obtain ⟨p, hp, hpd⟩ := List.mem_map.1 ((j.names d).2 h)
      exact ⟨p, ⟨hp, by simp [hpd]⟩, hpd⟩
  · intro ℓ hℓ
    rw [sel_masso j.proper]
    have e1 : (mass.arr.dimNames.filter (fun x => x != tc)).map (fun d => (d, mass.labelsOf d))
        = (mass.arr.dimNames.filter (fun x => x != tc)).map (fun d => (d, commonLabels (d ∈ rho.arr.dimNames)
          (d ∈ vol.arr.dimNames) (rho.idx d) (vol.idx d))) :=
      List.map_congr_left (fun d hd => by rw [hlab d (List.mem_filter.1 hd).1])
    rw [← e1]
    congr 1
    apply List.map_congr_left
    intro m hmm
    obtain ⟨q1, q2⟩ := combos_mem hmm hdn
    refine j.sel m (fun d hd => ?_)
    obtain ⟨la, i1, -⟩ := Proper.idx_some j.proper hd
    refine ⟨la, i1, ?_⟩
    by_cases hdt : d = tc
    · subst hdt
      rw [q2 d (by simp)]
      have := hℓ ((j.names d).1 hd)
      rw [← hlab d hd] at this
      unfold LA.labelsOf at this
      rwa [i1] at this
    · have := q1 d (List.mem_filter.2 ⟨hd, by simpa using hdt⟩)
      unfold LA.labelsOf at this
      rwa [i1] at this

/-- C103 (nothing in common): arrays without a common label along a summed dimension have mass zero, no error. -/
theorem C103_disjoint {rho vol : LA L (Fl K)} (h1 : rho.Proper) (h2 : vol.Proper) {tc d : String} (hd : d ≠ tc)
    {la lb : List L} (k1 : d ∈ rho.arr.dimNames) (k2 : d ∈ vol.arr.dimNames) (i1 : rho.idx d = some la)
    (i2 : vol.idx d = some lb) (hn : ∀ x ∈ la, x ∉ lb) :
    ∃ m, calcMassoL rho vol tc = .ok m ∧ ∀ ℓ, (tc ∈ rho.arr.dimNames ∨ tc ∈ vol.arr.dimNames →
      ℓ tc ∈ commonLabels (tc ∈ rho.arr.dimNames) (tc ∈ vol.arr.dimNames) (rho.idx tc) (vol.idx tc)) →
      m.sel ℓ = fin 0 := by
  obtain ⟨m, dims, e1, -, e3, -, e5⟩ := C103_value h1 h2 tc
  refine ⟨m, e1, fun ℓ hℓ => ?_⟩
  rw [e5 ℓ hℓ]
  have hc : commonLabels (d ∈ rho.arr.dimNames) (d ∈ vol.arr.dimNames) (rho.idx d) (vol.idx d) = [] := by
    unfold commonLabels
    rw [if_pos k1, if_pos k2, i1, i2]
    exact List.filter_eq_nil_iff.2 (fun x hx => by simpa using hn x hx)
  have hmem : (d, ([] : List L)) ∈ dims.map (fun d => (d, commonLabels (d ∈ rho.arr.dimNames)
      (d ∈ vol.arr.dimNames) (rho.idx d) (vol.idx d))) :=
    List.mem_map.2 ⟨d, (e3 d).2 ⟨Or.inl k1, hd⟩, by rw [hc]⟩
  have : ∀ (l : List (String × List L)), (d, []) ∈ l → ∀ ℓ, labelCombos l ℓ = [] := by
    intro l
    induction l with
    | nil => intro h; cases h
    | cons p l ih =>
      intro h ℓ
      obtain ⟨q, lq⟩ := p
      unfold labelCombos
      rcases List.mem_cons.1 h with h | h
      · cases h
        simp
      · rw [ih h]; rfl
  rw [this _ hmem]
  rfl

/-- C103, the part that holds (the full claim, without `ha`, is refuted by `C103_counterexample`): if the labels
agree, the mass adds density times volume over every label of every dimension but time. -/
theorem C103_all_partial {rho vol : LA L (Fl K)} (h1 : rho.Proper) (h2 : vol.Proper) (ha : Agree rho vol)
    (tc : String) :
    ∃ (m : LA L (Fl K)) (dims : List String), calcMassoL rho vol tc = .ok m ∧ dims.Nodup ∧
      (∀ d, d ∈ dims ↔ (d ∈ rho.arr.dimNames ∨ d ∈ vol.arr.dimNames) ∧ d ≠ tc) ∧
      ∀ ℓ, (tc ∈ rho.arr.dimNames → rho.HasLabel tc (ℓ tc)) → (tc ∈ vol.arr.dimNames → vol.HasLabel tc (ℓ tc)) →
        m.sel ℓ = Fl.nansum ((labelCombos (dims.map (fun d => (d, ((if d ∈ rho.arr.dimNames then rho.idx d
          else vol.idx d).getD [])))) ℓ).map (fun k => rho.sel k * vol.sel k)) := by
  obtain ⟨m, dims, e1, e2, e3, -, e5⟩ := C103_value h1 h2 tc
  have hc : ∀ d, commonLabels (d ∈ rho.arr.dimNames) (d ∈ vol.arr.dimNames) (rho.idx d) (vol.idx d)
      = (if d ∈ rho.arr.dimNames then rho.idx d else vol.idx d).getD [] := by
    intro d
    unfold commonLabels
    by_cases k1 : d ∈ rho.arr.dimNames
    · rw [if_pos k1, if_pos k1]
      by_cases k2 : d ∈ vol.arr.dimNames
      · rw [if_pos k2, ha d k1 k2]
        exact List.filter_eq_self.2 (fun x hx => by simpa using hx)
      · rw [if_neg k2]
    · rw [if_neg k1, if_neg k1]
  refine ⟨m, dims, e1, e2, e3, fun ℓ q1 q2 => ?_⟩
  rw [e5 ℓ]
  · simp only [hc]
  · intro h
    rw [hc]
    by_cases k1 : tc ∈ rho.arr.dimNames
    · obtain ⟨la, i1, i2⟩ := q1 k1
      rw [if_pos k1, i1]
      exact i2
    · obtain ⟨la, i1, i2⟩ := q2 (h.resolve_left k1)
      rw [if_neg k1, i1]
      exact i2

/-- C104 (radius): `calc_rossby_rd` has the common labels of wave speed and coriolis parameter, and divides
label by label. -/
theorem C104_rossby {c f : LA L (Fl K)} (h1 : c.Proper) (h2 : f.Proper) :
    ∃ r, calcRossbyRdL c f = .ok r ∧ r.Proper ∧
      (∀ d, d ∈ r.arr.dimNames ↔ d ∈ c.arr.dimNames ∨ d ∈ f.arr.dimNames) ∧
      (∀ d x, d ∈ r.arr.dimNames → (r.HasLabel d x ↔ (d ∈ c.arr.dimNames → c.HasLabel d x) ∧
        (d ∈ f.arr.dimNames → f.HasLabel d x))) ∧
      ∀ ℓ, r.Valid ℓ → r.sel ℓ = c.sel ℓ / Fl.abs (f.sel ℓ) := by
  obtain ⟨r, hr, j⟩ := zipInner_spec (f := (· / · : Fl K → Fl K → Fl K)) h1 (Proper.map (f := Fl.abs) h2)
  exact ⟨r, hr, j.proper, j.names, fun d x hd => joined_has h1 (Proper.map (f := Fl.abs) h2) j hd, j.sel⟩

/-- C104 (potential vorticity): `calc_pv` without interpolation has the common labels of its three arguments. -/
theorem C104_pv {ze f n2 : LA L (Fl K)} {g : Fl K} (h1 : ze.Proper) (h2 : f.Proper) (h3 : n2.Proper) :
    ∃ r, calcPvL ze f n2 g = .ok r ∧ r.Proper ∧
      (∀ d, d ∈ r.arr.dimNames ↔ d ∈ ze.arr.dimNames ∨ d ∈ f.arr.dimNames ∨ d ∈ n2.arr.dimNames) ∧
      (∀ d x, d ∈ r.arr.dimNames → (r.HasLabel d x ↔ (d ∈ ze.arr.dimNames → ze.HasLabel d x) ∧
        (d ∈ f.arr.dimNames → f.HasLabel d x) ∧ (d ∈ n2.arr.dimNames → n2.HasLabel d x))) ∧
      ∀ ℓ, r.Valid ℓ → r.sel ℓ = (ze.sel ℓ + f.sel ℓ) * (n2.sel ℓ / g) := by
  obtain ⟨t, ht, j1⟩ := zipInner_spec (f := (· + · : Fl K → Fl K → Fl K)) h1 h2
  have hp : (⟨n2.arr / DA.scalar g, n2.idx⟩ : LA L (Fl K)).Proper :=
    Proper.same (f := (· / · : Fl K → Fl K → Fl K)) h3 (Proper.scalar _ _)
  have hnm : ∀ d, d ∈ (n2.arr / DA.scalar g).dimNames ↔ d ∈ n2.arr.dimNames := by
    intro d
    have := mem_dimNames_zip (f := (· / · : Fl K → Fl K → Fl K)) (a := n2.arr) (b := DA.scalar g) (d := d)
    refine this.trans ?_
    simp [DA.scalar, DA.dimNames]
  obtain ⟨r, hr, j2⟩ := zipInner_spec (f := (· * · : Fl K → Fl K → Fl K)) j1.proper hp
  have hnames : ∀ d, d ∈ r.arr.dimNames ↔ d ∈ ze.arr.dimNames ∨ d ∈ f.arr.dimNames ∨ d ∈ n2.arr.dimNames := by
    intro d
    rw [j2.names, j1.names, or_assoc]
    exact or_congr_right (or_congr_right (hnm d))
  have hlab : ∀ d x, d ∈ r.arr.dimNames → (r.HasLabel d x ↔ (d ∈ ze.arr.dimNames → ze.HasLabel d x) ∧
        (d ∈ f.arr.dimNames → f.HasLabel d x) ∧ (d ∈ n2.arr.dimNames → n2.HasLabel d x)) := by
    intro d x hd
    rw [joined_has j1.proper hp j2 hd]
    have e3 : (d ∈ (n2.arr / DA.scalar g).dimNames → LA.HasLabel (⟨n2.arr / DA.scalar g, n2.idx⟩ : LA L (Fl K)) d x)
        ↔ (d ∈ n2.arr.dimNames → n2.HasLabel d x) := imp_congr (hnm d) Iff.rfl
    rw [e3, ← and_assoc]
    refine and_congr_left (fun _ => ?_)
    by_cases ht : d ∈ t.arr.dimNames
    · rw [joined_has h1 h2 j1 ht]
      exact ⟨fun h => h ht, fun h _ => h⟩
    · have hn := fun h => ht ((j1.names d).2 h)
      exact ⟨fun _ => ⟨fun h => absurd (Or.inl h) hn, fun h => absurd (Or.inr h) hn⟩, fun _ h => absurd h ht⟩
  refine ⟨r, by unfold calcPvL; rw [ht]; exact hr, j2.proper, hnames, hlab, fun ℓ hℓ => ?_⟩
  rw [j2.sel ℓ hℓ]
  have : t.sel ℓ = ze.sel ℓ + f.sel ℓ := by
    refine j1.sel ℓ (fun d hd => ?_)
    have := (joined_has j1.proper hp j2 ((j2.names d).2 (Or.inl hd))).1 (hℓ d ((j2.names d).2 (Or.inl hd)))
    exact this.1 hd
  rw [this]
  rfl

/-- The labelled adjusted frequency. -/
theorem adjust_proper {n2 : LA L (Fl ℝ)} {n : Nat} {rest : List (String × Nat)}
    (hd : n2.arr.dims = ("z_l", n) :: rest) (hn : n ≠ 0) (h1 : n2.Proper) :
    ∃ adj, adjustNegativeN2 n2.arr = .ok adj ∧ adj.dims = n2.arr.dims ∧ (⟨adj, n2.idx⟩ : LA L (Fl ℝ)).Proper := by
  have hz : "z_l" ∈ n2.arr.dimNames := by unfold DA.dimNames; rw [hd]; simp
  obtain ⟨adj, e1, e2, e3⟩ := adjust_eval (z := "z_l") hd hn hz
  refine ⟨adj, e1, e2, ?_, ?_, ?_⟩
  · intro e e' he
    have he' : ∀ d ∈ n2.arr.dimNames, e d = e' d := by
      intro d hd'
      exact he d (by show d ∈ adj.dims.map Prod.fst; rw [e2]; exact hd')
    show adj.get e = adj.get e'
    rw [e3, e3, h1.wf e e' he', he' "z_l" hz]
    congr 2
    funext k
    have : n2.arr.get (Function.update e "z_l" k) = n2.arr.get (Function.update e' "z_l" k) := by
      refine h1.wf _ _ (fun x hx => ?_)
      by_cases hx' : x = "z_l"
      · subst hx'; simp
      · simp [Function.update_of_ne hx', he' x hx]
    simp only [this, Function.update_self]
  · show (adj.dims.map Prod.fst).Nodup
    rw [e2]; exact h1.nodup
  · intro p hp
    exact h1.labels p (by rw [← e2]; exact hp)

/-- C104 (wave speed): the vertical sum runs over the levels common to N2 and dz.  The call succeeds exactly if
every horizontal label of N2 occurs in dz; it is ValueError otherwise. -/
theorem C104_wave {n2 dz : LA L (Fl ℝ)} {n : Nat} {rest : List (String × Nat)}
    (hd : n2.arr.dims = ("z_l", n) :: rest) (hn : n ≠ 0) (h1 : n2.Proper) (h2 : dz.Proper) {top : L} {lz : List L}
    (hz : n2.idx "z_l" = some (top :: lz)) :
    ∃ adj, adjustNegativeN2 n2.arr = .ok adj ∧
      ((∃ d x, d ≠ "z_l" ∧ d ∈ n2.arr.dimNames ∧ d ∈ dz.arr.dimNames ∧ n2.HasLabel d x ∧ ¬ dz.HasLabel d x) →
        calcWaveSpeedL n2 dz = .error .valueError) ∧
      ((∀ d x, d ≠ "z_l" → d ∈ n2.arr.dimNames → d ∈ dz.arr.dimNames → n2.HasLabel d x → dz.HasLabel d x) →
        ∃ r, calcWaveSpeedL n2 dz = .ok r ∧
          (∀ d, d ∈ r.arr.dimNames ↔ d ≠ "z_l" ∧ (d ∈ n2.arr.dimNames ∨ d ∈ dz.arr.dimNames)) ∧
          ∀ ℓ, (∀ d ≠ "z_l", d ∈ n2.arr.dimNames → n2.HasLabel d (ℓ d)) →
            (∀ d ≠ "z_l", d ∈ dz.arr.dimNames → dz.HasLabel d (ℓ d)) →
            r.sel ℓ = if n2.sel (Function.update ℓ "z_l" top) = nan then nan else
              Fl.nansum ((commonLabels True ("z_l" ∈ dz.arr.dimNames) (n2.idx "z_l") (dz.idx "z_l")).map (fun x =>
                npSqrt ((⟨adj, n2.idx⟩ : LA L (Fl ℝ)).sel (Function.update ℓ "z_l" x))
                  * dz.sel (Function.update ℓ "z_l" x))) / fin Real.pi) := by
  obtain ⟨adj, a1, a2, a3⟩ := adjust_proper hd hn h1
  have hzn : "z_l" ∈ n2.arr.dimNames := by unfold DA.dimNames; rw [hd]; simp
  have hadj : adj.dimNames = n2.arr.dimNames := by unfold DA.dimNames; rw [a2]
  have a4 : (⟨adj.map npSqrt, n2.idx⟩ : LA L (Fl ℝ)).Proper := Proper.map (f := npSqrt) a3
  obtain ⟨c, hc, j⟩ := zipInner_spec (f := (· * · : Fl ℝ → Fl ℝ → Fl ℝ)) a4 h2
  have hcz : "z_l" ∈ c.arr.dimNames := (j.names _).2 (Or.inl (by show _ ∈ adj.dimNames; rw [hadj]; exact hzn))
  have hjn : ∀ d, d ∈ c.arr.dimNames ↔ d ∈ n2.arr.dimNames ∨ d ∈ dz.arr.dimNames := by
    intro d
    rw [j.names]
    show d ∈ adj.dimNames ∨ _ ↔ _
    rw [hadj]
  have hf : first n2.arr = .ok (n2.arr.isel "z_l" 0) := by
    unfold first; rw [hd]; simp [hn]
  have ptop : (⟨n2.arr.isel "z_l" 0, n2.idx⟩ : LA L (Fl ℝ)).Proper := Proper.isel h1 _ _
  have pres : (⟨c.arr.sumDim "z_l" / DA.scalar npPi, c.idx⟩ : LA L (Fl ℝ)).Proper :=
    Proper.same (f := (· / · : Fl ℝ → Fl ℝ → Fl ℝ)) (Proper.sumDim j.proper _) (Proper.scalar _ _)
  have ntop : ∀ d, d ∈ (n2.arr.isel "z_l" 0).dimNames ↔ d ∈ n2.arr.dimNames ∧ d ≠ "z_l" := fun d => names_filter_ne
  have nres : ∀ d, d ∈ (c.arr.sumDim "z_l" / DA.scalar npPi).dimNames ↔ d ∈ c.arr.dimNames ∧ d ≠ "z_l" := by
    intro d
    have := mem_dimNames_zip (f := (· / · : Fl ℝ → Fl ℝ → Fl ℝ)) (a := c.arr.sumDim "z_l") (b := DA.scalar npPi) (d := d)
    refine this.trans ?_
    have h : d ∈ (c.arr.sumDim "z_l").dimNames ↔ d ∈ c.arr.dimNames ∧ d ≠ "z_l" := names_filter_ne
    rw [h]
    simp [DA.scalar, DA.dimNames]
  have run : calcWaveSpeedL n2 dz = (LA.alignExact (⟨n2.arr.isel "z_l" 0, n2.idx⟩ : LA L (Fl ℝ))
      (⟨c.arr.sumDim "z_l" / DA.scalar npPi, c.idx⟩ : LA L (Fl ℝ)) >>= fun _ =>
      pure ⟨DA.zip3 Fl.sel ((n2.arr.isel "z_l" 0).map Fl.isnull) (DA.scalar .nan)
        (c.arr.sumDim "z_l" / DA.scalar npPi), LA.mergeIdx (⟨n2.arr.isel "z_l" 0, n2.idx⟩ : LA L (Fl ℝ))
        (⟨c.arr.sumDim "z_l" / DA.scalar npPi, c.idx⟩ : LA L (Fl ℝ))⟩) := by
    unfold calcWaveSpeedL LA.lift
    simp only [a1, hf, ok_bind, pure_bind]
    rw [hc]
    simp only [ok_bind, if_neg (not_not.2 hcz)]
  have agr : Agree (⟨n2.arr.isel "z_l" 0, n2.idx⟩ : LA L (Fl ℝ))
      (⟨c.arr.sumDim "z_l" / DA.scalar npPi, c.idx⟩ : LA L (Fl ℝ)) ↔
      ∀ d x, d ≠ "z_l" → d ∈ n2.arr.dimNames → d ∈ dz.arr.dimNames → n2.HasLabel d x → dz.HasLabel d x := by
    constructor
    · intro h d x hne k1 k2 hx
      obtain ⟨la, i1, -⟩ := Proper.idx_some h1 k1
      obtain ⟨lb, i2, -⟩ := Proper.idx_some h2 k2
      have e := h d ((ntop d).2 ⟨k1, hne⟩) ((nres d).2 ⟨(hjn d).2 (Or.inl k1), hne⟩)
      have e' : n2.idx d = c.idx d := e
      rw [j.both d la lb (by show d ∈ adj.dimNames; rw [hadj]; exact k1) k2 i1 i2, i1] at e'
      obtain ⟨la', i1', hx⟩ := hx
      rw [i1] at i1'
      cases i1'
      rw [Option.some.inj e'] at hx
      exact ⟨lb, i2, (mem_joinLabels.1 hx).2⟩
    · intro h d q1 q2
      obtain ⟨k1, hne⟩ := (ntop d).1 q1
      show n2.idx d = c.idx d
      by_cases k2 : d ∈ dz.arr.dimNames
      · obtain ⟨la, i1, -⟩ := Proper.idx_some h1 k1
        obtain ⟨lb, i2, -⟩ := Proper.idx_some h2 k2
        rw [j.both d la lb (by show d ∈ adj.dimNames; rw [hadj]; exact k1) k2 i1 i2, i1]
        congr 1
        symm
        apply List.filter_eq_self.2
        intro x hx
        obtain ⟨lb', i2', hx'⟩ := h d x hne k1 k2 ⟨la, i1, hx⟩
        rw [i2] at i2'
        cases i2'
        simpa using hx'
      · rw [j.left d (by show d ∈ adj.dimNames; rw [hadj]; exact k1) k2]
  refine ⟨adj, a1, ?_, ?_⟩
  · rintro ⟨d, x, q1, q2, q3, q4, q5⟩
    rw [run]
    rcases alignExact_iff ptop pres with ⟨h, -⟩ | ⟨-, e⟩
    · exact absurd (agr.1 h d x q1 q2 q3 q4) q5
    · rw [e]; rfl
  · intro hall
    have hag := agr.2 hall
    rcases alignExact_iff ptop pres with ⟨-, e⟩ | ⟨h, -⟩
    swap
    · exact absurd hag h
    rw [run, e]
    refine ⟨_, rfl, ?_, ?_⟩
    · intro d
      show d ∈ (DA.zip (fun (_ : Unit) (_ : Fl ℝ) => ()) (DA.zip (fun _ _ => ())
        ((n2.arr.isel "z_l" 0).map Fl.isnull) (DA.scalar (nan : Fl ℝ)))
        (c.arr.sumDim "z_l" / DA.scalar npPi)).dimNames ↔ _
      rw [mem_dimNames_zip, mem_dimNames_zip, nres, hjn]
      show ((d ∈ (n2.arr.isel "z_l" 0).dimNames ∨ d ∈ (DA.scalar (nan : Fl ℝ)).dimNames) ∨ _) ↔ _
      rw [ntop]
      simp only [DA.scalar, DA.dimNames, List.map_nil, List.not_mem_nil, or_false]
      tauto
    · intro ℓ v1 v2
      have pm : (⟨(n2.arr.isel "z_l" 0).map Fl.isnull, n2.idx⟩ : LA L Bool).Proper := Proper.map (f := Fl.isnull) ptop
      have hs := sel_zip (f := fun (b : Bool) (v : Fl ℝ) => Fl.sel b nan v) pm pres hag ℓ
      have e0 : ∀ e, (DA.zip3 Fl.sel ((n2.arr.isel "z_l" 0).map Fl.isnull) (DA.scalar .nan)
          (c.arr.sumDim "z_l" / DA.scalar npPi)).get e = (DA.zip (fun (b : Bool) (v : Fl ℝ) => Fl.sel b nan v)
          ((n2.arr.isel "z_l" 0).map Fl.isnull) (c.arr.sumDim "z_l" / DA.scalar npPi)).get e := fun _ => rfl
      show (DA.zip3 Fl.sel ((n2.arr.isel "z_l" 0).map Fl.isnull) (DA.scalar .nan)
          (c.arr.sumDim "z_l" / DA.scalar npPi)).get _ = _
      rw [e0]
      refine hs.trans ?_
      have t1 := sel_isel_zero h1 hzn hz (by simp) ℓ
      have t2 : (⟨(n2.arr.isel "z_l" 0).map Fl.isnull, n2.idx⟩ : LA L Bool).sel ℓ
          = Fl.isnull (n2.sel (Function.update ℓ "z_l" top)) := by
        rw [← show _ = n2.sel (Function.update ℓ "z_l" top) from t1]
        rfl
      rw [t2]
      by_cases hnan : n2.sel (Function.update ℓ "z_l" top) = nan
      · rw [hnan, if_pos rfl]; rfl
      rw [if_neg hnan]
      have t3 : Fl.isnull (n2.sel (Function.update ℓ "z_l" top)) = false := by
        revert hnan
        cases n2.sel (Function.update ℓ "z_l" top) <;> simp [Fl.isnull]
      rw [t3]
      show (⟨c.arr.sumDim "z_l", c.idx⟩ : LA L (Fl ℝ)).sel ℓ / fin Real.pi = _
      have hcl : c.idx "z_l" = some (commonLabels True ("z_l" ∈ dz.arr.dimNames) (n2.idx "z_l") (dz.idx "z_l")) := by
        unfold commonLabels
        rw [if_pos trivial]
        by_cases k2 : "z_l" ∈ dz.arr.dimNames
        · obtain ⟨lb, i2, -⟩ := Proper.idx_some h2 k2
          rw [if_pos k2, j.both "z_l" _ lb (by show _ ∈ adj.dimNames; rw [hadj]; exact hzn) k2 hz i2, hz, i2]
          unfold joinLabels
          simp
        · rw [if_neg k2, j.left _ (by show _ ∈ adj.dimNames; rw [hadj]; exact hzn) k2]
          show n2.idx "z_l" = _
          rw [hz]; rfl
      rw [sel_sumDim j.proper hcz hcl]
      congr 2
      apply List.map_congr_left
      intro x hx
      refine j.sel _ (fun d hd' => ?_)
      by_cases hdz : d = "z_l"
      · subst hdz
        rw [Function.update_self]
        exact ⟨_, hcl, hx⟩
      · rw [Function.update_of_ne hdz, joined_has a4 h2 j hd']
        refine ⟨fun k => v1 d hdz ?_, v2 d hdz⟩
        rw [← hadj]; exact k

/-- C103 (mean density): `calc_rhoga` has the common times of mass and volume. -/
theorem C103_rhoga {m v : LA L (Fl K)} (h1 : m.Proper) (h2 : v.Proper) :
    ∃ r, calcRhogaL m v = .ok r ∧ r.Proper ∧
      (∀ d, d ∈ r.arr.dimNames ↔ d ∈ m.arr.dimNames ∨ d ∈ v.arr.dimNames) ∧
      (∀ d x, d ∈ r.arr.dimNames → (r.HasLabel d x ↔ (d ∈ m.arr.dimNames → m.HasLabel d x) ∧
        (d ∈ v.arr.dimNames → v.HasLabel d x))) ∧
      ∀ ℓ, r.Valid ℓ → r.sel ℓ = m.sel ℓ / v.sel ℓ := by
  obtain ⟨r, hr, j⟩ := zipInner_spec (f := (· / · : Fl K → Fl K → Fl K)) h1 h2
  exact ⟨r, hr, j.proper, j.names, fun d x hd => joined_has h1 h2 j hd, j.sel⟩

/-! ## Dimensions without labels -/

theorem size_take_ne {V : Type} (a : DA V) {d x : String} (h : x ≠ d) (ps : List Nat) :
    (a.take d ps).size x = a.size x := by
  unfold DA.size DA.take
  simp only
  generalize a.dims = l
  induction l with
  | nil => rfl
  | cons p l ih =>
    rw [List.map_cons]
    by_cases hp : p.1 = d
    · rw [if_pos hp]
      have h1 : ¬ (d == x) = true := by simpa using fun he : d = x => h he.symm
      have h2 : ¬ (p.1 == x) = true := by rw [hp]; exact h1
      simp only [List.find?_cons, h1, h2]
      exact ih
    · rw [if_neg hp]
      by_cases hx : (p.1 == x) = true
      · simp only [List.find?_cons, hx]
      · simp only [List.find?_cons, hx]
        exact ih

theorem reindex_ne {V : Type} (a : LA L V) {d x : String} (h : x ≠ d) (l : List L) :
    (a.reindex d l).arr.size x = a.arr.size x ∧ (a.reindex d l).idx x = a.idx x := by
  unfold LA.reindex
  cases a.idx d with
  | none => exact ⟨rfl, rfl⟩
  | some la => exact ⟨size_take_ne _ h _, by simp [Function.update_of_ne h]⟩

theorem foldAlign_sizes {V W : Type} {d : String} : ∀ (ds : List String), d ∈ ds →
    ∀ (a : LA L V) (b : LA L W), (a.idx d = none ∨ b.idx d = none) → a.arr.size d ≠ b.arr.size d →
    ds.foldlM (fun (p : LA L V × LA L W) d => LA.alignDim p.1 p.2 d) (a, b) = .error .valueError := by
  intro ds
  induction ds with
  | nil => intro h; cases h
  | cons x ds ih =>
    intro hm a b hi hs
    rw [List.foldlM_cons]
    by_cases hx : x = d
    · subst hx
      have : LA.alignDim a b x = .error .valueError := by
        unfold LA.alignDim
        rcases hi with h | h
        · rw [h]; simp [hs]
        · rw [h]; cases a.idx x <;> simp [hs]
      simp only [this, error_bind]
    · have hm' := (List.mem_cons.1 hm).resolve_left (Ne.symm hx)
      simp only
      unfold LA.alignDim
      split
      · split
        · exact ih hm' a b hi hs
        · rename_i la lb _ _ _
          obtain ⟨r1, r2⟩ := reindex_ne a (Ne.symm hx) (joinLabels la lb)
          obtain ⟨r3, r4⟩ := reindex_ne b (Ne.symm hx) (joinLabels la lb)
          exact ih hm' _ _ (by rw [r2, r4]; exact hi) (by rw [r1, r3]; exact hs)
      · split
        · exact ih hm' a b hi hs
        · rfl

/-- C103 (no labels): a shared dimension without labels on one side and of different length is ValueError. -/
theorem C103_sizes {rho vol : LA L (Fl K)} {d : String} (tc : String) (k1 : d ∈ rho.arr.dimNames)
    (k2 : d ∈ vol.arr.dimNames) (hi : rho.idx d = none ∨ vol.idx d = none) (hs : rho.arr.size d ≠ vol.arr.size d) :
    calcMassoL rho vol tc = .error .valueError := by
  unfold calcMassoL LA.zipInner LA.alignInner
  rw [foldAlign_sizes (LA.shared rho vol) (List.mem_filter.2 ⟨k1, by simpa using k2⟩) rho vol hi hs]
  rfl

/-- C102 (no labels): the same for the temperature and salinity of a density. -/
theorem C102_sizes {th so pres : LA L (Fl K)} {d eos fn : String} (k1 : d ∈ th.arr.dimNames)
    (k2 : d ∈ so.arr.dimNames) (hi : th.idx d = none ∨ so.idx d = none) (hs : th.arr.size d ≠ so.arr.size d)
    {f : EosFn (Fl K)} (hf : eosFuncFromStr eos fn = .ok f) :
    applyEosL eos fn th so pres = .error .valueError := by
  unfold applyEosL
  rw [hf, ok_bind]
  have : LA.alignExact th so = .error .valueError := by
    unfold LA.alignExact
    rw [if_neg]
    intro h
    have := List.all_eq_true.1 h d (List.mem_filter.2 ⟨k1, by simpa using k2⟩)
    unfold LA.exactDim at this
    rcases hi with h | h
    · rw [h] at this; exact hs (by simpa using this)
    · rw [h] at this
      cases hx : th.idx d <;> rw [hx] at this <;> exact hs (by simpa using this)
  rw [this]
  rfl

/-- Two columns against three, neither with labels. -/
example : calcMassoL (⟨⟨[("xh", 2)], fun _ => fin (1020 : ℚ)⟩, fun _ => none⟩ : LA Nat (Fl ℚ))
    ⟨⟨[("xh", 3)], fun _ => fin 1⟩, fun _ => none⟩ = .error .valueError :=
  C103_sizes (d := "xh") _ (by simp [DA.dimNames]) (by simp [DA.dimNames]) (Or.inl rfl) (by decide)

/-! ## Agreeing labels: nothing changes -/

section same
variable {size : String → Nat} {idx : Index L}

/-- C102 (one dataset): with common labels `calc_rho` etc. are the functions of the arrays. -/
theorem C102_same {a b c : DA (Fl K)} {eos fn : String} (ha : Sized size a) (hb : Sized size b) (hc : Sized size c) :
    applyEosL eos fn (⟨a, idx⟩ : LA L (Fl K)) ⟨b, idx⟩ ⟨c, idx⟩ = (applyEos eos fn a b c).map (fun r => ⟨r, idx⟩) := by
  simp only [applyEosL, alignExact_same ha hb, alignExact_same ha hc, alignExact_same hb hc, ok_bind, mergeIdx_same]
  cases hf : eosFuncFromStr (α := Fl K) eos fn with
  | error e => simp only [error_bind, applyEos, hf]; rfl
  | ok f =>
    rw [ok_bind]
    cases applyEos eos fn a b c <;> rfl

/-- C103 (one dataset): with common labels `calc_masso` is the function of the arrays. -/
theorem C103_same {a b : DA (Fl K)} (ha : Sized size a) (hb : Sized size b) (tc : String) :
    calcMassoL (⟨a, idx⟩ : LA L (Fl K)) ⟨b, idx⟩ tc = .ok ⟨calcMasso a b tc, idx⟩ := by
  simp only [calcMassoL, zipInner_same ha hb, ok_bind]
  rfl

/-- C104 (one dataset): with common labels `calc_rossby_rd` is the function of the arrays. -/
theorem C104_same {a b : DA (Fl K)} (ha : Sized size a) (hb : Sized size b) :
    calcRossbyRdL (⟨a, idx⟩ : LA L (Fl K)) ⟨b, idx⟩ = .ok ⟨calcRossbyRd a b, idx⟩ := by
  have hb' : Sized size (b.map Fl.abs) := hb
  simp only [calcRossbyRdL, zipInner_same ha hb']
  rfl

end same

/-! ## Concrete cases -/

/-- A row of values with the given labels. -/
def row (d : String) (la : List Nat) (f : Nat → Fl K) : LA Nat (Fl K) :=
  ⟨⟨[(d, la.length)], fun e => f (e d)⟩, fun x => if x = d then some la else none⟩

theorem row_proper (d : String) {la : List Nat} (h : la.Nodup) (f : Nat → Fl K) : (row d la f).Proper := by
  refine ⟨fun e e' he => ?_, by simp [row, DA.dimNames], fun p hp => ?_⟩
  · show f (e d) = f (e' d)
    rw [he d (by simp [row, DA.dimNames])]
  · simp only [row, List.mem_singleton] at hp
    subst hp
    exact ⟨la, by simp [row], h, rfl⟩

/-- C103, the full claim fails: density at columns 0 and 1, volume at columns 1 and 2.  The mass is that of column 1
alone, with neither an error nor a missing value. -/
theorem C103_counterexample : ∃ rho vol m : LA Nat (Fl ℚ), rho.Proper ∧ vol.Proper ∧ calcMassoL rho vol = .ok m ∧
    (∀ ℓ, m.sel ℓ = fin 1030) ∧ rho.HasLabel "xh" 0 ∧ vol.HasLabel "xh" 2 ∧
    (∀ x, rho.HasLabel "xh" x ∧ vol.HasLabel "xh" x ↔ x = 1) := by
  refine ⟨row "xh" [0, 1] (fun i => if i = 0 then fin 1020 else fin 1030), row "xh" [1, 2] (fun _ => fin 1), _,
    row_proper _ (by decide) _, row_proper _ (by decide) _, rfl, ?_, ?_, ?_, ?_⟩
  · intro ℓ
    show Fl.nansum [fin (1030 : ℚ) * fin 1] = fin 1030
    simp [Fl.nansum]
  · exact ⟨[0, 1], by simp [row], by simp⟩
  · exact ⟨[1, 2], by simp [row], by simp⟩
  · intro x
    simp [row, LA.HasLabel]
    omega

/-- `C103_value` and `C103_rhoga` apply to these rows. -/
example : (row "xh" [0, 1] (fun i => if i = 0 then fin (1020 : ℚ) else fin 1030)).Proper ∧
    (row "xh" [1, 2] (fun _ => fin (1 : ℚ))).Proper := ⟨row_proper _ (by decide) _, row_proper _ (by decide) _⟩

/-- A case of `C103_disjoint`: longitudes 0, 1 against 360, 361. -/
example : ∃ m, calcMassoL (row "xh" [0, 1] (fun _ => fin (1020 : ℚ))) (row "xh" [360, 361] (fun _ => fin 1)) = .ok m ∧
    ∀ ℓ, m.sel ℓ = fin 0 := by
  obtain ⟨m, h1, h2⟩ := C103_disjoint (tc := "time") (row_proper "xh" (la := [0, 1]) (by decide) (fun _ => fin (1020 : ℚ)))
    (row_proper "xh" (la := [360, 361]) (by decide) (fun _ => fin (1 : ℚ))) (d := "xh") (by decide)
    (by simp [row, DA.dimNames]) (by simp [row, DA.dimNames]) (by simp [row]; rfl) (by simp [row]; rfl) (by decide)
  exact ⟨m, h1, fun ℓ => h2 ℓ (by simp [row, DA.dimNames])⟩

/-- A case of `C103_all_partial`. -/
example : Agree (row "xh" [0, 1] (fun _ => fin (1020 : ℚ))) (row "xh" [0, 1] (fun i => fin i)) := fun _ _ _ => rfl

/-- A case of `C102_value`, `C102_pdens` and `C102_barometer`: two columns, same labels. -/
example : ∃ r, applyEosL "linear" "density" (row "xh" [4, 7] (fun i => fin ((i : ℚ) + 10)))
    (row "xh" [4, 7] (fun _ => fin 35)) (row "xh" [4, 7] (fun _ => fin 0)) = .ok r := ⟨_, rfl⟩
example : ∃ r, calcPdensL (row "xh" [4, 7] (fun i => fin ((i : ℚ) + 10)))
    (row "xh" [4, 7] (fun _ => fin 35)) (fin 0) (row "xh" [4, 7] (fun _ => fin 0)) "linear" = .ok r := by
  unfold calcPdensL
  rw [show pyAssert (Fl.le (0.0 : Fl ℚ) (fin 0) && Fl.le (fin 0) (7500.0 : Fl ℚ)) = .ok () by
    simp only [ofSci, Fl.le]; norm_num [pyAssert]]
  exact ⟨_, rfl⟩
example : ∃ r, inverseBarometerL (row "xh" [4, 7] (fun i => fin ((i : ℚ) + 10)))
    (row "xh" [4, 7] (fun _ => fin 35)) (row "xh" [4, 7] (fun _ => fin 100000)) (fin 10) "linear" = .ok r := by
  obtain ⟨r, hr⟩ : ∃ r, applyEosL "linear" "density" (row "xh" [4, 7] (fun i => fin ((i : ℚ) + 10)))
    (row "xh" [4, 7] (fun _ => fin 35)) (row "xh" [4, 7] (fun _ => fin 100000)) = .ok r := ⟨_, rfl⟩
  have hp := fun f => row_proper (K := ℚ) "xh" (la := [4, 7]) (by decide) f
  obtain ⟨_, _, s⟩ := applyEosL_spec (hp _) (hp _) (hp _) hr
  unfold inverseBarometerL
  rw [hr, ok_bind]
  obtain ⟨c, hc, -⟩ := zipInner_spec (f := (· * · : Fl ℚ → Fl ℚ → Fl ℚ)) (hp (fun _ => fin 100000))
    (Proper.map (f := fun d => (-1.0 : Fl ℚ) / d) (a := ⟨r.arr * DA.scalar (fin 10), r.idx⟩)
      (Proper.same (f := (· * · : Fl ℚ → Fl ℚ → Fl ℚ)) s.proper (Proper.scalar _ _)))
  exact ⟨c, hc⟩

/-- A case of `C102_reject`: a salinity one column to the east. -/
example : applyEosL "linear" "density" (row "xh" [4, 7] (fun i => fin ((i : ℚ) + 10)))
    (row "xh" [7, 9] (fun _ => fin 35)) (row "xh" [4, 7] (fun _ => fin 0)) = .error .valueError := by
  refine C102_reject (row_proper _ (by decide) _) (row_proper _ (by decide) _) (row_proper _ (by decide) _)
    (f := _) rfl (fun h => ?_)
  have := h.1 "xh" (by simp [row, DA.dimNames]) (by simp [row, DA.dimNames])
  simp [row] at this

/-- A case of `C104_wave`, levels 5 and 15 of N2 against levels 5 and 25 of dz: only level 5 counts. -/
example : ∃ r, calcWaveSpeedL (row "z_l" [5, 15] (fun _ => fin (4 : ℝ))) (row "z_l" [5, 25] (fun _ => fin 10)) = .ok r := by
  obtain ⟨adj, -, -, h⟩ := C104_wave (n2 := row "z_l" [5, 15] (fun _ => fin (4 : ℝ)))
    (dz := row "z_l" [5, 25] (fun _ => fin 10)) rfl (by decide) (row_proper _ (by decide) _)
    (row_proper _ (by decide) _) (top := 5) (lz := [15]) rfl
  obtain ⟨r, hr, -⟩ := h (fun d x h1 h2 => absurd (by simpa [row, DA.dimNames] using h2) h1)
  exact ⟨r, hr⟩

/-- A case of `C104_rossby` and `C104_pv` with different labels. -/
example : ∃ r, calcRossbyRdL (row "yh" [5, 15] (fun _ => fin (4 : ℚ))) (row "yh" [15, 25] (fun _ => fin 10)) = .ok r ∧
    r.HasLabel "yh" 15 ∧ ¬ r.HasLabel "yh" 5 := by
  obtain ⟨r, h1, -, h3, h4, -⟩ := C104_rossby (c := row "yh" [5, 15] (fun _ => fin (4 : ℚ)))
    (f := row "yh" [15, 25] (fun _ => fin 10)) (row_proper _ (by decide) _) (row_proper _ (by decide) _)
  have hy : "yh" ∈ r.arr.dimNames := (h3 _).2 (Or.inl (by simp [row, DA.dimNames]))
  refine ⟨r, h1, ?_, ?_⟩
  · rw [h4 _ _ hy]; simp [row, LA.HasLabel]
  · rw [h4 _ _ hy]; simp [row, LA.HasLabel, DA.dimNames]

/-- `C102_same`, `C103_same`: arrays of one dataset with three labelled columns. -/
example (idx : Index Nat) : ∃ a b : DA (Fl ℚ), Sized (fun _ => 3) a ∧ Sized (fun _ => 3) b ∧
    calcMassoL (⟨a, idx⟩ : LA Nat (Fl ℚ)) ⟨b, idx⟩ "time" = .ok ⟨calcMasso a b "time", idx⟩ ∧
    applyEosL "Wright" "density" (⟨a, idx⟩ : LA Nat (Fl ℚ)) ⟨a, idx⟩ ⟨b, idx⟩
      = (applyEos "Wright" "density" a a b).map (fun r => ⟨r, idx⟩) := by
  have h : ∀ f : Env → Fl ℚ, Sized (fun _ => 3) (⟨[("xh", 3)], f⟩ : DA (Fl ℚ)) := by
    intro f p hp
    rw [List.mem_singleton.1 hp]
  exact ⟨⟨[("xh", 3)], fun e => fin (e "xh")⟩, ⟨[("xh", 3)], fun _ => fin 1⟩, h _, h _, C103_same (h _) (h _) _,
    C102_same (h _) (h _) (h _)⟩

end Momlevel.Props
