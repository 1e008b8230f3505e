import Verif.Model.Align
import Verif.Lemmas.Steric

/-! Alignment of arrays with equal labels. -/

set_option linter.unusedSectionVars false

namespace Momlevel
open Fl Eos Props

/-- Every dimension of the array has the size given by `size`. -/
def Sized {V : Type} (size : String → Nat) (a : DA V) : Prop := ∀ p ∈ a.dims, p.2 = size p.1

variable {L V W U : Type} [DecidableEq L] {size : String → Nat}
variable {K : Type} [Field K] [LinearOrder K]

theorem Sized.size_eq {a : DA V} (h : Sized size a) {d : String} (hd : d ∈ a.dimNames) :
    a.size d = size d := by
  unfold DA.size
  cases hf : a.dims.find? (fun p => p.1 == d) with
  | none =>
    obtain ⟨p, hp, rfl⟩ := List.mem_map.1 hd
    simpa using List.find?_eq_none.1 hf p hp
  | some p =>
    have hm := List.mem_of_find?_eq_some hf
    have hp := List.find?_some hf
    have : p.1 = d := by simpa using hp
    simp [h p hm, this]

theorem Sized.bdims {a b : List (String × Nat)} (ha : ∀ p ∈ a, p.2 = size p.1)
    (hb : ∀ p ∈ b, p.2 = size p.1) : ∀ p ∈ DA.bdims a b, p.2 = size p.1 := by
  intro p hp
  unfold DA.bdims at hp
  rcases List.mem_append.1 hp with hp | hp
  · exact ha p hp
  · exact hb p (List.mem_filter.1 hp).1

theorem Sized.zip {f : V → W → U} {a : DA V} {b : DA W} (ha : Sized size a) (hb : Sized size b) :
    Sized size (DA.zip f a b) := Sized.bdims ha hb

theorem Sized.zip3 {X : Type} {f : V → W → U → X} {a : DA V} {b : DA W} {c : DA U} (ha : Sized size a)
    (hb : Sized size b) (hc : Sized size c) : Sized size (DA.zip3 f a b c) :=
  Sized.bdims (Sized.bdims ha hb) hc

theorem Sized.map {f : V → W} {a : DA V} (ha : Sized size a) : Sized size (a.map f) := ha

theorem Sized.scalar (v : V) : Sized size (DA.scalar v) := by simp [Sized, DA.scalar]

theorem Sized.transpose {a : DA V} (ha : Sized size a) (d : String) : Sized size (a.transposeFirst d) := by
  intro p hp
  rcases List.mem_append.1 hp with hp | hp <;> exact ha p (List.mem_filter.1 hp).1

theorem Sized.isel {a : DA V} (ha : Sized size a) (d : String) (i : Nat) : Sized size (a.isel d i) :=
  fun p hp => ha p (List.mem_filter.1 hp).1

theorem Sized.squeeze {a : DA V} (ha : Sized size a) : Sized size a.squeeze :=
  fun p hp => ha p (List.mem_filter.1 hp).1

theorem Sized.sumDim {a : DA (Fl K)} (ha : Sized size a) (d : String) : Sized size (a.sumDim d) :=
  fun p hp => ha p (List.mem_filter.1 hp).1

theorem Sized.sumDims {a : DA (Fl K)} (ha : Sized size a) (ds : List String) : Sized size (a.sumDims ds) :=
  fun p hp => ha p (List.mem_filter.1 hp).1

theorem Sized.sumAll {a : DA (Fl K)} : Sized size a.sumAll := by simp [Sized, DA.sumAll]

theorem Sized.transposeE {a b : DA V} (ha : Sized size a) {d : String} (h : a.transposeE d = .ok b) :
    Sized size b := by
  obtain ⟨-, -, rfl⟩ := transposeE_ok h
  exact ha.transpose d

theorem Sized.sumDimE {a b : DA (Fl K)} (ha : Sized size a) {d : String} (h : a.sumDimE d = .ok b) :
    Sized size b := by
  obtain ⟨-, rfl⟩ := sumDimE_ok h
  exact ha.sumDim d

theorem Sized.iselE {a b : DA V} (ha : Sized size a) {d : String} {i : Int} (h : a.iselE d i = .ok b) :
    Sized size b := by
  unfold DA.iselE at h
  split at h
  · simp only [bind_ok, pure_ok] at h
    obtain ⟨k, -, rfl⟩ := h
    exact ha.isel d k
  · cases h

/-- Every variable of the dataset has the sizes given by `size`. -/
def SizedDS (size : String → Nat) (d : DS (Fl K)) : Prop := ∀ p ∈ d.vars, Sized size p.2

theorem lookup_mem' {A : Type} {l : List (String × A)} {k : String} {v : A} (h : l.lookup k = some v) :
    (k, v) ∈ l := by
  induction l with
  | nil => cases h
  | cons p l ih =>
    rw [List.lookup_cons] at h
    by_cases hk : (k == p.1) = true
    · rw [hk] at h
      have : k = p.1 := by simpa using hk
      have h2 : p.2 = v := Option.some.inj h
      subst this; subst h2
      exact List.mem_cons_self
    · rw [Bool.not_eq_true] at hk
      rw [hk] at h
      exact List.mem_cons_of_mem _ (ih h)

theorem SizedDS.getVar {d : DS (Fl K)} (h : SizedDS size d) {n : String} {a : DA (Fl K)}
    (ha : d.getVar n = .ok a) : Sized size a := h _ (lookup_mem' (getVar_lookup.1 ha))

theorem SizedDS.getAttr {d : DS (Fl K)} (h : SizedDS size d) {n : String} {a : DA (Fl K)}
    (ha : d.getAttr n = .ok a) : Sized size a := by
  unfold DS.getAttr at ha
  split at ha
  · rename_i b hb
    cases ha
    exact h _ (lookup_mem' hb)
  · cases ha

theorem SizedDS.getItem {d : DS (Fl K)} (h : SizedDS size d) {n : String} {a : DA (Fl K)}
    (ha : d.getItem n = .ok a) : Sized size a := by
  unfold DS.getItem at ha
  split at ha
  · rename_i b hb
    cases ha
    exact h _ (lookup_mem' hb)
  · split at ha
    · rename_i m hm
      cases ha
      obtain ⟨q, hq, hq2⟩ := List.mem_flatMap.1 (lookup_mem' hm)
      intro p hp
      simp only [List.mem_singleton] at hp
      subst hp
      exact h q hq _ hq2
    · cases ha

theorem Sized.calcRho {a b c r : DA (Fl K)} {eos : String} (ha : Sized size a) (hb : Sized size b)
    (hc : Sized size c) (h : calcRho a b c eos = .ok r) : Sized size r := by
  obtain ⟨f, -, rfl⟩ := calcRho_ok h
  exact ha.zip3 hb hc

theorem Sized.calcMasso {a b : DA (Fl K)} {t : String} (ha : Sized size a) (hb : Sized size b) :
    Sized size (calcMasso a b t) := Sized.sumDims (Sized.zip ha hb) _

theorem Sized.calcVolo {a v : DA (Fl K)} (h : calcVolo a = .ok v) : Sized size v := by
  simp only [Momlevel.calcVolo, bind_ok, pure_ok] at h
  obtain ⟨-, -, rfl⟩ := h
  exact Sized.sumAll

theorem Sized.pressure {d : DS (Fl K)} (h : SizedDS size d) {zc : String} {patm p : DA (Fl K)}
    (hp : Sized size patm) (hr : pressureField d zc patm = .ok p) : Sized size p := by
  simp only [pressureField, bind_ok, pure_ok] at hr
  obtain ⟨z, hz, rfl⟩ := hr
  exact Sized.zip (Sized.zip (h.getItem hz) (Sized.scalar _)) hp

theorem Sized.refSlice {d : DS (Fl K)} (h : SizedDS size d) {n tc : String} {i : Int} {a : DA (Fl K)}
    (ha : refSlice d n tc i = .ok a) : Sized size a := by
  simp only [Momlevel.refSlice, bind_ok, pure_ok] at ha
  obtain ⟨x, hx, y, hy, rfl⟩ := ha
  exact ((h.getVar hx).iselE hy).squeeze

theorem SizedDS.setup {d r : DS (Fl K)} (h : SizedDS size d) {patm : DA (Fl K)} (hp : Sized size patm)
    {eos : String} {cn : DictArg} {i : Int} (hr : setupReferenceState d patm eos cn i = .ok r) :
    SizedDS size r := by
  simp only [setupReferenceState, bind_ok, pure_ok] at hr
  obtain ⟨⟨tc, zc, zb⟩, -, p, hp', th, h1, so, h2, vol, h3, rho, h4, volo, h5, area, h6, rfl⟩ := hr
  have k1 := Sized.refSlice h h1
  have k2 := Sized.refSlice h h2
  have k3 := Sized.refSlice h h3
  have k4 := k1.calcRho k2 (Sized.pressure h hp hp') h4
  intro q hq
  simp only [List.mem_cons, List.not_mem_nil, or_false] at hq
  rcases hq with rfl | rfl | rfl | rfl | rfl | rfl | rfl | rfl
  · exact k1
  · exact k2
  · exact k3
  · exact k4
  · exact Sized.calcVolo h5
  · exact k4.calcMasso k3
  · exact Sized.zip (k4.calcMasso k3) (Sized.calcVolo h5)
  · exact h.getAttr h6

theorem Sized.calcDz {z zi dep dz : DA (Fl K)} (hz : Sized size z) (hd : Sized size dep)
    (h : calcDz z zi dep = .ok dz) : Sized size dz := by
  have hl : ∀ b, Sized size (limitDepth dep b) := by
    intro b
    cases b <;> exact hd
  unfold Momlevel.calcDz at h
  simp only [bind_ok] at h
  obtain ⟨-, -, -, -, -, -, h⟩ := h
  split at h
  · rename_i zn n zin m e1 e2
    split at h
    · cases h
    · rw [if_neg (by simp)] at h
      have h := Except.ok.inj h
      subst h
      have hz' : ∀ p ∈ [(zn, n)], p.2 = size p.1 := by rw [← e1]; exact hz
      have hb := Sized.bdims (hl none) hz'
      have hb' := Sized.bdims hz' (hl none)
      exact Sized.bdims (Sized.bdims hb (by simp [DA.scalar]))
        (Sized.bdims (Sized.bdims hb' hb) (Sized.bdims hb hb))
  · cases h

/-! Equal labels: alignment changes nothing. -/

variable {idx : Index L}

theorem alignInner_same {a : DA V} {b : DA W} (ha : Sized size a) (hb : Sized size b) :
    LA.alignInner (⟨a, idx⟩ : LA L V) (⟨b, idx⟩ : LA L W) = .ok (⟨a, idx⟩, ⟨b, idx⟩) := by
  unfold LA.alignInner
  have key : ∀ l : List String, (∀ d ∈ l, d ∈ a.dimNames ∧ d ∈ b.dimNames) →
      l.foldlM (fun (p : LA L V × LA L W) d => LA.alignDim p.1 p.2 d) (⟨a, idx⟩, ⟨b, idx⟩)
        = .ok ((⟨a, idx⟩ : LA L V), (⟨b, idx⟩ : LA L W)) := by
    intro l
    induction l with
    | nil => intro _; rfl
    | cons d l ih =>
      intro hd
      have h1 : LA.alignDim (⟨a, idx⟩ : LA L V) (⟨b, idx⟩ : LA L W) d = .ok (⟨a, idx⟩, ⟨b, idx⟩) := by
        obtain ⟨h1, h2⟩ := hd d List.mem_cons_self
        unfold LA.alignDim
        cases hi : idx d with
        | none => simp [hi, ha.size_eq h1, hb.size_eq h2]
        | some la => simp [hi]
      rw [List.foldlM_cons, h1, ok_bind]
      exact ih (fun x hx => hd x (List.mem_cons_of_mem _ hx))
  refine key _ (fun d hd => ?_)
  have := List.mem_filter.1 hd
  exact ⟨this.1, by simpa using this.2⟩

theorem alignExact_same {a : DA V} {b : DA W} (ha : Sized size a) (hb : Sized size b) :
    LA.alignExact (⟨a, idx⟩ : LA L V) (⟨b, idx⟩ : LA L W) = .ok () := by
  unfold LA.alignExact
  rw [if_pos]
  rw [List.all_eq_true]
  intro d hd
  have := List.mem_filter.1 hd
  have h1 := this.1
  have h2 : d ∈ b.dimNames := by simpa using this.2
  unfold LA.exactDim
  cases hi : idx d with
  | none => simp [hi, ha.size_eq h1, hb.size_eq h2]
  | some la => simp [hi]

theorem mergeIdx_same {a : DA V} {b : DA W} :
    LA.mergeIdx (⟨a, idx⟩ : LA L V) (⟨b, idx⟩ : LA L W) = idx := by
  funext d
  simp [LA.mergeIdx]

theorem zipInner_same {f : V → W → U} {a : DA V} {b : DA W} (ha : Sized size a) (hb : Sized size b) :
    LA.zipInner f (⟨a, idx⟩ : LA L V) (⟨b, idx⟩ : LA L W) = .ok ⟨DA.zip f a b, idx⟩ := by
  simp only [LA.zipInner, alignInner_same ha hb, ok_bind, mergeIdx_same]
  rfl

theorem zipExact_same {f : V → W → U} {a : DA V} {b : DA W} (ha : Sized size a) (hb : Sized size b) :
    LA.zipExact f (⟨a, idx⟩ : LA L V) (⟨b, idx⟩ : LA L W) = .ok ⟨DA.zip f a b, idx⟩ := by
  simp only [LA.zipExact, alignExact_same ha hb, ok_bind, mergeIdx_same]
  rfl

theorem calcRhoL_same {a b c : DA (Fl K)} {eos : String} (ha : Sized size a) (hb : Sized size b)
    (hc : Sized size c) : calcRhoL (⟨a, idx⟩ : LA L (Fl K)) ⟨b, idx⟩ ⟨c, idx⟩ eos
      = (calcRho a b c eos).map (fun r => ⟨r, idx⟩) := by
  simp only [calcRhoL, alignExact_same ha hb, alignExact_same ha hc, alignExact_same hb hc, ok_bind,
    mergeIdx_same]
  cases hf : eosFuncFromStr (α := Fl K) eos "density" with
  | error e => simp only [error_bind, calcRho, applyEos, hf]; rfl
  | ok f =>
    rw [ok_bind]
    cases calcRho a b c eos <;> rfl

end Momlevel
